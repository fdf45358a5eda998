import Verif.Model.Io
import Verif.Props.RoundTrip

/-!
# Writing to a string and to a file agree (C38)
-/

namespace JLaw

namespace Spec

/-- Bytes one after the other. -/
def join (l : List ByteArray) : ByteArray := l.foldr (· ++ ·) ByteArray.empty

/-- The chunks that a writer hands over when it is always told that everything was written, and whether
it ends with success then. -/
def handsOver : Emit → List ByteArray × Bool
  | .done => ([], true)
  | .fail => ([], false)
  | .write buf next => (buf :: (handsOver (next (.ok buf.size))).1, (handsOver (next (.ok buf.size))).2)
  | .flush next => handsOver (next (.ok ()))

/-- A writer gives up when it is told of invalid data. -/
def GivesUp : Emit → Prop
  | .done => True
  | .fail => True
  | .write _ next => next (.error .invalidData) = .fail ∧ ∀ r, GivesUp (next r)
  | .flush next => ∀ r, GivesUp (next r)

/-- A `Write` such as a vector of bytes, that always takes everything: `content` is what it has. -/
structure TakesAll {σ : Type} (W : Sink σ) (content : σ → ByteArray) : Prop where
  answer : ∀ w buf, (W.write w buf).1 = .ok buf.size
  write : ∀ w buf, content (W.write w buf).2 = content w ++ buf
  flushes : ∀ w, (W.flush w).1 = .ok ()
  flush : ∀ w, content (W.flush w).2 = content w

/-- A `Write` that has taken what it says it has taken, and nothing when it reports an error. -/
structure Honest {σ : Type} (W : Sink σ) (content : σ → ByteArray) : Prop where
  write : ∀ w buf n, (W.write w buf).1 = .ok n → n ≤ buf.size →
    content (W.write w buf).2 = content w ++ buf.extract 0 n
  error : ∀ w buf e, (W.write w buf).1 = .error e → content (W.write w buf).2 = content w

end Spec

open Spec

theorem write_valid (s : String) {buf : ByteArray} (hv : buf.IsValidUTF8) :
    ∃ t, writableString.write s buf = (.ok buf.size, s ++ t) ∧ t.toByteArray = buf := by
  refine ⟨String.fromUTF8 buf hv, ?_, rfl⟩
  simp only [writableString, String.fromUTF8?, dif_pos hv]
  rfl

theorem write_invalid (s : String) {buf : ByteArray} (hv : ¬ buf.IsValidUTF8) :
    writableString.write s buf = (.error .invalidData, s) := by
  simp only [writableString, String.fromUTF8?, dif_neg hv]

theorem run_string (e : Emit) (hg : GivesUp e) (s : String) :
    ((e.run writableString s).1 = true ↔
      (handsOver e).2 = true ∧ ∀ b ∈ (handsOver e).1, b.IsValidUTF8) ∧
    ((e.run writableString s).1 = true →
      (e.run writableString s).2.toByteArray = s.toByteArray ++ join (handsOver e).1) := by
  induction e generalizing s with
  | done => simp [Emit.run, handsOver, join]
  | fail => simp [Emit.run, handsOver]
  | write buf next ih =>
    simp only [GivesUp] at hg
    by_cases hv : buf.IsValidUTF8
    · obtain ⟨t, hw, ht⟩ := write_valid s hv
      simp only [Emit.run, handsOver, hw]
      obtain ⟨i1, i2⟩ := ih (.ok buf.size) (hg.2 _) (s ++ t)
      refine ⟨by rw [i1]; simp [hv], fun h => ?_⟩
      rw [i2 h, String.toByteArray_append, ht]
      simp [join, ByteArray.append_assoc]
    · simp only [Emit.run, handsOver, write_invalid s hv, hg.1]
      simp [hv]
  | flush next ih =>
    simp only [GivesUp] at hg
    exact ih (.ok ()) (hg _) s

theorem run_takesAll {σ : Type} {W : Sink σ} {content : σ → ByteArray} (hW : TakesAll W content)
    (e : Emit) (w : σ) :
    (e.run W w).1 = (handsOver e).2 ∧ content (e.run W w).2 = content w ++ join (handsOver e).1 := by
  induction e generalizing w with
  | done => simp [Emit.run, handsOver, join]
  | fail => simp [Emit.run, handsOver, join]
  | write buf next ih =>
    simp only [Emit.run, handsOver, hW.answer]
    obtain ⟨h1, h2⟩ := ih (.ok buf.size) (W.write w buf).2
    refine ⟨h1, ?_⟩
    rw [h2, hW.write]
    simp [join, ByteArray.append_assoc]
  | flush next ih =>
    simp only [Emit.run, handsOver, hW.flushes]
    obtain ⟨h1, h2⟩ := ih (.ok ()) (W.flush w).2
    exact ⟨h1, by rw [h2, hW.flush]⟩

variable {L : Lvl}

/-- C38. `to_xml` gives a string exactly when the XML writer succeeds and hands over nothing but chunks
of valid UTF-8; then the string is all chunks together. Otherwise it gives the input/output error. -/
theorem C38_to_xml (emit : Element → Emit) (law : Law L) (hg : GivesUp (emit law.toXml)) :
    (∀ s, toXmlString emit law = .ok s ↔
      (handsOver (emit law.toXml)).2 = true ∧
      (∀ b ∈ (handsOver (emit law.toXml)).1, b.IsValidUTF8) ∧
      s.toByteArray = join (handsOver (emit law.toXml)).1) ∧
    ((∀ s, toXmlString emit law ≠ .ok s) → toXmlString emit law = .err .io) := by
  obtain ⟨h1, h2⟩ := run_string (emit law.toXml) hg ""
  rw [toXmlString]
  cases hr : (emit law.toXml).run writableString "" with
  | mk b s' =>
    rw [hr] at h1 h2
    cases b with
    | true =>
      simp only [true_iff, forall_const] at h1 h2
      refine ⟨fun s => ?_, fun h => absurd rfl (h s')⟩
      simp only [Res.ok.injEq]
      rw [← String.toByteArray_inj, h2]
      simp [h1.1, eq_comm]
      exact fun _ => h1.2
    | false =>
      simp only [Bool.false_eq_true, false_iff, not_and] at h1
      refine ⟨fun s => ?_, fun _ => rfl⟩
      simp only [reduceCtorEq, false_iff, not_and]
      exact fun h hv => absurd hv (h1 h)

/-- C38. Written to something that takes everything, the content grows by all chunks together, and the
outcome is that of the XML writer. -/
theorem C38_write_file {σ : Type} (emit : Element → Emit) (W : Sink σ) (content : σ → ByteArray)
    (hW : TakesAll W content) (law : Law L) (w : σ) :
    (writeFile emit W law w).1 =
      (if (handsOver (emit law.toXml)).2 then .ok () else .err .io) ∧
    content (writeFile emit W law w).2 = content w ++ join (handsOver (emit law.toXml)).1 := by
  obtain ⟨h1, h2⟩ := run_takesAll hW (emit law.toXml) w
  rw [writeFile]
  cases hr : (emit law.toXml).run W w with
  | mk b w' =>
    rw [hr] at h1 h2
    simp only at h1 h2
    rw [← h1]
    cases b <;> exact ⟨rfl, h2⟩

/-- C38. When `to_xml` gives a string, `write_file` succeeds and writes this string. -/
theorem C38_agree {σ : Type} (emit : Element → Emit) (W : Sink σ) (content : σ → ByteArray)
    (hW : TakesAll W content) (law : Law L) (hg : GivesUp (emit law.toXml)) (w : σ) (s : String)
    (hs : toXmlString emit law = .ok s) :
    (writeFile emit W law w).1 = .ok () ∧
    content (writeFile emit W law w).2 = content w ++ s.toByteArray := by
  obtain ⟨h1, -, h3⟩ := ((C38_to_xml emit law hg).1 s).mp hs
  obtain ⟨g1, g2⟩ := C38_write_file emit W content hW law w
  rw [g1, g2, h1, h3]
  exact ⟨rfl, rfl⟩

theorem giveUp_writeAll (buf : ByteArray) {next : Emit} (hn : GivesUp next) (retries : Nat) :
    GivesUp (.writeAll buf next retries) := by
  fun_induction Emit.writeAll buf next retries with
  | case1 => exact hn
  | case2 buf retries hsz ih1 ih2 =>
    refine ⟨rfl, fun r => ?_⟩
    rcases r with e | n
    · rcases e with _ | _ | _
      · cases retries with
        | zero => trivial
        | succ r => exact ih2
      · trivial
      · trivial
    · simp only
      split
      · rename_i h
        exact ih1 n h
      · trivial

theorem giveUp_chunks (retries : Nat) (ok : Bool) (bs : List ByteArray) :
    GivesUp (.chunks retries ok bs) := by
  induction bs with
  | nil => cases ok <;> trivial
  | cons b bs ih => exact giveUp_writeAll b ih retries

theorem handsOver_writeAll (buf : ByteArray) (next : Emit) (retries : Nat) :
    (handsOver (.writeAll buf next retries)).2 = (handsOver next).2 ∧
    join (handsOver (.writeAll buf next retries)).1 = buf ++ join (handsOver next).1 := by
  rw [Emit.writeAll.eq_def]
  split
  · rename_i h
    rw [ByteArray.size_eq_zero_iff.mp h]
    simp
  · rename_i h
    have h0 : Emit.writeAll (buf.extract buf.size buf.size) next retries = next := by
      rw [Emit.writeAll.eq_def, if_pos (by simp)]
    simp only [handsOver, Nat.le_refl, and_true, Nat.pos_of_ne_zero h, if_true, h0]
    simp [join]

theorem handsOver_chunks (retries : Nat) (ok : Bool) (bs : List ByteArray) :
    (handsOver (.chunks retries ok bs)).2 = ok ∧
    join (handsOver (.chunks retries ok bs)).1 = join bs := by
  induction bs with
  | nil => cases ok <;> simp [Emit.chunks, handsOver, join]
  | cons b bs ih =>
    obtain ⟨h1, h2⟩ := handsOver_writeAll b (.chunks retries ok bs) retries
    exact ⟨h1.trans ih.1, by rw [Emit.chunks, h2, ih.2]; rfl⟩

theorem run_writeAll {σ : Type} {W : Sink σ} {content : σ → ByteArray} (hW : Honest W content)
    (buf : ByteArray) (next : Emit) (retries : Nat) (w w' : σ)
    (h : (Emit.writeAll buf next retries).run W w = (true, w')) :
    ∃ w₁, content w₁ = content w ++ buf ∧ next.run W w₁ = (true, w') := by
  fun_induction Emit.writeAll buf next retries generalizing w with
  | case1 buf retries hz =>
    exact ⟨w, by rw [ByteArray.size_eq_zero_iff.mp hz, ByteArray.append_empty], h⟩
  | case2 buf retries hz ih1 ih2 =>
    simp only [Emit.run] at h
    cases ha : (W.write w buf).1 with
    | error e =>
      rw [ha] at h
      cases e with
      | interrupted =>
        cases retries with
        | zero => cases h
        | succ r =>
          obtain ⟨w₁, h1, h2⟩ := ih2 _ h
          exact ⟨w₁, by rw [h1, hW.error _ _ _ ha], h2⟩
      | invalidData => cases h
      | other => cases h
    | ok n =>
      rw [ha] at h
      simp only at h
      split at h
      · rename_i hn
        obtain ⟨w₁, h1, h2⟩ := ih1 n hn _ h
        refine ⟨w₁, ?_, h2⟩
        rw [h1, hW.write _ _ _ ha hn.2, ByteArray.append_assoc, ByteArray.extract_append_extract,
          Nat.zero_min, Nat.max_eq_right hn.2, ByteArray.extract_zero_size]
      · cases h

theorem run_chunks {σ : Type} {W : Sink σ} {content : σ → ByteArray} (hW : Honest W content)
    (retries : Nat) (ok : Bool) (bs : List ByteArray) (w w' : σ)
    (h : (Emit.chunks retries ok bs).run W w = (true, w')) :
    ok = true ∧ content w' = content w ++ join bs := by
  induction bs generalizing w with
  | nil =>
    cases ok with
    | true => cases h; simp [join]
    | false => cases h
  | cons b bs ih =>
    obtain ⟨w₁, h1, h2⟩ := run_writeAll hW b _ retries w w' h
    obtain ⟨i1, i2⟩ := ih w₁ h2
    exact ⟨i1, by rw [i2, h1]; simp [join, ByteArray.append_assoc]⟩

/-- C38. With an XML writer that uses `write_all`, the same holds for every honest `Write`, which may
take only a part of what it is given, be interrupted, or fail: whenever `to_xml` gives a string and
`write_file` succeeds, the string has been written. -/
theorem C38_agree_any_write {σ : Type} (chunks : Element → List ByteArray) (ok : Element → Bool)
    (W : Sink σ) (content : σ → ByteArray) (hW : Honest W content) (law : Law L) (retries : Nat)
    (w : σ) (s : String)
    (hs : toXmlString (fun e => .chunks retries (ok e) (chunks e)) law = .ok s)
    (hw : (writeFile (fun e => .chunks retries (ok e) (chunks e)) W law w).1 = .ok ()) :
    content (writeFile (fun e => .chunks retries (ok e) (chunks e)) W law w).2 =
      content w ++ s.toByteArray := by
  obtain ⟨-, -, h3⟩ := ((C38_to_xml _ law (giveUp_chunks _ _ _)).1 s).mp hs
  rw [(handsOver_chunks _ _ _).2] at h3
  rw [writeFile] at hw ⊢
  cases hr : (Emit.chunks retries (ok law.toXml) (chunks law.toXml)).run W w with
  | mk b w' =>
    rw [hr] at hw
    cases b with
    | false => cases hw
    | true => rw [h3]; exact (run_chunks hW _ _ _ _ _ hr).2

/-- C38. Such a writer of valid UTF-8 never makes `to_xml` fail. -/
theorem C38_to_xml_succeeds (chunks : Element → List ByteArray) (law : Law L) (retries : Nat)
    (hv : ∀ b ∈ chunks law.toXml, b.IsValidUTF8) :
    ∃ s, toXmlString (fun e => .chunks retries true (chunks e)) law = .ok s ∧
      s.toByteArray = join (chunks law.toXml) := by
  have hb : ∀ bs : List ByteArray, (∀ b ∈ bs, b.IsValidUTF8) →
      (∀ b ∈ (handsOver (.chunks retries true bs)).1, b.IsValidUTF8) ∧
      (join bs).IsValidUTF8 := by
    intro bs
    induction bs with
    | nil => intro _; exact ⟨by simp [Emit.chunks, handsOver], ByteArray.isValidUTF8_empty⟩
    | cons b bs ih =>
      intro h
      obtain ⟨i1, i2⟩ := ih fun b hb => h b (by simp [hb])
      have hb := h b (by simp)
      refine ⟨?_, hb.append i2⟩
      rw [Emit.chunks, Emit.writeAll.eq_def]
      split
      · exact i1
      · rename_i hz
        have h0 : Emit.writeAll (b.extract b.size b.size) (.chunks retries true bs) retries =
            .chunks retries true bs := by
          rw [Emit.writeAll.eq_def, if_pos (by simp)]
        simp only [handsOver, Nat.le_refl, and_true, Nat.pos_of_ne_zero hz, if_true, h0]
        intro c hc
        rcases List.mem_cons.mp hc with rfl | hc
        · exact hb
        · exact i1 c hc
  obtain ⟨h1, h2⟩ := hb _ hv
  refine ⟨String.fromUTF8 _ h2, ((C38_to_xml _ law (giveUp_chunks _ _ _)).1 _).mpr ⟨?_, h1, ?_⟩, rfl⟩
  · exact (handsOver_chunks _ _ _).1
  · exact (handsOver_chunks _ _ _).2.symm

/-- C38. If the XML reader gives the written element back, a law that keeps its XML is read back from
the string, and from a file with the string as its content. -/
theorem C38_documents_round_trip (n : Nat) (emit : Element → Emit) (parse : ByteArray → Option Element)
    (law : Law (lvl n)) (hk : law.Keeps (kcanon n)) (s : String) (_hs : toXmlString emit law = .ok s)
    (hp : parse s.toByteArray = some law.toXml)
    (file : String → Option ByteArray) (path : String) (hf : file path = some s.toByteArray) :
    parseXml parse s.toByteArray = .ok law ∧ parseXmlFile parse file path = .ok law := by
  have h : parseXml parse s.toByteArray = .ok law := by
    rw [parseXml, hp]
    exact (C28_law_survives n law).mpr hk
  exact ⟨h, by rw [parseXmlFile, hf]; exact h⟩

/-- A vector of bytes. -/
def vecSink : Sink ByteArray where
  write w buf := (.ok buf.size, w ++ buf)
  flush w := (.ok (), w)

theorem vecSink_takesAll : TakesAll vecSink id :=
  ⟨fun _ _ => rfl, fun _ _ => rfl, fun _ => rfl, fun _ => rfl⟩

/-- A `Write` that is interrupted every other time and then takes one byte. -/
def slowSink : Sink (Bool × ByteArray) where
  write w buf :=
    if w.1 then (.ok (min 1 buf.size), (false, w.2 ++ buf.extract 0 (min 1 buf.size)))
    else (.error .interrupted, (true, w.2))
  flush w := (.ok (), w)

theorem slowSink_honest : Honest slowSink Prod.snd := by
  constructor
  · rintro ⟨b, w⟩ buf n h hn
    cases b with
    | true => simp only [slowSink, if_true, Except.ok.injEq] at h ⊢; rw [h]
    | false => cases h
  · rintro ⟨b, w⟩ buf e h
    cases b with
    | true => cases h
    | false => rfl

/-- A document in two chunks, written to a string. -/
example : toXmlString (fun e => .chunks 1 true ["<".toUTF8, e.name.toUTF8]) sampleLaw = .ok "<Law" := by
  obtain ⟨s, hs, hb⟩ := C38_to_xml_succeeds (fun e => ["<".toUTF8, e.name.toUTF8]) sampleLaw 1
    (by simp [String.isValidUTF8])
  rw [hs]
  congr 1
  rw [← String.toByteArray_inj, hb]
  decide

/-- A document of two bytes written byte by byte, with interruptions. -/
example : (writeFile (fun _ => .chunks 2 true ["<a".toUTF8]) slowSink sampleLaw
    (false, ByteArray.empty)).1 = .ok () := by
  have h2 : "<a".toUTF8.size = 2 := by decide
  simp only [writeFile, Emit.chunks]
  rw [Emit.writeAll.eq_def, if_neg (by rw [h2]; decide)]
  simp only [Emit.run, slowSink, Bool.false_eq_true, if_false]
  rw [Emit.writeAll.eq_def, if_neg (by rw [h2]; decide)]
  simp only [Emit.run, if_true, h2]
  rw [if_pos (by decide), Emit.writeAll.eq_def, if_neg (by decide)]
  simp only [Emit.run, Bool.false_eq_true, if_false]
  rw [Emit.writeAll.eq_def, if_neg (by decide)]
  simp only [Emit.run, if_true]
  rw [if_pos (by decide), Emit.writeAll.eq_def, if_pos (by decide)]
  rfl

/-- C38. A chunk that ends inside a character makes `to_xml` fail, while a file is written. -/
theorem C38_chunk_inside_character (law : Law L) :
    toXmlString (fun _ => .chunks 0 true [⟨#[0xE6]⟩, ⟨#[0xB3, 0x95]⟩]) law = .err .io ∧
    writeFile (fun _ => .chunks 0 true [⟨#[0xE6]⟩, ⟨#[0xB3, 0x95]⟩]) vecSink law ByteArray.empty =
      (.ok (), "法".toUTF8) := by
  constructor
  · refine (C38_to_xml _ law (giveUp_chunks _ _ _)).2 fun s hs => ?_
    obtain ⟨-, h, -⟩ := ((C38_to_xml _ law (giveUp_chunks _ _ _)).1 s).mp hs
    have h := h ⟨#[0xE6]⟩ (by
      rw [Emit.chunks, Emit.writeAll.eq_def, if_neg (by decide), handsOver]
      simp)
    revert h
    decide +kernel
  · obtain ⟨h1, h2⟩ := C38_write_file (fun _ => .chunks 0 true [⟨#[0xE6]⟩, ⟨#[0xB3, 0x95]⟩]) vecSink id
      vecSink_takesAll law ByteArray.empty
    rw [(handsOver_chunks _ _ _).1] at h1
    rw [(handsOver_chunks _ _ _).2] at h2
    exact Prod.ext h1 (h2.trans (by decide +kernel))

end JLaw
