import Verif.Lemmas.XmlText
import Verif.Props.Io
import Verif.Props.Settle
import Verif.Reading.SettleWritten

/-!
# C98: laws as XML texts

The theorems on files assume of the XML reader that it gives back what a file keeps of the document
that has been written. Here this is proved of a writer that indents and a reader that skips blank
texts, and what follows for laws is stated without the assumption.
-/

namespace JLaw

open Spec

/-- **C98.** Reading the XML text that is written for a document gives what a file keeps of it. -/
theorem C98_document (e : Element) (hp : SimpleNames e) (hc : NoComments e) :
    readXml (writeXml e) = some (settle e) := by
  refine readXml_writeXml fun y hy => ?_
  cases y with
  | element n a c => exact hp n a c hy
  | text s => trivial
  | _ => cases hc _ hy

/-- **C98.** So the document itself comes back exactly if no text follows another one and no text is
blank. -/
theorem C98_exact (e : Element) (hp : SimpleNames e) (hc : NoComments e) :
    readXml (writeXml e) = some e ↔ Settled e := by
  rw [C98_document e hp hc, Option.some.injEq, (C88_settle e).2.1]

/-- **C98.** Two documents with the same XML text differ in how their texts are divided and in blank
texts only. -/
theorem C98_same_text (e e' : Element) (hp : SimpleNames e) (hc : NoComments e) (hp' : SimpleNames e')
    (hc' : NoComments e') (h : writeXml e = writeXml e') : settle e = settle e' := by
  have h1 := C98_document e hp hc
  rw [h, C98_document e' hp' hc'] at h1
  exact (Option.some.inj h1).symm

/-- Whether a string is a simple name. -/
def simpleName (s : String) : Bool := !s.toList.isEmpty && s.toList.all (·.isAlphanum)

theorem simpleName_iff (s : String) : simpleName s = true ↔ SimpleName s := by
  simp [simpleName, SimpleName]

theorem schema_simple : (schema.all fun p => simpleName p.1 &&
    p.2.all fun f => f.attrs.all fun t => simpleName t.name) = true := by decide +kernel

/-- **C98.** Whatever the law, its tags and attributes have simple names. -/
theorem C98_simple_names (n : Nat) (x : Law (lvl n)) : SimpleNames x.toXml := by
  intro t a c h
  cases C75_every_element n x ⟨t, a, c⟩ h with
  | intro e forms f hl hf ha _ _ =>
    have hm := List.all_eq_true.1 schema_simple _ (mem_of_lookup hl)
    simp only [Bool.and_eq_true, List.all_eq_true] at hm
    refine ⟨(simpleName_iff _).1 hm.1, fun p hp => ?_⟩
    obtain ⟨t', ht, hn, -⟩ := ha.listed p hp
    exact (simpleName_iff _).1 (hn ▸ hm.2 f hf t' ht)

/-- **C98.** The XML text of a law is read as what a file keeps of its document, whatever the law. -/
theorem C98_law (n : Nat) (x : Law (lvl n)) : readXml (writeXml x.toXml) = some (settle x.toXml) :=
  C98_document _ (C98_simple_names n x) (written_plain x)

/-! ## The functions of src/lib.rs with this writer and reader -/

/-- The writer, as a sequence of calls of `write`. -/
def emitXml (e : Element) : Emit := .chunks 0 true [(String.ofList (writeXml e)).toByteArray]

/-- The reader, from bytes. -/
def parseBytes (b : ByteArray) : Option Element := (String.fromUTF8? b).bind fun s => readXml s.toList

theorem parseBytes_string (s : String) : parseBytes s.toByteArray = readXml s.toList := by
  rw [parseBytes, String.fromUTF8?, dif_pos s.isValidUTF8]
  rfl

/-- **C98.** `to_xml` gives the XML text of the law. -/
theorem C98_to_xml {n : Nat} (law : Law (lvl n)) :
    toXmlString emitXml law = .ok (String.ofList (writeXml law.toXml)) := by
  obtain ⟨s, h1, h2⟩ := C38_to_xml_succeeds
    (fun e => [(String.ofList (writeXml e)).toByteArray]) law 0
    (fun b hb => by rw [List.mem_singleton.1 hb]; exact String.isValidUTF8 _)
  have h3 : s = String.ofList (writeXml law.toXml) := by
    rw [← String.toByteArray_inj, h2]
    simp [join]
  rw [← h3]
  exact h1

/-- **C98.** A law comes back from its XML text, and from a file with the text, exactly if it keeps
its XML and is written as a quiet document. Nothing is assumed about the reader. -/
theorem C98_files (n : Nat) (law : Law (lvl n)) (hn : law.toXml.node.height ≤ n) (s : String)
    (hs : toXmlString emitXml law = .ok s) (file : String → Option ByteArray) (path : String)
    (hf : file path = some s.toByteArray) :
    (parseXml parseBytes s.toByteArray = .ok law ↔ law.Keeps (kcanon n) ∧ Quiet law.toXml) ∧
    (parseXmlFile parseBytes file path = .ok law ↔ law.Keeps (kcanon n) ∧ Quiet law.toXml) := by
  refine C88_files n emitXml parseBytes law hn s hs ?_ file path hf
  cases (C98_to_xml law).symm.trans hs
  rw [parseBytes_string, String.toList_ofList, C98_law]

/-- **C98.** The same for `write_file` with any `Write` that takes what it is given. -/
theorem C98_write_file {σ : Type} (n : Nat) (law : Law (lvl n)) (hn : law.toXml.node.height ≤ n)
    (W : Sink σ) (content : σ → ByteArray) (hW : TakesAll W content) (w : σ)
    (hw : content w = ByteArray.empty) :
    (writeFile emitXml W law w).1 = .ok () ∧
    (parseXml parseBytes (content (writeFile emitXml W law w).2) = .ok law ↔
      law.Keeps (kcanon n) ∧ Quiet law.toXml) := by
  obtain ⟨h1, h2⟩ := C38_agree emitXml W content hW law (giveUp_chunks _ _ _) w _ (C98_to_xml law)
  refine ⟨h1, ?_⟩
  rw [h2, hw, ByteArray.empty_append]
  exact (C98_files n law hn _ (C98_to_xml law) (fun _ => some _) "" rfl).1

/-- **C98.** Reading an XML file, writing the law and reading what has been written gives the same law
again, if the file has nothing lossy, no comments, and no text cut in two by something that is not
read. -/
theorem C98_again (n : Nat) (b : ByteArray) (e : Element) (hb : parseBytes b = some e)
    (hn : e.node.height + 1 ≤ n) (hs : Settled e) (hp : NoComments e) (hu : WholeTexts e)
    (hc : Clean e) (x : Law (lvl n)) (h : parseXml parseBytes b = .ok x) :
    parseXml parseBytes (String.ofList (writeXml x.toXml)).toByteArray = .ok x := by
  rw [parseXml, hb] at h
  rw [parseXml, parseBytes_string, String.toList_ofList, C98_law]
  exact C88_read_written n e hn hs hp hu hc x h

/-- **C98.** The document in the XML text of a law is one in which no text follows another one and no
text is blank. -/
theorem C98_settled (n : Nat) (x : Law (lvl n)) :
    ∃ e, readXml (writeXml x.toXml) = some e ∧ Settled e :=
  ⟨_, C98_law n x, (C88_settle _).1⟩

/-- **C98.** A law with an article that `parse_text` builds does not come back from its XML text. The
hypotheses are those of `C89_from_text`, with whose example one finds a law that meets them. -/
theorem C98_from_text (n : Nat) (E : Ext) (cal : Calendar) (fuel : Nat) (text : List Char)
    (year : Usize) (month day : Option Usize) (lawType : LawType) (lang : Lang)
    (num : Option ArticleNumber) (lawNum : String) (title : List Char) (x : Law (lvl n))
    (h : parseText E cal fuel text year month day lawType lang num lawNum title = .ok (some x))
    (ha : (articleListFromMainProvision x.law_body.main_provision).1 ≠ [])
    (hn : x.toXml.node.height ≤ n) :
    parseXml parseBytes (String.ofList (writeXml x.toXml)).toByteArray ≠ .ok x := by
  rw [parseXml, parseBytes_string, String.toList_ofList, C98_law]
  exact C89_from_text n E cal fuel text year month day lawType lang num lawNum title x h ha hn

/-! ## Examples -/

/-- A sentence with a ruby between two texts, of which the second one stands in two pieces, a blank
text between two elements, and characters that must be escaped. -/
def mixedDoc : Element :=
  ⟨"Sentence", [("Num", "1"), ("Function", "\"a\" & <b>")],
    [.text "甲<", .element "Ruby" [] [.text "乙", .element "Rt" [] [.text "おつ"]], .text "丙", .text "&丁",
      .element "Sup" [] [.text "2"], .text " ", .element "Sub" [] []]⟩

/-- Its XML text. -/
example : String.ofList (writeXml mixedDoc) =
    "<?xml version=\"1.0\" encoding=\"UTF-8\"?>
<Sentence Num=\"1\" Function=\"&quot;a&quot; &amp; &lt;b&gt;\">甲&lt;<Ruby>乙<Rt>おつ</Rt>
  </Ruby>丙&amp;丁<Sup>2</Sup> <Sub />
</Sentence>" := by decide +kernel

theorem simple_names_of {e : Element} (h : everywhere (fun
    | .element n a _ => simpleName n && a.all fun p => simpleName p.1
    | _ => true) e.node = true) : SimpleNames e := fun n a c hw => by
  have := everywhere_spec hw h
  simp only [Bool.and_eq_true, List.all_eq_true, simpleName_iff] at this
  exact ⟨this.1, fun p hp => this.2 p hp⟩

/-- `C98_document`, `C98_exact` and `C98_same_text` at this document, which does not come back, and at
another one with the same text. -/
example : SimpleNames mixedDoc ∧ NoComments mixedDoc ∧ ¬ Settled mixedDoc ∧
    ∃ e, SimpleNames e ∧ NoComments e ∧ writeXml e = writeXml mixedDoc ∧ e ≠ mixedDoc := by
  refine ⟨simple_names_of (by decide +kernel), no_comments_of (by decide +kernel), fun h =>
    (h "Sentence" _ _ .refl).1, ⟨mixedDoc.name, mixedDoc.attributes, .text "甲" :: .text "<" ::
      mixedDoc.children.drop 1⟩, simple_names_of (by decide +kernel), no_comments_of (by decide +kernel),
      by decide +kernel, fun h => absurd (congrArg (fun e => e.children.length) h) (by decide +kernel)⟩

/-- What is not well-formed is not read. -/
example : readXml "<a><b></a></b>".toList = none ∧ readXml "<a>".toList = none ∧
    readXml "<a>&x;</a>".toList = none ∧ readXml "<a/><b/>".toList = none ∧
    readXml "x<a/>".toList = none := by decide +kernel

/-- `C98_files` and `C98_write_file` at a law that comes back although its document does not. -/
example : ∃ x : Law (lvl 12), x.toXml.node.height ≤ 12 ∧ x.Keeps (kcanon 12) ∧ Quiet x.toXml ∧
    parseXml parseBytes (String.ofList (writeXml x.toXml)).toByteArray = .ok x ∧
    readXml (writeXml x.toXml) ≠ some x.toXml := by
  obtain ⟨x, hx⟩ := isRead_iff.1 (by decide +kernel : isRead 12 (rewrite unnamed) = true)
  have hw := C77_law_rewritten 12 _ (by decide +kernel) x hx
  have he : rewrite (rewrite unnamed) = rewrite unnamed := by with_unfolding_all rfl
  rw [he] at hw
  have hh : x.toXml.node.height ≤ 12 := by rw [hw]; decide +kernel
  have hq : Quiet x.toXml := by rw [hw]; exact quiet_of (by decide +kernel)
  have hk : Law.parser x.toXml = .ok x := by rw [hw]; exact hx
  have hk' := (C28_law_survives 12 x).1 hk
  refine ⟨x, hh, hk', hq, (C98_files 12 x hh _ (C98_to_xml x) (fun _ => some _) "" rfl).1.2 ⟨hk', hq⟩, ?_⟩
  rw [C98_law, hw]
  exact fun h => absurd (congrArg (fun e => (e.map fun e => e.children.map fun x => (kidsOf x).length)) h)
    (by decide +kernel)

/-- A sink to which `C98_write_file` applies. -/
example : TakesAll vecSink id ∧ id ByteArray.empty = ByteArray.empty := ⟨vecSink_takesAll, rfl⟩

/-- `C98_again` at a file with a document that is not what is written. -/
example : parseBytes (String.ofList (writeXml cleanDoc)).toByteArray = some cleanDoc ∧
    Settled cleanDoc ∧ NoComments cleanDoc ∧ WholeTexts cleanDoc ∧ Clean cleanDoc ∧
    cleanDoc.node.height + 1 ≤ 12 ∧ ∃ x : Law (lvl 12),
      parseXml parseBytes (String.ofList (writeXml cleanDoc)).toByteArray = .ok x ∧
      x.toXml ≠ cleanDoc := by
  have hs : Settled cleanDoc := (settle_eq_iff _).1 (by with_unfolding_all rfl)
  have hc : NoComments cleanDoc := no_comments_of (by decide +kernel)
  have hb : parseBytes (String.ofList (writeXml cleanDoc)).toByteArray = some cleanDoc := by
    rw [parseBytes_string, String.toList_ofList]
    exact (C98_exact _ (simple_names_of (by decide +kernel)) hc).2 hs
  obtain ⟨x, hx⟩ := isRead_iff.1 (by decide +kernel : isRead 12 cleanDoc = true)
  refine ⟨hb, hs, hc, whole_of (by decide +kernel), cleanDoc_clean, by decide +kernel, x,
    by rw [parseXml, hb]; exact hx, ?_⟩
  rw [C77_law_rewritten 12 _ (by decide +kernel) x hx]
  exact fun h => absurd (congrArg (fun e => e.attributes) h) (by decide +kernel)

end JLaw
