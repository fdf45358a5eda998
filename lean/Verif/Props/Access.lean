import Verif.Lemmas.Utils
import Verif.Model.Access
import Verif.Props.Num
import Verif.Props.RoundTrip

/-!
# C69 to C71: setters and getters, building texts, the number zero
-/

namespace JLaw

variable {L : Lvl}

/-! ## C69: setters and getters -/

/-- The last of the values that `sel` finds, or `dflt` if it finds none. -/
def lastSet {α β : Type} (sel : α → Option β) (dflt : β) (l : List α) : β :=
  (l.filterMap sel).getLastD dflt

theorem lastSet_snoc {α β : Type} (sel : α → Option β) (dflt : β) (l : List α) (x : α) :
    lastSet sel dflt (l ++ [x]) = (sel x).getD (lastSet sel dflt l) := by
  unfold lastSet
  rw [List.filterMap_append]
  cases h : sel x <;> simp [h, List.getLastD_eq_getLast?]

/-- Running calls one after the other, a getter that every call changes as `sel` says gives the last
value set. -/
theorem lastSet_run {σ α β : Type} (step : σ → α → σ) (get : σ → β) (sel : α → Option β)
    (h : ∀ s x, get (step s x) = (sel x).getD (get s)) (l : List α) (s : σ) :
    get (l.foldl step s) = lastSet sel (get s) l := by
  have key : ∀ r : List α, get (r.reverse.foldl step s) = lastSet sel (get s) r.reverse := by
    intro r
    induction r with
    | nil => rfl
    | cons x r ih =>
      rw [List.reverse_cons, List.foldl_append, List.foldl_cons, List.foldl_nil, h, ih, lastSet_snoc]
  simpa using key l.reverse

/-- C69: whatever setters are called on an entry of a table of contents, in whatever order, every
getter gives the last value set, with two exceptions: the article number never changes, and the
division number is the last value given to `set_division` or `set_article`. -/
theorem C69_toc_getters (t : Toc) (cs : List Toc.Call) :
    let u := cs.foldl Toc.call t
    u.getPart = lastSet (fun | .part v => some v | _ => none) t.getPart cs ∧
    u.getChapter = lastSet (fun | .chapter v => some v | _ => none) t.getChapter cs ∧
    u.getSection = lastSet (fun | .section_ v => some v | _ => none) t.getSection cs ∧
    u.getSubsection = lastSet (fun | .subsection v => some v | _ => none) t.getSubsection cs ∧
    u.getTitle = lastSet (fun | .title v => some v | _ => none) t.getTitle cs ∧
    u.getDivision =
      lastSet (fun | .division v => some v | .article v => some v | _ => none) t.getDivision cs ∧
    u.getArticle = t.getArticle := by
  refine ⟨?_, ?_, ?_, ?_, ?_, ?_, ?_⟩
  · exact lastSet_run Toc.call Toc.getPart _ (fun s x => by cases x <;> rfl) cs t
  · exact lastSet_run Toc.call Toc.getChapter _ (fun s x => by cases x <;> rfl) cs t
  · exact lastSet_run Toc.call Toc.getSection _ (fun s x => by cases x <;> rfl) cs t
  · exact lastSet_run Toc.call Toc.getSubsection _ (fun s x => by cases x <;> rfl) cs t
  · exact lastSet_run Toc.call Toc.getTitle _ (fun s x => by cases x <;> rfl) cs t
  · exact lastSet_run Toc.call Toc.getDivision _ (fun s x => by cases x <;> rfl) cs t
  · induction cs generalizing t with
    | nil => rfl
    | cons c cs ih =>
      rw [List.foldl_cons]
      refine (ih _).trans ?_
      cases c <;> rfl

/-- `set_division` after `set_article` and before `set_title`: both numbers went to the division. -/
example : ([.article (some ⟨3, [], []⟩), .part (some ⟨1, [], []⟩), .title (some "第三条")] :
    List Toc.Call).foldl Toc.call {} =
      { part_number := some ⟨1, [], []⟩, division_number := some ⟨3, [], []⟩,
        title := some "第三条" } := rfl

/-- C69: the getters of a numbered article give the last value set, without exception. -/
theorem C69_article_getters (w : WithNumberArticle L) (cs : List (WithNumberArticle.Call L)) :
    let u := cs.foldl WithNumberArticle.call w
    u.getPart = lastSet (fun | .part v => some v | _ => none) w.getPart cs ∧
    u.getChapter = lastSet (fun | .chapter v => some v | _ => none) w.getChapter cs ∧
    u.getSection = lastSet (fun | .section_ v => some v | _ => none) w.getSection cs ∧
    u.getSubsection = lastSet (fun | .subsection v => some v | _ => none) w.getSubsection cs ∧
    u.getDivision = lastSet (fun | .division v => some v | _ => none) w.getDivision cs ∧
    u.getArticle = lastSet (fun | .article v => some v | _ => none) w.getArticle cs := by
  refine ⟨?_, ?_, ?_, ?_, ?_, ?_⟩
  · exact lastSet_run WithNumberArticle.call (·.getPart) _ (fun s x => by cases x <;> rfl) cs w
  · exact lastSet_run WithNumberArticle.call (·.getChapter) _ (fun s x => by cases x <;> rfl) cs w
  · exact lastSet_run WithNumberArticle.call (·.getSection) _ (fun s x => by cases x <;> rfl) cs w
  · exact lastSet_run WithNumberArticle.call (·.getSubsection) _ (fun s x => by cases x <;> rfl) cs w
  · exact lastSet_run WithNumberArticle.call (·.getDivision) _ (fun s x => by cases x <;> rfl) cs w
  · exact lastSet_run WithNumberArticle.call (·.getArticle) _ (fun s x => by cases x <;> rfl) cs w

/-- C69: a numbered article made from an article has that article and no number but the ones set. -/
theorem C69_new_article (a : Article L) (cs : List (WithNumberArticle.Call L)) :
    let u := cs.foldl WithNumberArticle.call (.new a)
    u.getPart = lastSet (fun | .part v => some v | _ => none) none cs ∧
    u.getChapter = lastSet (fun | .chapter v => some v | _ => none) none cs ∧
    u.getSection = lastSet (fun | .section_ v => some v | _ => none) none cs ∧
    u.getSubsection = lastSet (fun | .subsection v => some v | _ => none) none cs ∧
    u.getDivision = lastSet (fun | .division v => some v | _ => none) none cs ∧
    u.getArticle = lastSet (fun | .article v => some v | _ => none) a cs :=
  C69_article_getters (.new a) cs

/-- The last number set for the part is found, the chapter set before stays, and a part set to `none`
is gone. -/
example (a : Article L) :
    let u := ([.part (some ⟨1, [], []⟩), .chapter (some ⟨2, [], []⟩), .part none] :
      List (WithNumberArticle.Call L)).foldl WithNumberArticle.call (.new a)
    u.getPart = none ∧ u.getChapter = some ⟨2, [], []⟩ ∧ u.getArticle = a := ⟨rfl, rfl, rfl⟩

/-! ## C70: building texts -/

theorem foldl_snoc {α : Type} (l r : List α) : r.foldl (fun l c => l ++ [c]) l = l ++ r := by
  induction r generalizing l with
  | nil => simp
  | cons x r ih => rw [List.foldl_cons, ih, List.append_assoc]; rfl

/-- C70: adding a text adds its plain text and its nodes at the end. -/
theorem C70_add_text (n : Nat) (t u : Text (lvl n)) :
    (t.addText u).toStr (render n) = t.toStr (render n) ++ u.toStr (render n) ∧
    (t.addText u).toChildren = t.toChildren ++ u.toChildren := by
  have h : (t.addText u).contents = t.contents ++ u.contents := foldl_snoc _ _
  constructor
  · rw [toStr_plain, toStr_plain, toStr_plain]
    cases n <;> simp [h, plainText, String.join_append]
  · simp [h, Text.toChildren]

/-- C70: the plain text after adding one piece: a line adds nothing, a ruby its base. -/
theorem C70_add_piece (R : Render L) (t : Text L) (s : String) (r : Ruby L) (l : Line L) (p : Sup)
    (b : Sub) :
    (t.addString s).toStr R = t.toStr R ++ s ∧ (t.addRuby r).toStr R = t.toStr R ++ R.text r.text ∧
    (t.addLine l).toStr R = t.toStr R ∧ (t.addSup p).toStr R = t.toStr R ++ p.text ∧
    (t.addSub b).toStr R = t.toStr R ++ b.text := by
  refine ⟨?_, ?_, ?_, ?_, ?_⟩ <;>
    simp [Text.addString, Text.addRuby, Text.addLine, Text.addSup, Text.addSub, Text.toStr,
      TextElement.push]

/-- C70: reading an element as a text looks at the element itself: it gives what the text of an
element with this one child would be, and never an error. -/
theorem C70_text_parser (e : Element) :
    Text.parser (L := L) e = Text.fromChildren [e.node] := by
  obtain ⟨n, a, c⟩ := e
  have key : ∀ (α : Type) (r : Res α) (f : Text L → α → Text L) (g : α → TextElement L),
      (∀ v, f Text.new v = ⟨[g v]⟩) →
      addOk f r Text.new = ((pushOk g r).bind fun l => Res.ok (l ++ [])).bind fun l => .ok ⟨l⟩ := by
    intro α r f g h
    cases r <;> simp [addOk, pushOk, Res.skipErr, Res.bind, h]
    rfl
  unfold Text.fromChildren
  simp only [collectRes, Element.node, TextElement.ofNode, Text.parser]
  by_cases h1 : n = "Ruby"
  · subst h1
    exact key _ _ _ _ fun _ => rfl
  by_cases h2 : n = "Line"
  · subst h2
    exact key _ _ _ _ fun _ => rfl
  by_cases h3 : n = "Sup"
  · subst h3
    exact key _ _ _ _ fun _ => rfl
  by_cases h4 : n = "Sub"
  · subst h4
    exact key _ _ _ _ fun _ => rfl
  simp [matchTag_cons, matchTag_nil, h1, h2, h3, h4, Res.bind, Text.new]

/-- C70: with a writing mode, a text is read back exactly when it is read back without. -/
theorem C70_with_writing_mode (n : Nat) (t : Text (lvl n)) (m : WritingMode) (tag : String) :
    TextWithWritingMode.parser ((t.withWritingMode m).toXml tag) = .ok (t.withWritingMode m) ↔
      Text.ofElement (t.toXml tag) = .ok t := by
  rw [C14_text_survives]
  exact TextWithWritingMode.round_trip (lvl_sound n) (t.withWritingMode m) tag

/-- C70: it is written like the text without one, with the attribute for horizontal writing and none
for vertical writing. -/
theorem C70_writing_mode_written (n : Nat) (t : Text (lvl n)) (m : WritingMode) (tag : String) :
    ((t.withWritingMode m).toXml tag).name = tag ∧
    ((t.withWritingMode m).toXml tag).children = (t.toXml tag).children ∧
    ((t.withWritingMode m).toXml tag).attributes =
      (match m with
        | .horizontal => [("WritingMode", "horizontal")]
        | .vertical => []) := by
  cases m <;> exact ⟨rfl, rfl, rfl⟩

/-- A text built piece by piece. -/
example : (((Text.new.addString "第").addRuby ⟨(⟨[.text "漢"]⟩ : Text (lvl 0)), "かん"⟩).addSup
    ⟨"2"⟩ : Text (lvl 1)).toStr (render 1) = "第漢2" := by decide +kernel

/-! ## C71: the number zero -/

/-- C71: `is_zero` holds exactly for the numbers whose string is `0` or starts with `0_`. The string
is `0` for `zero` and for every range from zero without branch numbers. -/
theorem C71_is_zero (n : ArticleNumber) :
    (n.isZero = true ↔ n.numStr = "0" ∨ "0_".toList <+: n.numStr.toList) ∧
    (n.numStr = "0" ↔ ∃ r, n = { ArticleNumber.zero with range_end_numbers := r }) := by
  obtain ⟨b, eda, r⟩ := n
  have h0 : digits 0 = ['0'] := by decide +kernel
  have hlen : ∀ w tl tl' : List Char, (∀ c ∈ w, c ≠ '_') → w ≠ [] →
      w ++ tl = '0' :: '_' :: tl' → w = ['0'] := by
    intro w tl tl' hw hne h
    match w, hne with
    | [c], _ =>
      simp only [List.singleton_append, List.cons.injEq] at h
      rw [h.1]
    | c :: d :: w, _ =>
      simp only [List.cons_append, List.cons.injEq] at h
      exact absurd h.2.1 (hw d (by simp))
  have hu : ∀ c ∈ digits b.val, c ≠ '_' := fun c hc h => by
    subst h
    exact digits_not_mem (by decide) hc
  have hd : digits b.val = ['0'] → b = 0 := fun h => Fin.ext (digits_injective (h.trans h0.symm))
  have hs : ∀ l : List Char, String.ofList l = "0" ↔ l = ['0'] := by
    intro l
    constructor
    · intro h
      have := congrArg String.toList h
      simpa using this
    · rintro rfl
      rfl
  have h1 : ArticleNumber.numStr ⟨b, eda, r⟩ = "0" ↔ b = 0 ∧ eda = [] := by
    rw [ArticleNumber.numStr, hs, ArticleNumber.numChars]
    constructor
    · intro h
      cases eda with
      | nil => exact ⟨hd (by simpa using h), rfl⟩
      | cons e es =>
        have := congrArg List.length h
        have h2 := List.length_pos_iff.2 (digits_ne_nil b.val)
        simp at this
        omega
    · rintro ⟨rfl, rfl⟩
      simpa using h0
  refine ⟨?_, ?_⟩
  · rw [h1]
    simp only [ArticleNumber.isZero, beq_iff_eq]
    constructor
    · rintro rfl
      cases eda with
      | nil => exact .inl ⟨rfl, rfl⟩
      | cons e es =>
        refine .inr ⟨digits e.val ++ ArticleNumber.rangeSuffix r ++
          es.flatMap fun n => '_' :: digits n.val ++ ArticleNumber.rangeSuffix r, ?_⟩
        simp [ArticleNumber.numStr, ArticleNumber.numChars, h0]
    · rintro (h | ⟨tl, h⟩)
      · exact h.1
      · refine hd (hlen _ (eda.flatMap fun n => '_' :: digits n.val ++ ArticleNumber.rangeSuffix r)
          tl hu (digits_ne_nil _) ?_)
        simpa [ArticleNumber.numStr, ArticleNumber.numChars] using h.symm
  · rw [h1]
    constructor
    · rintro ⟨rfl, rfl⟩
      exact ⟨r, rfl⟩
    · rintro ⟨r', h⟩
      simp only [ArticleNumber.zero, ArticleNumber.mk.injEq] at h
      exact ⟨h.1, h.2.1⟩

/-- 零の二 is zero for `is_zero` but is not `zero`. -/
example : ArticleNumber.isZero ⟨0, [2], []⟩ = true ∧ (⟨0, [2], []⟩ : ArticleNumber) ≠ .zero := by
  simp [ArticleNumber.isZero, ArticleNumber.zero]

end JLaw
