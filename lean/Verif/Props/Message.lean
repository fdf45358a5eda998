import Verif.Model.Message
import Verif.Props.Verdict

/-!
# C80: the message of an error determines the error

The fields of an error are put into its message without marks around them. `Spec.Plain` names have no
blank, as all names in an XML document.
-/

namespace JLaw

namespace Spec

/-- There is no blank in the name. -/
def Plain (s : String) : Prop := ' ' ∉ s.toList

instance (s : String) : Decidable (Plain s) := inferInstanceAs (Decidable (' ' ∉ s.toList))

/-- The names of all elements of the document have no blank. -/
def PlainNames (e : Element) : Prop := ∀ x : Element, Within x.node e.node → Plain x.name

/-- The names that come first in the message have no blank. -/
def _root_.JLaw.Err.Plain : Err → Prop
  | .missingRequiredAttribute _ k => Spec.Plain k
  | .attributeParseError _ k => Spec.Plain k
  | .wrongTagName n _ => Spec.Plain n
  | .unexpectedTag n _ => Spec.Plain n
  | .parsingError what _ => Spec.Plain what
  | _ => True

end Spec

open Spec

theorem split_blank {a a' b b' : List Char} (h : ' ' ∉ a) (h' : ' ' ∉ a')
    (he : a ++ ' ' :: b = a' ++ ' ' :: b') : a = a' ∧ b = b' := by
  induction a generalizing a' with
  | nil =>
    cases a' with
    | nil => simpa using he
    | cons c a' =>
      simp only [List.nil_append, List.cons_append, List.cons.injEq] at he
      exact absurd he.1 (by rintro rfl; simp at h')
  | cons c a ih =>
    cases a' with
    | nil =>
      simp only [List.nil_append, List.cons_append, List.cons.injEq] at he
      exact absurd he.1 (by rintro rfl; simp at h)
    | cons c' a' =>
      simp only [List.cons_append, List.cons.injEq] at he
      obtain ⟨rfl, he⟩ := he
      obtain ⟨rfl, rfl⟩ := ih (fun hc => h (by simp [hc])) (fun hc => h' (by simp [hc])) he
      exact ⟨rfl, rfl⟩

private theorem message_missingRequiredAttribute (t k : String) :
    (Err.missingRequiredAttribute t k).message = "Missing required attribute of " ++ k ++ " at " ++ t ++ " tag" := rfl

private theorem message_missingRequiredTag (t : String) :
    (Err.missingRequiredTag t).message = "Missing required tag of " ++ t ++ " tag" := rfl

private theorem message_attributeParseError (t k : String) :
    (Err.attributeParseError t k).message = "Attribure parse error of " ++ k ++ " at " ++ t ++ " tag" := rfl

private theorem message_wrongTagName (n t : String) :
    (Err.wrongTagName n t).message = "Tag name is " ++ n ++ " but expected " ++ t := rfl

private theorem message_unexpectedTag (n t : String) :
    (Err.unexpectedTag n t).message = "Unexpected " ++ n ++ " tag at " ++ t := rfl

private theorem message_xmlParsing :
    Err.xmlParsing.message = "xml parsing error" := rfl

private theorem message_parsingError (what text : String) :
    (Err.parsingError what text).message = what ++ " parsing error: " ++ text := rfl

private theorem message_io :
    Err.io.message = "write error" := rfl

/-- Turn messages into lists of characters. -/
local macro "spell" : tactic => `(tactic| simp [
  message_missingRequiredAttribute, message_missingRequiredTag,
  message_attributeParseError, message_wrongTagName,
  message_unexpectedTag, message_xmlParsing, message_parsingError, message_io])

/-- Turn messages into lists of characters, in a hypothesis. -/
local macro "spellAt" h:ident : tactic => `(tactic| simp [
  message_missingRequiredAttribute, message_missingRequiredTag,
  message_attributeParseError, message_wrongTagName,
  message_unexpectedTag, message_xmlParsing, message_parsingError, message_io] at $h:ident)

theorem parsingError_message (what text : String) :
    (Err.parsingError what text).message.toList =
      what.toList ++ ' ' :: ("parsing error: ".toList ++ text.toList) := by
  spell

/-- Which other errors have a message with a word before "parsing error: ". -/
theorem parsingError_unique {what text : String} {E : Err} (hp : Spec.Plain what) (hE : E.Plain)
    (h : (Err.parsingError what text).message = E.message) : E = .parsingError what text := by
  have h := congrArg String.toList h
  rw [parsingError_message] at h
  have key : ∀ (w r : List Char), ' ' ∉ w → E.message.toList = w ++ ' ' :: r →
      what.toList = w ∧ "parsing error: ".toList ++ text.toList = r := fun w r hw hr =>
    split_blank hp hw (by rw [h, hr])
  cases E with
  | missingRequiredAttribute t k =>
    have := (key "Missing".toList ("required attribute of ".toList ++ k.toList ++ " at ".toList ++
      t.toList ++ " tag".toList) (by decide) (by spell)).2
    simp at this
  | missingRequiredTag t =>
    have := (key "Missing".toList ("required tag of ".toList ++ t.toList ++ " tag".toList)
      (by decide) (by spell)).2
    simp at this
  | attributeParseError t k =>
    have := (key "Attribure".toList ("parse error of ".toList ++ k.toList ++ " at ".toList ++
      t.toList ++ " tag".toList) (by decide) (by spell)).2
    simp at this
  | wrongTagName n t =>
    have := (key "Tag".toList ("name is ".toList ++ n.toList ++ " but expected ".toList ++ t.toList)
      (by decide) (by spell)).2
    simp at this
  | unexpectedTag n t =>
    have := (key "Unexpected".toList (n.toList ++ ' ' :: ("tag at ".toList ++ t.toList))
      (by decide) (by spell)).2
    have := (split_blank (a := "parsing".toList) (b := "error: ".toList ++ text.toList) (by decide) hE
      (by rw [← this]; simp)).2
    simp at this
  | xmlParsing =>
    have := congrArg List.length (key "xml".toList "parsing error".toList (by decide)
      (by spell)).2
    simp at this
  | parsingError what' text' =>
    obtain ⟨h1, h2⟩ := key what'.toList ("parsing error: ".toList ++ text'.toList) hE
      (parsingError_message ..)
    rw [String.toList_inj.1 h1, String.toList_inj.1 (List.append_cancel_left h2)]
  | io =>
    have := (key "write".toList "error".toList (by decide) (by spell)).2
    simp at this

/-- **C80.** Errors with the same message are the same, if the names have no blank. -/
theorem C80_message_determines (E E' : Err) (hE : E.Plain) (hE' : E'.Plain)
    (h : E.message = E'.message) : E = E' := by
  cases E with
  | parsingError what text => exact (parsingError_unique hE hE' h).symm
  | missingRequiredAttribute t k =>
    cases E' with
    | parsingError what text => exact parsingError_unique hE' hE h.symm
    | missingRequiredAttribute t' k' =>
      have h := congrArg String.toList h
      spellAt h
      obtain ⟨h1, h2⟩ := split_blank hE hE' h
      simp at h2
      rw [String.toList_inj.1 h1, String.toList_inj.1 h2]
    | _ => have h := congrArg String.toList h; spellAt h
  | missingRequiredTag t =>
    cases E' with
    | parsingError what text => exact parsingError_unique hE' hE h.symm
    | missingRequiredTag t' =>
      have h := congrArg String.toList h
      spellAt h
      rw [String.toList_inj.1 h]
    | _ => have h := congrArg String.toList h; spellAt h
  | attributeParseError t k =>
    cases E' with
    | parsingError what text => exact parsingError_unique hE' hE h.symm
    | attributeParseError t' k' =>
      have h := congrArg String.toList h
      spellAt h
      obtain ⟨h1, h2⟩ := split_blank hE hE' h
      simp at h2
      rw [String.toList_inj.1 h1, String.toList_inj.1 h2]
    | _ => have h := congrArg String.toList h; spellAt h
  | wrongTagName n t =>
    cases E' with
    | parsingError what text => exact parsingError_unique hE' hE h.symm
    | wrongTagName n' t' =>
      have h := congrArg String.toList h
      spellAt h
      obtain ⟨h1, h2⟩ := split_blank hE hE' h
      simp at h2
      rw [String.toList_inj.1 h1, String.toList_inj.1 h2]
    | _ => have h := congrArg String.toList h; spellAt h
  | unexpectedTag n t =>
    cases E' with
    | parsingError what text => exact parsingError_unique hE' hE h.symm
    | unexpectedTag n' t' =>
      have h := congrArg String.toList h
      spellAt h
      obtain ⟨h1, h2⟩ := split_blank hE hE' h
      simp at h2
      rw [String.toList_inj.1 h1, String.toList_inj.1 h2]
    | _ => have h := congrArg String.toList h; spellAt h
  | xmlParsing =>
    cases E' with
    | parsingError what text => exact parsingError_unique hE' hE h.symm
    | xmlParsing => rfl
    | _ => have h := congrArg String.toList h; spellAt h
  | io =>
    cases E' with
    | parsingError what text => exact parsingError_unique hE' hE h.symm
    | io => rfl
    | _ => have h := congrArg String.toList h; spellAt h

/-! ## The errors that are reported -/

theorem attrs_plain : ∀ p ∈ rules, ∀ q ∈ p.2.attrs, Spec.Plain q.1 := by decide +kernel

theorem rules_plain : ∀ p ∈ rules, Spec.Plain p.1 := by decide +kernel

theorem Spec.Reached.within {e x : Element} (h : Reached e x) : Within x.node e.node := by
  induction h with
  | here => exact .refl
  | step hr hx _ ih => exact .child _ _ _ _ (Exact.node_mem (mem_of_mem_read hx)) ih

theorem Within.trans {x y z : XMLNode} (h : Within x y) (h' : Within y z) : Within x z := by
  induction h' with
  | refl => exact h
  | child n a c y hm _ ih => exact .child n a c y hm ih

theorem Spec.PlainNames.child {e x y : Element} (h : PlainNames e) (hx : Reached e x)
    (hy : y.node ∈ x.children) : Spec.Plain y.name :=
  h y (Within.trans (.child x.name x.attributes x.children _ hy .refl) hx.within)

theorem rest_mem {r : Rule} {x y : Element} (h : y ∈ r.rest x) : y.node ∈ x.children :=
  List.mem_of_mem_drop (Exact.node_mem h)

/-- **C80.** In the errors for a document the names that come first in the message have no blank. -/
theorem reported_plain (n : Nat) (e : Element) (hn : e.node.height ≤ n) (hp : PlainNames e) (E : Err)
    (h : Law.parser (L := lvl n) e = .err E) : E.Plain := by
  rcases C79_truthful n e hn E h with ⟨-, rfl⟩ | ⟨x, r, hx, hr, h⟩
  · exact hp e .refl
  · have hm := mem_of_lookup hr
    have tagAt : ∀ {i m}, TagAt x i m → Spec.Plain m := fun ⟨a, d, h⟩ =>
      hp.child (y := ⟨_, a, d⟩) hx (List.mem_of_getElem? h)
    rcases h with h | h
    · cases E with
      | missingRequiredAttribute t k => obtain ⟨-, -, a, ha, -⟩ := h; exact attrs_plain _ hm _ ha
      | attributeParseError t k => obtain ⟨-, a, ha, -⟩ := h; exact attrs_plain _ hm _ ha
      | wrongTagName m t =>
        obtain ⟨-, ⟨-, y, hy, rfl⟩ | ⟨i, -, hi⟩⟩ := h
        · exact hp.child hx (rest_mem hy.1)
        · exact tagAt hi
      | unexpectedTag m t => obtain ⟨-, y, hy, rfl⟩ := h; exact hp.child hx (rest_mem hy.1)
      | parsingError what w =>
        rw [h.1]
        show Spec.Plain "usize"
        decide
      | _ => trivial
    · cases h with
      | type => show Spec.Plain "Type"; decide
      | list hs => exact rules_plain _ hm
      | first _ hi _ => exact tagAt hi
      | outer _ hy => exact hp.child hx (rest_mem hy.1)
      | same _ hy => exact hp.child hx (rest_mem hy.1)
      | _ => trivial

/-- **C80.** If two files with proper XML names are not read and the messages are the same, then the
errors are the same. -/
theorem C80_reported (n : Nat) (parse : ByteArray → Option Element)
    (file : String → Option ByteArray)
    (hn : ∀ b e, parse b = some e → e.node.height ≤ n ∧ PlainNames e) (p p' : String) (E E' : Err)
    (h : parseXmlFile (L := lvl n) parse file p = .err E)
    (h' : parseXmlFile (L := lvl n) parse file p' = .err E')
    (hm : E.message = E'.message) : E = E' := by
  have key : ∀ {p E}, parseXmlFile (L := lvl n) parse file p = .err E → E.Plain := by
    intro p E h
    unfold parseXmlFile parseXml at h
    cases hb : file p with
    | none => rw [hb] at h; cases h; trivial
    | some b =>
      rw [hb] at h
      simp only [Res.ofOption, Res.bind] at h
      cases he : parse b with
      | none => rw [he] at h; cases h; trivial
      | some e =>
        rw [he] at h
        exact reported_plain n e (hn b e he).1 (hn b e he).2 E h
  exact C80_message_determines E E' (key h) (key h') hm

/-! ## Examples -/

/-- The messages for the documents in `badDocs`. -/
example : badDocs.map (fun e => match judgeLaw e with | .wrong E => E.message | _ => "") = [
    "Unexpected Foreign tag at LawBody", "Attribure parse error of Lang at Law tag",
    "Missing required tag of MainProvision tag", "Missing required tag of ChapterTitle tag",
    "Unexpected ArticleCaption tag at Article", "usize parsing error: 1a",
    "Unexpected Division tag at Part", "Attribure parse error of Type at SupplProbision tag",
    "Attribure parse error of Style at Line tag"] := by decide +kernel

/-- A file that is no law has plain names and is reported. -/
example : PlainNames ⟨"Foreign", [], [.text "a b", plainNode "Other" []]⟩ ∧
    parseXmlFile (L := lvl 9) (fun _ => some ⟨"Foreign", [], [.text "a b", plainNode "Other" []]⟩)
      (fun _ => some .empty) "law.xml" = .err (.wrongTagName "Foreign" "Law") := by
  refine ⟨fun x h => ?_, rfl⟩
  obtain ⟨n, a, c⟩ := x
  cases h with
  | refl => show Spec.Plain "Foreign"; decide
  | child _ _ _ y hy h =>
    rcases List.mem_cons.1 hy with rfl | hy
    · cases h
    · rw [List.mem_singleton.1 hy] at h
      cases h with
      | refl => show Spec.Plain "Other"; decide
      | child _ _ _ y hy _ => cases hy

/-- Two documents with names that are not XML names. -/
def blankDocs : Element × Element :=
  (⟨"x but expected Law but expected x", [], []⟩,
   lawDoc [] [] [plainNode "SupplProvision" [plainNode "SupplProvisionAppdxTable"
    [plainNode "x but expected Law" []]]])

/-- **C80.** With blanks in names, different errors have the same message. -/
theorem C80_blanks_ambiguous : ∃ E E' : Err, E ≠ E' ∧ E.message = E'.message ∧
    Law.parser (L := lvl 9) blankDocs.1 = .err E ∧ Law.parser (L := lvl 9) blankDocs.2 = .err E' := by
  refine ⟨.wrongTagName "x but expected Law but expected x" "Law",
    .wrongTagName "x but expected Law" "x but expected Law", by decide, by decide +kernel,
    (C78_error_iff 9 _ (by decide +kernel) _).2 (by decide +kernel),
    (C78_error_iff 9 _ (by decide +kernel) _).2 (by decide +kernel)⟩

/-- **C80.** A file that cannot be opened is reported with the message for writing. -/
theorem C80_unreadable_file (n : Nat) (parse : ByteArray → Option Element)
    (file : String → Option ByteArray) (path : String) (h : file path = none) :
    ∃ E, parseXmlFile (L := lvl n) parse file path = .err E ∧ E.message = "write error" := by
  refine ⟨.io, ?_, rfl⟩
  simp [parseXmlFile, h, Res.ofOption, Res.bind]

end JLaw
