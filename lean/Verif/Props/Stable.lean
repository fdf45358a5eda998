import Verif.Props.RoundTrip
import Verif.Stable.Law
import Verif.Stable.Writers

/-!
# Reading what was written from what was read (C59, C68)

`Clean` is a condition on the document alone: tags, attributes and the language of number strings.
-/

namespace JLaw

/-- **C59.** A law read from any document in which nothing is lossy, at any depth of nesting, is
read back unchanged from what is written for it. -/
theorem C59_clean_law_stable (n : Nat) (e : Element) (x : Law (lvl n)) (he : Clean e)
    (h : Law.parser e = .ok x) : Law.parser x.toXml = .ok x :=
  (C28_law_survives n x).2 (Law.gives (lvl_reads n) he x h)

/-- **C68.** What is written for a law never has anything lossy in it: writing a law, whatever it
contains, gives a document of the kind that `C59_clean_law_stable` speaks of. -/
theorem C68_written_clean (n : Nat) (x : Law (lvl n)) : Clean x.toXml :=
  Law.written (lvl_writes n) x

/-- **C68.** A second round trip changes nothing that the first one has not changed already: this
holds for every law whatever. -/
theorem C68_second_round_trip (n : Nat) (x y : Law (lvl n)) (h : Law.parser x.toXml = .ok y) :
    Law.parser y.toXml = .ok y :=
  C59_clean_law_stable n x.toXml y (C68_written_clean n x) h

/-! ## The exclusions are needed -/

/-- Element without attributes. -/
def plainNode (n : String) (c : List XMLNode) : XMLNode := .element n [] c

/-- A law with the given main provision, preceded and followed in the body by the given nodes. -/
def lawDoc (pre main post : List XMLNode) : Element :=
  ⟨"Law", [("Era", "Reiwa"), ("Year", "5"), ("Num", "1"), ("LawType", "Act"),
      ("Lang", "ja")],
    [plainNode "LawNum" [.text "令和五年法律第一号"],
      plainNode "LawBody" (pre ++ plainNode "MainProvision" main :: post)]⟩

/-- A paragraph with the given number and the given nodes at its end. -/
def paraNode (num : String) (c : List XMLNode) : XMLNode :=
  .element "Paragraph" [("Num", num)]
    (plainNode "ParagraphNum" [] ::
      plainNode "ParagraphSentence" [plainNode "Sentence" [.text "本文"]] :: c)

/-- A table with one cell with the given attributes. -/
def cellNode (a : Attrs) : XMLNode :=
  plainNode "TableStruct" [plainNode "Table" [plainNode "TableRow" [.element "TableColumn" a []]]]

/-- Reading succeeds, and reading what is written for the result either fails or gives a law with
another `obs`. -/
def seenUnstable (n : Nat) (obs : Law (lvl n) → List Nat) (e : Element) : Bool :=
  match Law.parser (L := lvl n) e with
  | .ok x => match Law.parser x.toXml with
    | .ok y => obs x != obs y
    | _ => true
  | _ => false

/-- What `seenUnstable` shows. -/
theorem seenUnstable_spec {n : Nat} {obs : Law (lvl n) → List Nat} {e : Element}
    (h : seenUnstable n obs e = true) :
    ∃ x : Law (lvl n), Law.parser e = .ok x ∧ Law.parser x.toXml ≠ .ok x := by
  unfold seenUnstable at h
  split at h
  case h_2 => cases h
  case h_1 x hx =>
    refine ⟨x, hx, fun hy => ?_⟩
    rw [hy] at h
    simp at h

/-- The document is read, but the law is not read back from what is written for it. -/
def Unstable (e : Element) : Prop :=
  ∃ x : Law (lvl 2), Law.parser e = .ok x ∧ Law.parser x.toXml ≠ .ok x

/-- Of a law: sizes of what the observations below need. -/
def lawObs (x : Law (lvl 2)) : List Nat :=
  [(x.law_body.toc.bind (·.toc_label)).isSome.toNat] ++
  (x.law_body.appdx.map fun a => a.arith_formula_num.isSome.toNat) ++
  ((x.law_body.appdx.flatMap (·.arith_formula)).map fun a => a.num.isSome.toNat) ++
  x.law_body.main_provision.children.flatMap fun c => match c with
    | .paragraph p => p.num.range_end_numbers.length ::
        p.struct_list.flatMap fun s => match s with
          | .tableStruct t => (t.body.table_row.flatMap (·.columns)).flatMap
              fun (c : TableColumn (lvl 1)) => [c.align.isSome.toNat, c.valign.isSome.toNat]
          | _ => []
    | _ => []

/-- **C59.** None of the exclusions in `Clean` can be dropped: for every constructor of `Lossy`, and
for every tag in the first, there is a document that is read and whose law is not read back. -/
theorem C59_exclusions_needed :
    -- a new provision
    Unstable (lawDoc [] [paraNode "1" [plainNode "AmendProvision"
      [plainNode "NewProvision" [paraNode "1" []]]]] []) ∧
    -- the label of the preamble in a table of contents
    Unstable (lawDoc [plainNode "TOC" [plainNode "TOCPreambleLabel" [.text "前文"]]] [] []) ∧
    -- an appendix of a supplementary provision
    Unstable (lawDoc [] [] [plainNode "SupplProvision"
      [plainNode "SupplProvisionLabel" [.text "附則"], plainNode "SupplProvisionAppdx" []]]) ∧
    -- labelled remarks
    Unstable (lawDoc [] [] [plainNode "AppdxTable"
      [plainNode "Remarks" [plainNode "RemarksLabel" [.text "備考"]]]]) ∧
    -- a titled table of a supplementary provision
    Unstable (lawDoc [] [] [plainNode "SupplProvision"
      [plainNode "SupplProvisionLabel" [.text "附則"], plainNode "SupplProvisionAppdxTable"
        [plainNode "SupplProvisionAppdxTableTitle" [.text "附則別表"]]]]) ∧
    -- an appendix with related articles
    Unstable (lawDoc [] [] [plainNode "Appdx" [plainNode "RelatedArticleNum" [.text "第一条"]]]) ∧
    -- a formula with a number
    Unstable (lawDoc [] [] [plainNode "Appdx" [.element "ArithFormula" [("Num", "1")] []]]) ∧
    -- a cell with an alignment
    Unstable (lawDoc [] [paraNode "1" [cellNode [("Align", "center")]]] []) ∧
    -- a cell with a vertical alignment
    Unstable (lawDoc [] [paraNode "1" [cellNode [("Valign", "top")]]] []) ∧
    -- a range of numbers without branch number
    Unstable (lawDoc [] [paraNode "1:3" []] []) := by
  refine ⟨?_, ?_, ?_, ?_, ?_, ?_, ?_, ?_, ?_, ?_⟩ <;>
    exact seenUnstable_spec (obs := lawObs) (by decide +kernel)

/-! ## Examples -/

/-- A document that no writer writes: the table of contents comes after the main provision. -/
def cleanDoc : Element :=
  lawDoc [] [paraNode "3" []] [plainNode "TOC" [plainNode "TOCLabel" [.text "目次"]]]

theorem cleanDoc_clean : Clean cleanDoc := by
  have h1 : ∀ s, Attrs.get [("Num", "1")] "Num" = some s → GoodNumber s := by
    rintro s ⟨⟩
    exact (by decide +kernel : ArticleNumber.numStr ⟨1, [], []⟩ = "1") ▸ goodNumber_numStr _
  have h3 : ∀ s, Attrs.get [("Num", "3")] "Num" = some s → GoodNumber s := by
    rintro s ⟨⟩
    exact (by decide +kernel : ArticleNumber.numStr ⟨3, [], []⟩ = "3") ▸ goodNumber_numStr _
  have plain : ∀ {n : String} {c : List XMLNode}, n ∉ riskyTags → CleanKids c →
      CleanNode (plainNode n c) := fun hn hc => Clean.plain hn hc
  refine Clean.numbered (by decide) (fun s hs => h1 s hs) ?_
  refine .cons (plain (by decide) (.cons (.text _) .nil)) (.cons (plain (by decide) ?_) .nil)
  refine .cons (plain (by decide) (.cons ?_ .nil))
    (.cons (plain (by decide) (.cons (plain (by decide) (.cons (.text _) .nil)) .nil)) .nil)
  exact Clean.numbered (by decide) (fun s hs => h3 s hs)
    (.cons (plain (by decide) .nil) (.cons (plain (by decide)
      (.cons (plain (by decide) (.cons (.text _) .nil)) .nil)) .nil))

/-- `C59_clean_law_stable` at a document that is read and is not what is written. -/
example : ∃ x : Law (lvl 2), Law.parser cleanDoc = .ok x ∧ Law.parser x.toXml = .ok x ∧
    x.law_body.toc.isSome ∧ x.law_body.main_provision.children.length = 1 := by
  have h : (match Law.parser (L := lvl 2) cleanDoc with
    | .ok x => x.law_body.toc.isSome && x.law_body.main_provision.children.length == 1
    | _ => false) = true := by decide +kernel
  split at h
  case h_2 => cases h
  case h_1 x hx =>
    simp only [Bool.and_eq_true, beq_iff_eq] at h
    exact ⟨x, hx, C59_clean_law_stable 2 _ x cleanDoc_clean hx, h⟩

/-- `C68_second_round_trip` at a law that the first round trip changes. -/
example : ∃ x y : Law (lvl 2), x ≠ y ∧ Law.parser x.toXml = .ok y ∧ Law.parser y.toXml = .ok y := by
  have h : (match Law.parser (L := lvl 2) (lawDoc [] [paraNode "1:3" []] []) with
    | .ok x => match Law.parser (L := lvl 2) x.toXml with
      | .ok y => lawObs x != lawObs y
      | _ => false
    | _ => false) = true := by decide +kernel
  split at h
  case h_2 => cases h
  case h_1 x hx =>
    split at h
    case h_2 => cases h
    case h_1 y hy =>
      refine ⟨x, y, ?_, hy, C68_second_round_trip 2 x y hy⟩
      rintro rfl
      simp at h

end JLaw
