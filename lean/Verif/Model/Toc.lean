import Verif.Model.Article

/-! # Tables of contents, src/table_of_contents.rs -/

namespace JLaw

variable {L : Lvl}

/-- `TOCPart`, `TOCChapter`, `TOCSection` and `TOCSubsection` have the same fields up to the name of
the title and the type of the children; `TOCDivision` has no field for children and is modelled with
an empty type in its place. Source: src/table_of_contents.rs 129-140, 205-216, 281-292, 375-386. -/
structure TOCOf (L : Lvl) (γ : Type) where
  title : Text L
  article_range : Option (Text L)
  num : ArticleNumber
  delete : Bool
  children : List γ

/-- State of the loop in the five readers. Source: src/table_of_contents.rs 142-178, 218-254,
294-334, 388-424, 464-494. -/
structure TOCOf.St (L : Lvl) (γ : Type) where
  title : Text L := Text.new
  article_range : Option (Text L) := none
  children : List γ := []

/-- Body of the loop in the five readers, e.g. src/table_of_contents.rs 150-165 for `TOCPart`. -/
def TOCOf.step {γ : Type} (titleTag : String) (arms : List (String × (Element → Res γ)))
    (outer : Element) (s : TOCOf.St L γ) : Element → Res (TOCOf.St L γ) :=
  matchTag [
    (titleTag, fun e => (Text.ofElement e).bind fun v => .ok { s with title := v }),
    ("ArticleRange", fun e => (Text.ofElement e).bind fun v =>
      .ok { s with article_range := some v })]
    (matchTag (childArms arms fun v => .ok { s with children := s.children ++ [v] })
      (unexpected outer))

/-- The common shape of the five readers, e.g. src/table_of_contents.rs 142-178 for `TOCPart`. -/
def TOCOf.parser {γ : Type} (tag titleTag : String) (arms : List (String × (Element → Res γ)))
    (e : Element) : Res (TOCOf L γ) :=
  if e.name = tag then
    (getAttributeWithParse ArticleNumber.parse? e "Num").bind fun num =>
    (getBool e "Delete").bind fun delete =>
    (forElems (TOCOf.step titleTag arms e) {} e.children).bind fun s =>
    .ok ⟨s.title, s.article_range, num, delete, s.children⟩
  else .err (wrongTagName e tag)

/-- The common shape of the five writers, e.g. src/table_of_contents.rs 180-201 for `TOCPart`. -/
def TOCOf.toXml {γ : Type} (tag titleTag : String) (childXml : γ → Element) (x : TOCOf L γ) :
    Element :=
  { name := tag
    attributes := (Attrs.insert [] "Num" x.num.numStr).insertTrue "Delete" x.delete
    children := [(x.title.toXml titleTag).node] ++
      (x.article_range.toList.map fun t => (t.toXml "ArticleRange").node) ++
      x.children.map fun c => (childXml c).node }

/-- `TOCDivision`, src/table_of_contents.rs 453-462. -/
abbrev TOCDivision (L : Lvl) := TOCOf L Empty
/-- `TOCDivision::parser`, src/table_of_contents.rs 464-494. -/
def TOCDivision.parser : Element → Res (TOCDivision L) :=
  TOCOf.parser "TOCDivision" "DivisionTitle" []
/-- `TOCDivision::to_xml_element`, src/table_of_contents.rs 496-516. -/
def TOCDivision.toXml : TOCDivision L → Element :=
  TOCOf.toXml "TOCDivision" "DivisionTitle" Empty.elim

/-- `TOCSubsection`, src/table_of_contents.rs 375-386. -/
abbrev TOCSubsection (L : Lvl) := TOCOf L (TOCDivision L)
/-- `TOCSubsection::parser`, src/table_of_contents.rs 388-424. -/
def TOCSubsection.parser : Element → Res (TOCSubsection L) :=
  TOCOf.parser "TOCSubsection" "SubsectionTitle" [("TOCDivision", TOCDivision.parser)]
/-- `TOCSubsection::to_xml_element`, src/table_of_contents.rs 426-449. -/
def TOCSubsection.toXml : TOCSubsection L → Element :=
  TOCOf.toXml "TOCSubsection" "SubsectionTitle" TOCDivision.toXml

/-- `TOCSectionContents`, src/table_of_contents.rs 366-371. -/
inductive TOCSectionContents (L : Lvl)
  | tocSubsection (v : TOCSubsection L)
  | tocDivision (v : TOCDivision L)
/-- Element written for it, src/table_of_contents.rs 348-353. -/
def TOCSectionContents.toXml : TOCSectionContents L → Element
  | .tocDivision v => TOCDivision.toXml v
  | .tocSubsection v => TOCSubsection.toXml v
/-- Arms of the `match`, src/table_of_contents.rs 311-318. -/
def TOCSectionContents.arms : List (String × (Element → Res (TOCSectionContents L))) := [
  ("TOCSubsection", fun e => (TOCSubsection.parser e).bind fun v => .ok (.tocSubsection v)),
  ("TOCDivision", fun e => (TOCDivision.parser e).bind fun v => .ok (.tocDivision v))]

/-- `TOCSection`, src/table_of_contents.rs 281-292. -/
abbrev TOCSection (L : Lvl) := TOCOf L (TOCSectionContents L)
/-- `TOCSection::parser`, src/table_of_contents.rs 294-334. -/
def TOCSection.parser : Element → Res (TOCSection L) :=
  TOCOf.parser "TOCSection" "SectionTitle" TOCSectionContents.arms
/-- `TOCSection::to_xml_element`, src/table_of_contents.rs 336-362. -/
def TOCSection.toXml : TOCSection L → Element :=
  TOCOf.toXml "TOCSection" "SectionTitle" TOCSectionContents.toXml

/-- `TOCChapter`, src/table_of_contents.rs 205-216. -/
abbrev TOCChapter (L : Lvl) := TOCOf L (TOCSection L)
/-- `TOCChapter::parser`, src/table_of_contents.rs 218-254. -/
def TOCChapter.parser : Element → Res (TOCChapter L) :=
  TOCOf.parser "TOCChapter" "ChapterTitle" [("TOCSection", TOCSection.parser)]
/-- `TOCChapter::to_xml_element`, src/table_of_contents.rs 256-277. -/
def TOCChapter.toXml : TOCChapter L → Element :=
  TOCOf.toXml "TOCChapter" "ChapterTitle" TOCSection.toXml

/-- `TOCPart`, src/table_of_contents.rs 129-140. -/
abbrev TOCPart (L : Lvl) := TOCOf L (TOCChapter L)
/-- `TOCPart::parser`, src/table_of_contents.rs 142-178. -/
def TOCPart.parser : Element → Res (TOCPart L) :=
  TOCOf.parser "TOCPart" "PartTitle" [("TOCChapter", TOCChapter.parser)]
/-- `TOCPart::to_xml_element`, src/table_of_contents.rs 180-201. -/
def TOCPart.toXml : TOCPart L → Element :=
  TOCOf.toXml "TOCPart" "PartTitle" TOCChapter.toXml

/-- `TOCArticle`, src/table_of_contents.rs 520-529. -/
structure TOCArticle (L : Lvl) where
  article_title : Text L
  article_caption : Caption L
  num : ArticleNumber
  delete : Bool

/-- State of the loop in `TOCArticle::parser`. Source: src/table_of_contents.rs 531-568. -/
structure TOCArticle.St (L : Lvl) where
  article_title : Text L := Text.new
  article_caption : Option (Caption L) := none

/-- Body of the loop in `TOCArticle::parser`, src/table_of_contents.rs 538-551. -/
def TOCArticle.step (outer : Element) (s : TOCArticle.St L) : Element → Res (TOCArticle.St L) :=
  matchTag [
    ("ArticleTitle", fun e => (Text.ofElement e).bind fun v => .ok { s with article_title := v }),
    ("ArticleCaption", fun e => (Caption.parser e).bind fun v =>
      .ok { s with article_caption := some v })]
    (unexpected outer)

/-- `TOCArticle::parser`, src/table_of_contents.rs 531-568. -/
def TOCArticle.parser (e : Element) : Res (TOCArticle L) :=
  if e.name = "TOCArticle" then
    (getAttributeWithParse ArticleNumber.parse? e "Num").bind fun num =>
    (getBool e "Delete").bind fun delete =>
    (forElems (TOCArticle.step e) {} e.children).bind fun s =>
    match s.article_caption with
    | some caption => .ok ⟨s.article_title, caption, num, delete⟩
    | none => .err (.missingRequiredTag "Caption")
  else .err (wrongTagName e "TOCArticle")

/-- `TOCArticle::to_xml_element`, src/table_of_contents.rs 570-588. -/
def TOCArticle.toXml (x : TOCArticle L) : Element :=
  { name := "TOCArticle"
    attributes := (Attrs.insert [] "Num" x.num.numStr).insertTrue "Delete" x.delete
    children := [(x.article_title.toXml "ArticleTitle").node,
      (x.article_caption.toXml "ArticleCaption").node] }

/-- `TOCSupplProvisionContents`, src/table_of_contents.rs 668-673. -/
inductive TOCSupplProvisionContents (L : Lvl)
  | tocArticle (v : TOCArticle L)
  | tocChapter (v : TOCChapter L)
/-- Element written for it, src/table_of_contents.rs 652-660. -/
def TOCSupplProvisionContents.toXml : TOCSupplProvisionContents L → Element
  | .tocArticle v => v.toXml
  | .tocChapter v => TOCChapter.toXml v

/-- `TOCSupplProvision`, src/table_of_contents.rs 592-599. -/
structure TOCSupplProvision (L : Lvl) where
  suppl_provision_label : Text L
  article_range : Option (Text L)
  children : List (TOCSupplProvisionContents L)

/-- State of the loop in `TOCSupplProvision::parser`. Source: src/table_of_contents.rs 601-637. -/
structure TOCSupplProvision.St (L : Lvl) where
  suppl_provision_label : Text L := Text.new
  article_range : Option (Text L) := none
  children : List (TOCSupplProvisionContents L) := []

/-- Body of the loop in `TOCSupplProvision::parser`, src/table_of_contents.rs 607-626. -/
def TOCSupplProvision.step (outer : Element) (s : TOCSupplProvision.St L) :
    Element → Res (TOCSupplProvision.St L) :=
  matchTag [
    ("SupplProvisionLabel", fun e => (Text.ofElement e).bind fun v =>
      .ok { s with suppl_provision_label := v }),
    ("ArticleRange", fun e => (Text.ofElement e).bind fun v =>
      .ok { s with article_range := some v }),
    ("TOCArticle", fun e => (TOCArticle.parser e).bind fun v =>
      .ok { s with children := s.children ++ [.tocArticle v] }),
    ("TOCChapter", fun e => (TOCChapter.parser e).bind fun v =>
      .ok { s with children := s.children ++ [.tocChapter v] })]
    (unexpected outer)

/-- `TOCSupplProvision::parser`, src/table_of_contents.rs 601-637; the misspelt name is in the
source. -/
def TOCSupplProvision.parser (e : Element) : Res (TOCSupplProvision L) :=
  if e.name = "TOCSupplProvision" then
    (forElems (TOCSupplProvision.step e) {} e.children).bind fun s =>
    .ok ⟨s.suppl_provision_label, s.article_range, s.children⟩
  else .err (wrongTagName e "TOCSupplProbision")

/-- `TOCSupplProvision::to_xml_element`, src/table_of_contents.rs 639-664. -/
def TOCSupplProvision.toXml (x : TOCSupplProvision L) : Element :=
  { name := "TOCSupplProvision"
    children := [(x.suppl_provision_label.toXml "SupplProvisionLabel").node] ++
      (x.article_range.toList.map fun t => (t.toXml "ArticleRange").node) ++
      x.children.map fun c => c.toXml.node }

/-- `TOCMainContents`, src/table_of_contents.rs 116-125. -/
inductive TOCMainContents (L : Lvl)
  | tocPart (v : TOCPart L)
  | tocChapter (v : TOCChapter L)
  | tocSection (v : TOCSection L)
  | tocArticle (v : TOCArticle L)
/-- Element written for it, src/table_of_contents.rs 96-102. -/
def TOCMainContents.toXml : TOCMainContents L → Element
  | .tocPart v => TOCPart.toXml v
  | .tocChapter v => TOCChapter.toXml v
  | .tocSection v => TOCSection.toXml v
  | .tocArticle v => v.toXml

/-- `TOC`, src/table_of_contents.rs 14-25. -/
structure TOC (L : Lvl) where
  toc_label : Option (Text L)
  toc_preamble_label : Option (Text L)
  toc_main_contents : List (TOCMainContents L)
  toc_suppl_provision : Option (TOCSupplProvision L)
  toc_appdx_table_label : List (Text L)

/-- State of the loop in `TOC::parser`. Source: src/table_of_contents.rs 27-82. -/
structure TOC.St (L : Lvl) where
  label : Option (Text L) := none
  preamble_label : Option (Text L) := none
  main_contents : List (TOCMainContents L) := []
  suppl_provision : Option (TOCSupplProvision L) := none
  appdx_table_label : List (Text L) := []

/-- Body of the loop in `TOC::parser`, src/table_of_contents.rs 35-69. -/
def TOC.step (outer : Element) (s : TOC.St L) : Element → Res (TOC.St L) :=
  matchTag [
    ("TOCLabel", fun e => (Text.ofElement e).bind fun v => .ok { s with label := some v }),
    ("TOCPreambleLabel", fun e => (Text.ofElement e).bind fun v =>
      .ok { s with preamble_label := some v }),
    ("TOCPart", fun e => (TOCPart.parser e).bind fun v =>
      .ok { s with main_contents := s.main_contents ++ [.tocPart v] }),
    ("TOCChapter", fun e => (TOCChapter.parser e).bind fun v =>
      .ok { s with main_contents := s.main_contents ++ [.tocChapter v] }),
    ("TOCSection", fun e => (TOCSection.parser e).bind fun v =>
      .ok { s with main_contents := s.main_contents ++ [.tocSection v] }),
    ("TOCArticle", fun e => (TOCArticle.parser e).bind fun v =>
      .ok { s with main_contents := s.main_contents ++ [.tocArticle v] }),
    ("TOCSupplProvision", fun e => (TOCSupplProvision.parser e).bind fun v =>
      .ok { s with suppl_provision := some v }),
    ("TOCAppdxTableLabel", fun e => (Text.ofElement e).bind fun v =>
      .ok { s with appdx_table_label := s.appdx_table_label ++ [v] })]
    (unexpected outer)

/-- `TOC::parser`, src/table_of_contents.rs 27-82. -/
def TOC.parser (e : Element) : Res (TOC L) :=
  if e.name = "TOC" then
    (forElems (TOC.step e) {} e.children).bind fun s =>
    .ok ⟨s.label, s.preamble_label, s.main_contents, s.suppl_provision, s.appdx_table_label⟩
  else .err (wrongTagName e "TOC")

/-- `TOC::to_xml_element`, src/table_of_contents.rs 84-113; the label of the preamble is written
under the tag of the label of the table. -/
def TOC.toXml (x : TOC L) : Element :=
  { name := "TOC"
    children := (x.toc_label.toList.map fun t => (t.toXml "TOCLabel").node) ++
      (x.toc_preamble_label.toList.map fun t => (t.toXml "TOCLabel").node) ++
      (x.toc_main_contents.map fun c => c.toXml.node) ++
      (x.toc_suppl_provision.toList.map fun c => c.toXml.node) ++
      x.toc_appdx_table_label.map fun t => (t.toXml "TOCAppdxTableLabel").node }

end JLaw
