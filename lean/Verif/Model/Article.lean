import Verif.Model.Num
import Verif.Model.Struct

/-!
# Items, paragraphs, articles and the hierarchy above them

src/paragraph.rs, `Class` of src/class.rs and src/article.rs.
-/

namespace JLaw

variable {L : Lvl}

/-- The arms of a `match` that push on the field `children`, given by tag and reader. -/
def childArms {σ γ : Type} (arms : List (String × (Element → Res γ))) (push : γ → Res σ) :
    List (String × (Element → Res σ)) :=
  arms.map fun a => (a.1, fun e => (a.2 e).bind push)

/-- `ArticleNumber::from_num_str(&get_attribute(element, "Num")?)?`. -/
def numAttr (e : Element) : Res ArticleNumber :=
  (getAttribute e "Num").bind ArticleNumber.fromNumStr

/-! ## Items and subitems, src/paragraph.rs -/

/-- `Item` and `Subitem1` to `Subitem9` have the same fields up to the type `γ` of the children;
`Subitem10` has no field for children and is modelled with an empty type in its place. Source:
src/paragraph.rs 164-172, 308-316, 452-460, 596-604, 740-748, 884-892, 1028-1036, 1172-1180,
1316-1324, 1460-1468, 1604-1611. -/
structure ItemOf (L : Lvl) (γ : Type) where
  title : Option (Text L)
  sentence : SentenceOrColumnOrTable L
  children : List γ
  struct_list : List (Struct L)
  num : Option ArticleNumber
  delete : Bool
  hide : Bool

/-- State of the loop in the eleven readers. Source: src/paragraph.rs 196-260, 340-404, 484-548,
628-692, 772-836, 916-980, 1060-1124, 1204-1268, 1348-1412, 1492-1556, 1633-1691. -/
structure ItemOf.St (L : Lvl) (γ : Type) where
  title : Option (Text L) := none
  sentence : Option (SentenceOrColumnOrTable L) := none
  children : List γ := []
  struct_list : List (Struct L) := []

/-- Body of the loop in the eleven readers, e.g. src/paragraph.rs 207-240 for `Item`. -/
def ItemOf.step {γ : Type} (titleTag sentTag : String) (arms : List (String × (Element → Res γ)))
    (outer : Element) (s : ItemOf.St L γ) : Element → Res (ItemOf.St L γ) :=
  matchTag [
    (titleTag, fun e => (Text.ofElement e).bind fun v => .ok { s with title := some v }),
    (sentTag, fun e => (SentenceOrColumnOrTable.fromElement e).bind fun v =>
      .ok { s with sentence := some v }),
    ("TableStruct", fun e => (TableStruct.parser e).bind fun v =>
      .ok { s with struct_list := s.struct_list ++ [.tableStruct v] }),
    ("FigStruct", fun e => (FigStruct.parser e).bind fun v =>
      .ok { s with struct_list := s.struct_list ++ [.figStruct v] }),
    ("StyleStruct", fun e => (StyleStruct.parser e).bind fun v =>
      .ok { s with struct_list := s.struct_list ++ [.styleStruct v] }),
    ("List", fun e => (LawList.parser e).bind fun v =>
      .ok { s with struct_list := s.struct_list ++ [.list v] })]
    (matchTag (childArms arms fun v => .ok { s with children := s.children ++ [v] })
      (unexpected outer))

/-- The common shape of the eleven readers, e.g. src/paragraph.rs 196-260 for `Item`. An unreadable
number becomes `None`, a missing one is an error. -/
def ItemOf.parser {γ : Type} (tag titleTag sentTag : String)
    (arms : List (String × (Element → Res γ))) (e : Element) : Res (ItemOf L γ) :=
  if e.name = tag then
    (getAttributeWithParse parseString e "Num").bind fun num =>
    (getBool e "Delete").bind fun delete =>
    (getBool e "Hide").bind fun hide =>
    (forElems (ItemOf.step titleTag sentTag arms e) {} e.children).bind fun s =>
    match s.sentence with
    | some sentence =>
      .ok ⟨s.title, sentence, s.children, s.struct_list, ArticleNumber.parse? num, delete, hide⟩
    | none => .err (.missingRequiredTag "Sentence or Column or Table")
  else .err (wrongTagName e tag)

/-- The common shape of the eleven writers, e.g. src/paragraph.rs 262-305 for `Item`. -/
def ItemOf.toXml {γ : Type} (tag titleTag sentTag : String) (childXml : γ → Element)
    (x : ItemOf L γ) : Element :=
  { name := tag
    attributes := ((Attrs.insertOpt [] "Num" (x.num.map ArticleNumber.numStr)).insertTrue "Delete"
      x.delete).insertTrue "Hide" x.hide
    children := (x.title.toList.map fun t => (t.toXml titleTag).node) ++
      [(x.sentence.toXml sentTag).node] ++ (x.children.map fun c => (childXml c).node) ++
      x.struct_list.map fun v => v.toXml.node }

/-- `Subitem10`, src/paragraph.rs 1604-1611. -/
abbrev Subitem10 (L : Lvl) := ItemOf L Empty
/-- `Subitem10::parser`, src/paragraph.rs 1633-1691. -/
def Subitem10.parser : Element → Res (Subitem10 L) :=
  ItemOf.parser "Subitem10" "Subitem10Title" "Subitem10Sentence" []
/-- `Subitem10::to_xml_element`, src/paragraph.rs 1693-1733. -/
def Subitem10.toXml : Subitem10 L → Element :=
  ItemOf.toXml "Subitem10" "Subitem10Title" "Subitem10Sentence" Empty.elim

/-- `Subitem9`, src/paragraph.rs 1460-1468. -/
abbrev Subitem9 (L : Lvl) := ItemOf L (Subitem10 L)
/-- `Subitem9::parser`, src/paragraph.rs 1492-1556. -/
def Subitem9.parser : Element → Res (Subitem9 L) :=
  ItemOf.parser "Subitem9" "Subitem9Title" "Subitem9Sentence" [("Subitem10", Subitem10.parser)]
/-- `Subitem9::to_xml_element`, src/paragraph.rs 1558-1601. -/
def Subitem9.toXml : Subitem9 L → Element :=
  ItemOf.toXml "Subitem9" "Subitem9Title" "Subitem9Sentence" Subitem10.toXml

/-- `Subitem8`, src/paragraph.rs 1316-1324. -/
abbrev Subitem8 (L : Lvl) := ItemOf L (Subitem9 L)
/-- `Subitem8::parser`, src/paragraph.rs 1348-1412. -/
def Subitem8.parser : Element → Res (Subitem8 L) :=
  ItemOf.parser "Subitem8" "Subitem8Title" "Subitem8Sentence" [("Subitem9", Subitem9.parser)]
/-- `Subitem8::to_xml_element`, src/paragraph.rs 1414-1457. -/
def Subitem8.toXml : Subitem8 L → Element :=
  ItemOf.toXml "Subitem8" "Subitem8Title" "Subitem8Sentence" Subitem9.toXml

/-- `Subitem7`, src/paragraph.rs 1172-1180. -/
abbrev Subitem7 (L : Lvl) := ItemOf L (Subitem8 L)
/-- `Subitem7::parser`, src/paragraph.rs 1204-1268. -/
def Subitem7.parser : Element → Res (Subitem7 L) :=
  ItemOf.parser "Subitem7" "Subitem7Title" "Subitem7Sentence" [("Subitem8", Subitem8.parser)]
/-- `Subitem7::to_xml_element`, src/paragraph.rs 1270-1313. -/
def Subitem7.toXml : Subitem7 L → Element :=
  ItemOf.toXml "Subitem7" "Subitem7Title" "Subitem7Sentence" Subitem8.toXml

/-- `Subitem6`, src/paragraph.rs 1028-1036. -/
abbrev Subitem6 (L : Lvl) := ItemOf L (Subitem7 L)
/-- `Subitem6::parser`, src/paragraph.rs 1060-1124. -/
def Subitem6.parser : Element → Res (Subitem6 L) :=
  ItemOf.parser "Subitem6" "Subitem6Title" "Subitem6Sentence" [("Subitem7", Subitem7.parser)]
/-- `Subitem6::to_xml_element`, src/paragraph.rs 1126-1169. -/
def Subitem6.toXml : Subitem6 L → Element :=
  ItemOf.toXml "Subitem6" "Subitem6Title" "Subitem6Sentence" Subitem7.toXml

/-- `Subitem5`, src/paragraph.rs 884-892. -/
abbrev Subitem5 (L : Lvl) := ItemOf L (Subitem6 L)
/-- `Subitem5::parser`, src/paragraph.rs 916-980. -/
def Subitem5.parser : Element → Res (Subitem5 L) :=
  ItemOf.parser "Subitem5" "Subitem5Title" "Subitem5Sentence" [("Subitem6", Subitem6.parser)]
/-- `Subitem5::to_xml_element`, src/paragraph.rs 982-1025. -/
def Subitem5.toXml : Subitem5 L → Element :=
  ItemOf.toXml "Subitem5" "Subitem5Title" "Subitem5Sentence" Subitem6.toXml

/-- `Subitem4`, src/paragraph.rs 740-748. -/
abbrev Subitem4 (L : Lvl) := ItemOf L (Subitem5 L)
/-- `Subitem4::parser`, src/paragraph.rs 772-836. -/
def Subitem4.parser : Element → Res (Subitem4 L) :=
  ItemOf.parser "Subitem4" "Subitem4Title" "Subitem4Sentence" [("Subitem5", Subitem5.parser)]
/-- `Subitem4::to_xml_element`, src/paragraph.rs 838-881. -/
def Subitem4.toXml : Subitem4 L → Element :=
  ItemOf.toXml "Subitem4" "Subitem4Title" "Subitem4Sentence" Subitem5.toXml

/-- `Subitem3`, src/paragraph.rs 596-604. -/
abbrev Subitem3 (L : Lvl) := ItemOf L (Subitem4 L)
/-- `Subitem3::parser`, src/paragraph.rs 628-692. -/
def Subitem3.parser : Element → Res (Subitem3 L) :=
  ItemOf.parser "Subitem3" "Subitem3Title" "Subitem3Sentence" [("Subitem4", Subitem4.parser)]
/-- `Subitem3::to_xml_element`, src/paragraph.rs 694-737. -/
def Subitem3.toXml : Subitem3 L → Element :=
  ItemOf.toXml "Subitem3" "Subitem3Title" "Subitem3Sentence" Subitem4.toXml

/-- `Subitem2`, src/paragraph.rs 452-460. -/
abbrev Subitem2 (L : Lvl) := ItemOf L (Subitem3 L)
/-- `Subitem2::parser`, src/paragraph.rs 484-548. -/
def Subitem2.parser : Element → Res (Subitem2 L) :=
  ItemOf.parser "Subitem2" "Subitem2Title" "Subitem2Sentence" [("Subitem3", Subitem3.parser)]
/-- `Subitem2::to_xml_element`, src/paragraph.rs 550-593. -/
def Subitem2.toXml : Subitem2 L → Element :=
  ItemOf.toXml "Subitem2" "Subitem2Title" "Subitem2Sentence" Subitem3.toXml

/-- `Subitem1`, src/paragraph.rs 308-316. -/
abbrev Subitem1 (L : Lvl) := ItemOf L (Subitem2 L)
/-- `Subitem1::parser`, src/paragraph.rs 340-404. -/
def Subitem1.parser : Element → Res (Subitem1 L) :=
  ItemOf.parser "Subitem1" "Subitem1Title" "Subitem1Sentence" [("Subitem2", Subitem2.parser)]
/-- `Subitem1::to_xml_element`, src/paragraph.rs 406-449. -/
def Subitem1.toXml : Subitem1 L → Element :=
  ItemOf.toXml "Subitem1" "Subitem1Title" "Subitem1Sentence" Subitem2.toXml

/-- `Item`, src/paragraph.rs 164-172. -/
abbrev Item (L : Lvl) := ItemOf L (Subitem1 L)
/-- `Item::parser`, src/paragraph.rs 196-260. -/
def Item.parser : Element → Res (Item L) :=
  ItemOf.parser "Item" "ItemTitle" "ItemSentence" [("Subitem1", Subitem1.parser)]
/-- `Item::to_xml_element`, src/paragraph.rs 262-305. -/
def Item.toXml : Item L → Element :=
  ItemOf.toXml "Item" "ItemTitle" "ItemSentence" Subitem1.toXml

/-! ## `Class`, src/class.rs -/

/-- `Class`, src/class.rs 16-21. -/
structure Class (L : Lvl) where
  class_title : Option (Text L)
  class_sentence : SentenceOrColumnOrTable L
  children : List (Item L)
  num : String

/-- State of the loop in `Class::parser`. Source: src/class.rs 23-62. -/
structure Class.St (L : Lvl) where
  class_title : Option (Text L) := none
  class_sentence : Option (SentenceOrColumnOrTable L) := none
  children : List (Item L) := []

/-- Body of the loop in `Class::parser`, src/class.rs 30-45. -/
def Class.step (outer : Element) (s : Class.St L) : Element → Res (Class.St L) :=
  matchTag [
    ("ClassTitle", fun e => (Text.ofElement e).bind fun v => .ok { s with class_title := some v }),
    ("ClassSentence", fun e => (SentenceOrColumnOrTable.fromElement e).bind fun v =>
      .ok { s with class_sentence := some v }),
    ("Item", fun e => (Item.parser e).bind fun v => .ok { s with children := s.children ++ [v] })]
    (unexpected outer)

/-- `Class::parser`, src/class.rs 23-62. -/
def Class.parser (e : Element) : Res (Class L) :=
  if e.name = "Class" then
    (getAttribute e "Num").bind fun num =>
    (forElems (Class.step e) {} e.children).bind fun s =>
    match s.class_sentence with
    | some class_sentence => .ok ⟨s.class_title, class_sentence, s.children, num⟩
    | none => .err (missingRequiredTag "Sentence or Column")
  else .err (wrongTagName e "Class")

/-- `Class::to_xml_element`, src/class.rs 64-83. -/
def Class.toXml (x : Class L) : Element :=
  { name := "Class"
    attributes := Attrs.insert [] "Num" x.num
    children := (x.class_title.toList.map fun t => (t.toXml "ClassTitle").node) ++
      [(x.class_sentence.toXml "ClassSentence").node] ++
      x.children.map fun c => (Item.toXml c).node }

/-! ## `Paragraph`, src/paragraph.rs -/

/-- `Paragraph`, src/paragraph.rs 18-30. -/
structure Paragraph (L : Lvl) where
  caption : Option (Caption L)
  paragraph_num : Text L
  amend_provision : List L.AmendProvision
  class_ : List (Class L)
  sentence : List (Sentence L)
  struct_list : List (Struct L)
  children : List (Item L)
  num : ArticleNumber
  old_style : Bool
  old_num : Bool
  hide : Bool

/-- State of the loop in `Paragraph::parser`. Source: src/paragraph.rs 32-113. -/
structure Paragraph.St (L : Lvl) where
  caption : Option (Caption L) := none
  paragraph_num : Text L := Text.new
  amend_provision : List L.AmendProvision := []
  class_ : List (Class L) := []
  sentence : List (Sentence L) := []
  struct_list : List (Struct L) := []
  children : List (Item L) := []

/-- Body of the loop in `Paragraph::parser`, src/paragraph.rs 46-94. -/
def Paragraph.step (outer : Element) (s : Paragraph.St L) : Element → Res (Paragraph.St L) :=
  matchTag [
    ("ParagraphCaption", fun e => (Caption.parser e).bind fun v => .ok { s with caption := some v }),
    ("ParagraphNum", fun e => (Text.ofElement e).bind fun v => .ok { s with paragraph_num := v }),
    ("ParagraphSentence", fun e => (readAll Sentence.parser e.children).bind fun v =>
      .ok { s with sentence := s.sentence ++ v }),
    ("AmendProvision", fun e => (L.amendParser e).bind fun v =>
      .ok { s with amend_provision := s.amend_provision ++ [v] }),
    ("Class", fun e => (Class.parser e).bind fun v => .ok { s with class_ := s.class_ ++ [v] }),
    ("TableStruct", fun e => (TableStruct.parser e).bind fun v =>
      .ok { s with struct_list := s.struct_list ++ [.tableStruct v] }),
    ("FigStruct", fun e => (FigStruct.parser e).bind fun v =>
      .ok { s with struct_list := s.struct_list ++ [.figStruct v] }),
    ("StyleStruct", fun e => (StyleStruct.parser e).bind fun v =>
      .ok { s with struct_list := s.struct_list ++ [.styleStruct v] }),
    ("List", fun e => (LawList.parser e).bind fun v =>
      .ok { s with struct_list := s.struct_list ++ [.list v] }),
    ("Item", fun e => (Item.parser e).bind fun v => .ok { s with children := s.children ++ [v] })]
    (unexpected outer)

/-- `Paragraph::parser`, src/paragraph.rs 32-113. -/
def Paragraph.parser (e : Element) : Res (Paragraph L) :=
  if e.name = "Paragraph" then
    ((getAttributeWithParse parseString e "Num").bind ArticleNumber.fromNumStr).bind fun num =>
    (getBool e "OldStyle").bind fun old_style =>
    (getBool e "OldNum").bind fun old_num =>
    (getBool e "Hide").bind fun hide =>
    (forElems (Paragraph.step e) {} e.children).bind fun s =>
    .ok { caption := s.caption, paragraph_num := s.paragraph_num,
          amend_provision := s.amend_provision, class_ := s.class_, sentence := s.sentence,
          struct_list := s.struct_list, children := s.children, num := num,
          old_style := old_style, old_num := old_num, hide := hide }
  else .err (wrongTagName e "Paragraph")

/-- The element holding the sentences of a paragraph, src/paragraph.rs 126-131. -/
def Paragraph.sentenceXml (l : List (Sentence L)) : Element :=
  { name := "ParagraphSentence", children := l.map fun s => s.toXml.node }

/-- `Paragraph::to_xml_element`, src/paragraph.rs 115-161. -/
def Paragraph.toXml (x : Paragraph L) : Element :=
  { name := "Paragraph"
    attributes := (((Attrs.insert [] "Num" x.num.numStr).insertTrue "OldStyle"
      x.old_style).insertTrue "OldNum" x.old_num).insertTrue "Hide" x.hide
    children := (x.caption.toList.map fun c => (c.toXml "ParagraphCaption").node) ++
      [(x.paragraph_num.toXml "ParagraphNum").node] ++
      [(Paragraph.sentenceXml x.sentence).node] ++
      (x.amend_provision.map fun v => (L.amendToXml v).node) ++
      (x.class_.map fun v => v.toXml.node) ++
      (x.struct_list.map fun v => v.toXml.node) ++
      x.children.map fun v => (Item.toXml v).node }

/-! ## `Article`, src/article.rs -/

/-- `Article`, src/article.rs 601-609. -/
structure Article (L : Lvl) where
  caption : Option (Caption L)
  title : Text L
  paragraph : List (Paragraph L)
  suppl_note : Option (Text L)
  num : ArticleNumber
  delete : Bool
  hide : Bool

/-- The `loop` at the head of `Article::parser`, src/article.rs 647-667: it stops at the first
element that is neither a caption nor a title, and `children.next().unwrap()` panics when there is
no such element. Gives the caption, the title and the rest of the nodes. -/
def Article.head (caption : Option (Caption L)) (title : Text L) :
    List XMLNode → Res (Option (Caption L) × Text L × List XMLNode)
  | [] => .panic
  | .element n a c :: rest =>
    if n ≠ "ArticleCaption" ∧ n ≠ "ArticleTitle" then .ok (caption, title, .element n a c :: rest)
    else if n = "ArticleCaption" then
      (Caption.parser ⟨n, a, c⟩).bind fun v => Article.head (some v) title rest
    else (Text.fromChildren c).bind fun v => Article.head caption v rest
  | _ :: rest => Article.head caption title rest

/-- State of the second loop in `Article::parser`. Source: src/article.rs 637-690. -/
structure Article.St (L : Lvl) where
  paragraph : List (Paragraph L) := []
  suppl_note : Option (Text L) := none

/-- Body of the second loop in `Article::parser`, src/article.rs 671-681. -/
def Article.step (outer : Element) (s : Article.St L) : Element → Res (Article.St L) :=
  matchTag [
    ("Paragraph", fun e => (Paragraph.parser e).bind fun v =>
      .ok { s with paragraph := s.paragraph ++ [v] }),
    ("SupplNote", fun e => (Text.ofElement e).bind fun v => .ok { s with suppl_note := some v })]
    (unexpected outer)

/-- `Article::parser`, src/article.rs 637-690. -/
def Article.parser (e : Element) : Res (Article L) :=
  if e.name = "Article" then
    (numAttr e).bind fun num =>
    (getBool e "Delete").bind fun delete =>
    (getBool e "Hide").bind fun hide =>
    (Article.head none Text.new e.children).bind fun h =>
    (forElems (Article.step e) {} h.2.2).bind fun s =>
    .ok ⟨h.1, h.2.1, s.paragraph, s.suppl_note, num, delete, hide⟩
  else .err (wrongTagName e "Article")

/-- `Article::to_xml_element`, src/article.rs 692-723. -/
def Article.toXml (x : Article L) : Element :=
  { name := "Article"
    attributes := ((Attrs.insert [] "Num" x.num.numStr).insertTrue "Delete"
      x.delete).insertTrue "Hide" x.hide
    children := (x.caption.toList.map fun c => (c.toXml "ArticleCaption").node) ++
      [(x.title.toXml "ArticleTitle").node] ++ (x.paragraph.map fun v => v.toXml.node) ++
      x.suppl_note.toList.map fun t => (t.toXml "SupplNote").node }

/-! ## Divisions, subsections, sections, chapters and parts, src/article.rs -/

/-- `Part`, `Chapter`, `Section`, `Subsection` and `Division` have the same fields up to the name of
the title and the type of the children. Source: src/article.rs 16-22, 134-140, 252-258, 378-384,
498-504. -/
structure HierOf (L : Lvl) (γ : Type) where
  title : Text L
  children : List γ
  num : ArticleNumber
  delete : Bool
  hide : Bool

/-- The first child of the five, e.g. src/article.rs 53-72 for `Part`: the first node must be the
title. -/
def HierOf.titleOf (titleTag : String) (e : Element) : Res (Text L) :=
  match e.children with
  | .element n _ c :: _ =>
    if n = titleTag then Text.fromChildren c else .err (.unexpectedTag n titleTag)
  | _ => .err (missingRequiredTag titleTag)

/-- The common shape of the five readers, e.g. src/article.rs 46-94 for `Part`. -/
def HierOf.parser {γ : Type} (tag titleTag : String) (arms : List (String × (Element → Res γ)))
    (e : Element) : Res (HierOf L γ) :=
  if e.name = tag then
    (numAttr e).bind fun num =>
    (getBool e "Delete").bind fun delete =>
    (getBool e "Hide").bind fun hide =>
    (HierOf.titleOf titleTag e).bind fun title =>
    (readAll (matchTag arms (unexpected e)) e.children.tail).bind fun children =>
    .ok ⟨title, children, num, delete, hide⟩
  else .err (wrongTagName e tag)

/-- The common shape of the five writers, e.g. src/article.rs 96-124 for `Part`. -/
def HierOf.toXml {γ : Type} (tag titleTag : String) (childXml : γ → Element) (x : HierOf L γ) :
    Element :=
  { name := tag
    attributes := ((Attrs.insert [] "Num" x.num.numStr).insertTrue "Delete"
      x.delete).insertTrue "Hide" x.hide
    children := (x.title.toXml titleTag).node :: x.children.map fun c => (childXml c).node }

/-- `Division`, src/article.rs 498-504. -/
abbrev Division (L : Lvl) := HierOf L (Article L)
/-- `Division::parser`, src/article.rs 528-572. -/
def Division.parser : Element → Res (Division L) :=
  HierOf.parser "Division" "DivisionTitle" [("Article", Article.parser)]
/-- `Division::to_xml_element`, src/article.rs 574-597. -/
def Division.toXml : Division L → Element :=
  HierOf.toXml "Division" "DivisionTitle" Article.toXml

/-- `SubsectionContents`, src/article.rs 491-494. -/
inductive SubsectionContents (L : Lvl)
  | article (v : Article L)
  | division (v : Division L)
/-- Element written for it, src/article.rs 467-474. -/
def SubsectionContents.toXml : SubsectionContents L → Element
  | .article v => v.toXml
  | .division v => Division.toXml v
/-- Arms of the `match`, src/article.rs 438-446. -/
def SubsectionContents.arms : List (String × (Element → Res (SubsectionContents L))) := [
  ("Division", fun e => (Division.parser e).bind fun v => .ok (.division v)),
  ("Article", fun e => (Article.parser e).bind fun v => .ok (.article v))]

/-- `Subsection`, src/article.rs 378-384. -/
abbrev Subsection (L : Lvl) := HierOf L (SubsectionContents L)
/-- `Subsection::parser`, src/article.rs 408-456. -/
def Subsection.parser : Element → Res (Subsection L) :=
  HierOf.parser "Subsection" "SubsectionTitle" SubsectionContents.arms
/-- `Subsection::to_xml_element`, src/article.rs 458-488. -/
def Subsection.toXml : Subsection L → Element :=
  HierOf.toXml "Subsection" "SubsectionTitle" SubsectionContents.toXml

/-- `SectionContents`, src/article.rs 370-374. -/
inductive SectionContents (L : Lvl)
  | article (v : Article L)
  | subsection (v : Subsection L)
  | division (v : Division L)
/-- Element written for it, src/article.rs 342-354. -/
def SectionContents.toXml : SectionContents L → Element
  | .article v => v.toXml
  | .subsection v => Subsection.toXml v
  | .division v => Division.toXml v
/-- Arms of the `match`, src/article.rs 312-324. -/
def SectionContents.arms : List (String × (Element → Res (SectionContents L))) := [
  ("Subsection", fun e => (Subsection.parser e).bind fun v => .ok (.subsection v)),
  ("Article", fun e => (Article.parser e).bind fun v => .ok (.article v)),
  ("Division", fun e => (Division.parser e).bind fun v => .ok (.division v))]

/-- `Section`, src/article.rs 252-258. -/
abbrev Section (L : Lvl) := HierOf L (SectionContents L)
/-- `Section::parser`, src/article.rs 282-334. -/
def Section.parser : Element → Res (Section L) :=
  HierOf.parser "Section" "SectionTitle" SectionContents.arms
/-- `Section::to_xml_element`, src/article.rs 336-367. -/
def Section.toXml : Section L → Element :=
  HierOf.toXml "Section" "SectionTitle" SectionContents.toXml

/-- `ChapterContents`, src/article.rs 245-248. -/
inductive ChapterContents (L : Lvl)
  | article (v : Article L)
  | section_ (v : Section L)
/-- Element written for it, src/article.rs 221-228. -/
def ChapterContents.toXml : ChapterContents L → Element
  | .article v => v.toXml
  | .section_ v => Section.toXml v
/-- Arms of the `match`, src/article.rs 194-202. -/
def ChapterContents.arms : List (String × (Element → Res (ChapterContents L))) := [
  ("Section", fun e => (Section.parser e).bind fun v => .ok (.section_ v)),
  ("Article", fun e => (Article.parser e).bind fun v => .ok (.article v))]

/-- `Chapter`, src/article.rs 134-140. -/
abbrev Chapter (L : Lvl) := HierOf L (ChapterContents L)
/-- `Chapter::parser`, src/article.rs 164-212. -/
def Chapter.parser : Element → Res (Chapter L) :=
  HierOf.parser "Chapter" "ChapterTitle" ChapterContents.arms
/-- `Chapter::to_xml_element`, src/article.rs 214-242. -/
def Chapter.toXml : Chapter L → Element :=
  HierOf.toXml "Chapter" "ChapterTitle" ChapterContents.toXml

/-- `PartContents`, src/article.rs 127-130. -/
inductive PartContents (L : Lvl)
  | article (v : Article L)
  | chapter (v : Chapter L)
/-- Element written for it, src/article.rs 102-111. -/
def PartContents.toXml : PartContents L → Element
  | .article v => v.toXml
  | .chapter v => Chapter.toXml v
/-- Arms of the `match`, src/article.rs 74-87. -/
def PartContents.arms : List (String × (Element → Res (PartContents L))) := [
  ("Chapter", fun e => (Chapter.parser e).bind fun v => .ok (.chapter v)),
  ("Article", fun e => (Article.parser e).bind fun v => .ok (.article v))]

/-- `Part`, src/article.rs 16-22. -/
abbrev Part (L : Lvl) := HierOf L (PartContents L)
/-- `Part::parser`, src/article.rs 46-94. -/
def Part.parser : Element → Res (Part L) :=
  HierOf.parser "Part" "PartTitle" PartContents.arms
/-- `Part::to_xml_element`, src/article.rs 96-124. -/
def Part.toXml : Part L → Element :=
  HierOf.toXml "Part" "PartTitle" PartContents.toXml

end JLaw
