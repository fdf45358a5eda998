import Verif.Spec.Settle
import Verif.Model.Law

/-!
# Laws without blank texts

What is left of a law of the shape of `Spec/Built.lean` when the texts of white space in it are removed:
those of the title, of captions, of headings and of sentences.
-/

namespace JLaw.Spec

variable {L : Lvl}

/-- A text without its strings of white space. -/
def unblankText (t : Text L) : Text L :=
  ⟨t.contents.filter fun
    | .text s => !blank s
    | _ => true⟩

/-- A sentence without its strings of white space. -/
def unblankSentence (x : Sentence L) : Sentence L :=
  { x with contents := x.contents.filter fun
    | .string s => !blank s
    | _ => true }

/-- An item, with what to do with its children. -/
def unblankItem {γ : Type} (child : γ → γ) (x : ItemOf L γ) : ItemOf L γ :=
  { x with
    sentence := match x.sentence with
      | .sentence l => .sentence (l.map unblankSentence)
      | y => y
    children := x.children.map child }

def unblankSubitem10 : Subitem10 L → Subitem10 L := unblankItem id
def unblankSubitem9 : Subitem9 L → Subitem9 L := unblankItem unblankSubitem10
def unblankSubitem8 : Subitem8 L → Subitem8 L := unblankItem unblankSubitem9
def unblankSubitem7 : Subitem7 L → Subitem7 L := unblankItem unblankSubitem8
def unblankSubitem6 : Subitem6 L → Subitem6 L := unblankItem unblankSubitem7
def unblankSubitem5 : Subitem5 L → Subitem5 L := unblankItem unblankSubitem6
def unblankSubitem4 : Subitem4 L → Subitem4 L := unblankItem unblankSubitem5
def unblankSubitem3 : Subitem3 L → Subitem3 L := unblankItem unblankSubitem4
def unblankSubitem2 : Subitem2 L → Subitem2 L := unblankItem unblankSubitem3
def unblankSubitem1 : Subitem1 L → Subitem1 L := unblankItem unblankSubitem2
def unblankItems : Item L → Item L := unblankItem unblankSubitem1

def unblankParagraph (x : Paragraph L) : Paragraph L :=
  { x with sentence := x.sentence.map unblankSentence, children := x.children.map unblankItems }

def unblankArticle (x : Article L) : Article L :=
  { x with
    caption := x.caption.map fun c => { c with text := unblankText c.text }
    title := unblankText x.title
    paragraph := x.paragraph.map unblankParagraph }

/-- A unit with a heading, with what to do with its children. -/
def unblankUnit {γ : Type} (child : γ → γ) (x : HierOf L γ) : HierOf L γ :=
  { x with title := unblankText x.title, children := x.children.map child }

def unblankDivision : Division L → Division L := unblankUnit unblankArticle
def unblankSubsection : Subsection L → Subsection L := unblankUnit fun
  | .article a => .article (unblankArticle a)
  | .division d => .division (unblankDivision d)
def unblankSection : Section L → Section L := unblankUnit fun
  | .article a => .article (unblankArticle a)
  | .subsection d => .subsection (unblankSubsection d)
  | .division d => .division (unblankDivision d)
def unblankChapter : Chapter L → Chapter L := unblankUnit fun
  | .article a => .article (unblankArticle a)
  | .section_ d => .section_ (unblankSection d)
def unblankPart : Part L → Part L := unblankUnit fun
  | .article a => .article (unblankArticle a)
  | .chapter d => .chapter (unblankChapter d)

def unblankMain : MainProvisionContents L → MainProvisionContents L
  | .part x => .part (unblankPart x)
  | .chapter x => .chapter (unblankChapter x)
  | .section_ x => .section_ (unblankSection x)
  | .article x => .article (unblankArticle x)
  | .paragraph x => .paragraph (unblankParagraph x)

def unblankBody (x : LawBody L) : LawBody L :=
  { x with
    law_title := x.law_title.map fun t => { t with text := unblankText t.text }
    preamble := x.preamble.map fun p => ⟨p.children.map unblankParagraph⟩
    main_provision := { x.main_provision with children := x.main_provision.children.map unblankMain } }

/-- A law without blank texts. -/
def unblankLaw (x : Law L) : Law L :=
  { x with
    law_num := if blank x.law_num then "" else x.law_num
    law_body := unblankBody x.law_body }

end JLaw.Spec
