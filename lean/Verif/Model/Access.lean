import Verif.Model.NumText
import Verif.Model.Utils

/-!
# Building texts, and reading and changing entries field by field

Models the methods of `Text` in src/text.rs that no reader needs, and the accessors of src/utils.rs.
-/

namespace JLaw

variable {L : Lvl}

/-! ## src/text.rs -/

/-- `Text::add_text`, src/text.rs 68-72. -/
def Text.addText (t u : Text L) : Text L := ⟨u.contents.foldl (fun l c => l ++ [c]) t.contents⟩

/-- `Text::add_string`, src/text.rs 74-76. -/
def Text.addString (t : Text L) (s : String) : Text L := ⟨t.contents ++ [.text s]⟩

/-- `Text::add_ruby`, src/text.rs 78-80. -/
def Text.addRuby (t : Text L) (r : Ruby L) : Text L := ⟨t.contents ++ [.ruby r]⟩

/-- `Text::add_line`, src/text.rs 82-84. -/
def Text.addLine (t : Text L) (l : Line L) : Text L := ⟨t.contents ++ [.line l]⟩

/-- `Text::add_sup`, src/text.rs 86-88. -/
def Text.addSup (t : Text L) (x : Sup) : Text L := ⟨t.contents ++ [.sup x]⟩

/-- `Text::add_sub`, src/text.rs 90-92. -/
def Text.addSub (t : Text L) (x : Sub) : Text L := ⟨t.contents ++ [.sub x]⟩

/-- `Text::with_writing_mode`, src/text.rs 93-98. -/
def Text.withWritingMode (t : Text L) (m : WritingMode) : TextWithWritingMode L := ⟨t.contents, m⟩

/-- `if let Ok(x) = r { text.add(x) }`: an error leaves the text as it is. -/
def addOk {α : Type} (f : Text L → α → Text L) (r : Res α) (t : Text L) : Res (Text L) :=
  r.skipErr.bind fun
    | some v => .ok (f t v)
    | none => .ok t

/-- `Text::parser`, src/text.rs 132-158: the element itself is looked at, not its children. -/
def Text.parser : Element → Res (Text L) :=
  matchTag [
    ("Ruby", fun e => addOk Text.addRuby (Ruby.parser e) Text.new),
    ("Line", fun e => addOk Text.addLine (Line.parser e) Text.new),
    ("Sup", fun e => addOk Text.addSup (Sup.parser e) Text.new),
    ("Sub", fun e => addOk Text.addSub (Sub.parser e) Text.new)]
    (fun _ => .ok Text.new)

/-! ## src/article_number.rs -/

/-- `ArticleNumber::zero`, src/article_number.rs 183-189. -/
def ArticleNumber.zero : ArticleNumber := ⟨0, [], []⟩

/-- `ArticleNumber::is_zero`, src/article_number.rs 191-193. -/
def ArticleNumber.isZero (n : ArticleNumber) : Bool := n.base_number == 0

/-! ## src/utils.rs -/

namespace Toc

/-- `Toc::set_part`, src/utils.rs 927-929. -/
def setPart (t : Toc) (v : Option ArticleNumber) : Toc := { t with part_number := v }
/-- `Toc::set_chapter`, src/utils.rs 930-932. -/
def setChapter (t : Toc) (v : Option ArticleNumber) : Toc := { t with chapter_number := v }
/-- `Toc::set_section`, src/utils.rs 933-935. -/
def setSection (t : Toc) (v : Option ArticleNumber) : Toc := { t with section_number := v }
/-- `Toc::set_subsection`, src/utils.rs 936-938. -/
def setSubsection (t : Toc) (v : Option ArticleNumber) : Toc := { t with subsection_number := v }
/-- `Toc::set_division`, src/utils.rs 939-941. -/
def setDivision (t : Toc) (v : Option ArticleNumber) : Toc := { t with division_number := v }
/-- `Toc::set_title`, src/utils.rs 945-947. -/
def setTitle (t : Toc) (v : Option String) : Toc := { t with title := v }

/-- `Toc::get_part`, src/utils.rs 948-950. -/
def getPart (t : Toc) : Option ArticleNumber := t.part_number
/-- `Toc::get_chapter`, src/utils.rs 951-953. -/
def getChapter (t : Toc) : Option ArticleNumber := t.chapter_number
/-- `Toc::get_section`, src/utils.rs 954-956. -/
def getSection (t : Toc) : Option ArticleNumber := t.section_number
/-- `Toc::get_subsection`, src/utils.rs 957-959. -/
def getSubsection (t : Toc) : Option ArticleNumber := t.subsection_number
/-- `Toc::get_division`, src/utils.rs 960-962. -/
def getDivision (t : Toc) : Option ArticleNumber := t.division_number
/-- `Toc::get_article`, src/utils.rs 963-965. -/
def getArticle (t : Toc) : Option ArticleNumber := t.article_number
/-- `Toc::get_title`, src/utils.rs 966-968. -/
def getTitle (t : Toc) : Option String := t.title

/-- A call of one of the setters. Source: src/utils.rs 926-947. -/
inductive Call
  | part (v : Option ArticleNumber)
  | chapter (v : Option ArticleNumber)
  | section_ (v : Option ArticleNumber)
  | subsection (v : Option ArticleNumber)
  | division (v : Option ArticleNumber)
  | article (v : Option ArticleNumber)
  | title (v : Option String)

/-- The effect of a call. Source: src/utils.rs 926-947. -/
def call (t : Toc) : Call → Toc
  | .part v => t.setPart v
  | .chapter v => t.setChapter v
  | .section_ v => t.setSection v
  | .subsection v => t.setSubsection v
  | .division v => t.setDivision v
  | .article v => t.setArticle v
  | .title v => t.setTitle v

end Toc

namespace WithNumberArticle

/-- `WithNumberArticle::new`, src/utils.rs 35-44. -/
def new (a : Article L) : WithNumberArticle L := ⟨none, none, none, none, none, a⟩

/-- `WithNumberArticle::set_part`, src/utils.rs 45-47. -/
def setPart (w : WithNumberArticle L) (v : Option ArticleNumber) : WithNumberArticle L :=
  { w with part := v }
/-- `WithNumberArticle::set_chapter`, src/utils.rs 51-53. -/
def setChapter (w : WithNumberArticle L) (v : Option ArticleNumber) : WithNumberArticle L :=
  { w with chapter := v }
/-- `WithNumberArticle::set_section`, src/utils.rs 57-59. -/
def setSection (w : WithNumberArticle L) (v : Option ArticleNumber) : WithNumberArticle L :=
  { w with section_ := v }
/-- `WithNumberArticle::set_subsection`, src/utils.rs 63-65. -/
def setSubsection (w : WithNumberArticle L) (v : Option ArticleNumber) : WithNumberArticle L :=
  { w with subsection := v }
/-- `WithNumberArticle::set_division`, src/utils.rs 69-71. -/
def setDivision (w : WithNumberArticle L) (v : Option ArticleNumber) : WithNumberArticle L :=
  { w with division := v }
/-- `WithNumberArticle::set_articl`, src/utils.rs 75-77. -/
def setArticle (w : WithNumberArticle L) (v : Article L) : WithNumberArticle L :=
  { w with article := v }

/-- `WithNumberArticle::get_part`, src/utils.rs 48-50. -/
def getPart (w : WithNumberArticle L) : Option ArticleNumber := w.part
/-- `WithNumberArticle::get_chapter`, src/utils.rs 54-56. -/
def getChapter (w : WithNumberArticle L) : Option ArticleNumber := w.chapter
/-- `WithNumberArticle::get_section`, src/utils.rs 60-62. -/
def getSection (w : WithNumberArticle L) : Option ArticleNumber := w.section_
/-- `WithNumberArticle::get_subsection`, src/utils.rs 66-68. -/
def getSubsection (w : WithNumberArticle L) : Option ArticleNumber := w.subsection
/-- `WithNumberArticle::get_division`, src/utils.rs 72-74. -/
def getDivision (w : WithNumberArticle L) : Option ArticleNumber := w.division
/-- `WithNumberArticle::get_article`, src/utils.rs 78-80. -/
def getArticle (w : WithNumberArticle L) : Article L := w.article

/-- A call of one of the setters. Source: src/utils.rs 45-77. -/
inductive Call (L : Lvl)
  | part (v : Option ArticleNumber)
  | chapter (v : Option ArticleNumber)
  | section_ (v : Option ArticleNumber)
  | subsection (v : Option ArticleNumber)
  | division (v : Option ArticleNumber)
  | article (v : Article L)

/-- The effect of a call. Source: src/utils.rs 45-77. -/
def call (w : WithNumberArticle L) : Call L → WithNumberArticle L
  | .part v => w.setPart v
  | .chapter v => w.setChapter v
  | .section_ v => w.setSection v
  | .subsection v => w.setSubsection v
  | .division v => w.setDivision v
  | .article v => w.setArticle v

end WithNumberArticle

end JLaw
