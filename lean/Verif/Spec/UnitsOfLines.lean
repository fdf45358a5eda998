import Verif.Spec.FromText
import Verif.Spec.Utils

/-!
# The units of a law, read off the lines

Which units a law built from text has, and in which units each of them lies, said about the lines of
the text alone.
-/

namespace JLaw.Spec

variable {L : Lvl}

/-- The kinds of units with a heading among those of all units. -/
def Kind.unit : Kind → JLaw.Kind
  | .part => .part
  | .chapter => .chapter
  | .section_ => .section_
  | .subsection => .subsection
  | .division => .division

/-- A unit: its kind, its number and its title. -/
abbrev UnitView (L : Lvl) := JLaw.Kind × ArticleNumber × Text L

/-- Kinds and numbers of units, the outermost first. -/
abbrev Around := List (JLaw.Kind × ArticleNumber)

/-- The heading of a unit: its kind, its number and its text. -/
def headingOf : TextLine → Option (Kind × ArticleNumber × List Char)
  | .part n s => some (.part, n, s)
  | .chapter n s => some (.chapter, n, s)
  | .section_ n s => some (.section_, n, s)
  | .subsection n s => some (.subsection, n, s)
  | .division n s => some (.division, n, s)
  | _ => none

/-- The number in the heading of an article. -/
def articleOf : TextLine → Option ArticleNumber
  | .article n _ => some n
  | _ => none

/-- The units announced by the lines up to the first one that is out of place, each with the units
around it; `o` are the open units. The title of an article is empty. -/
def unitsOfLines (q : State) (o : Around) : List TextLine → List (Around × UnitView L)
  | [] => []
  | l :: r =>
    match next q l with
    | none => []
    | some q' =>
      match headingOf l with
      | some (k, n, s) =>
        let around := o.take (q'.path.length - 1)
        (around, (k.unit, n, plainText s)) :: unitsOfLines q' (around ++ [(k.unit, n)]) r
      | none =>
        match articleOf l with
        | some n => (o, (.article, n, plainText [])) :: unitsOfLines q' o r
        | none => unitsOfLines q' o r

end JLaw.Spec
