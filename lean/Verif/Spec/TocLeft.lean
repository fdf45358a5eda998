import Verif.Spec.Utils

/-!
# What stands before a unit

The units of a law with the units around them and the units that stand before them or before one of
the units around them.
-/

namespace JLaw

variable {L : Lvl}

mutual
/-- The labels of a tree in document order, each with the labels around it and the trees that stand
before it under one of the labels around it. -/
def Rose.walkLeft {α : Type} (around : List α) (left : List (Rose α)) :
    Rose α → List (List α × List (Rose α) × α)
  | .node a cs => (around, left, a) :: Rose.walkLeftAll (around ++ [a]) left cs
/-- The same for trees side by side. -/
def Rose.walkLeftAll {α : Type} (around : List α) (left : List (Rose α)) :
    List (Rose α) → List (List α × List (Rose α) × α)
  | [] => []
  | t :: ts => Rose.walkLeft around left t ++ Rose.walkLeftAll around (left ++ [t]) ts
end

/-- The units of a main provision with what is around and before them. What stands before a unit
directly in the main provision does not count. -/
def MainProvision.places (m : MainProvision L) :
    List (List (UnitHead L) × List (Rose (UnitHead L)) × UnitHead L) :=
  (m.children.filterMap MainProvisionContents.tree?).flatMap (Rose.walkLeft [] [])

/-- The units of a supplementary provision with what is around and before them. -/
def SupplProvision.places (x : SupplProvision L) :
    List (List (UnitHead L) × List (Rose (UnitHead L)) × UnitHead L) :=
  (x.children.filterMap SupplProvisionChildrenElement.tree?).flatMap (Rose.walkLeft [] [])

/-- The number of a chapter. -/
def Rose.chapterNum? : Rose (UnitHead L) → Option ArticleNumber
  | .node (.chapter n _) _ => some n
  | _ => none

/-- The number of an article. -/
def Rose.articleNum? : Rose (UnitHead L) → Option ArticleNumber
  | .node (.article a) _ => some a.num
  | _ => none

/-- The number that an article, or the last article directly in a chapter, leaves behind. -/
def Rose.leaves? : Rose (UnitHead L) → Option ArticleNumber
  | .node (.article a) _ => some a.num
  | .node (.chapter _ _) cs => (cs.filterMap Rose.articleNum?).getLast?
  | _ => none

end JLaw
