import Verif.Spec.FromText
import Verif.Model.Utils

/-!
# The texts of the articles, read off the lines

Which texts src/utils.rs finds in a law built from text, said about the lines of the text alone.
-/

namespace JLaw.Spec

/-- Articles met so far, the last one first, each with its number and with the texts found in it, the
last one first. -/
abbrev Gathered := List (ArticleNumber × List (TextIndex × String))

/-- A new text in the last article. -/
def Gathered.open_ (i : TextIndex) (t : String) : Gathered → Gathered
  | (a, es) :: r => (a, (i, t) :: es) :: r
  | [] => []

/-- A new text in the last article for an item of depth `d`: in the paragraph of the text before it,
and below the first `d - 1` of the items the text before it lies in. -/
def Gathered.openItem (d : Nat) (n : Option ArticleNumber) (t : String) : Gathered → Gathered
  | (a, (i, u) :: es) :: r =>
    (a, (⟨i.paragraph, i.items.take (d - 1) ++ [n]⟩, t) :: (i, u) :: es) :: r
  | s => s

/-- More of the last text, with nothing in between. -/
def Gathered.more (t : String) : Gathered → Gathered
  | (a, (i, u) :: es) :: r => (a, (i, u ++ t) :: es) :: r
  | s => s

/-- What a line adds that leads to the state `q`. Headings and captions add nothing, and neither do
the lines before the first article. -/
def gatherLine (q : State) (s : Gathered) : TextLine → Gathered
  | .article n t => (n, [(⟨⟨1, [], []⟩, []⟩, String.ofList t)]) :: s
  | .paragraph n t => s.open_ ⟨n, []⟩ (String.ofList t)
  | .item n t =>
    match q.place with
    | .article items _ => s.openItem items.length
        (some ⟨n.base_number, n.eda_numbers, n.range_end_numbers⟩) (String.ofList t)
    | _ => s
  | .text t => s.more (String.ofList t)
  | _ => s

/-- What the lines add, up to the first one that is out of place. -/
def gather (q : State) (s : Gathered) : List TextLine → Gathered
  | [] => s
  | l :: r =>
    match next q l with
    | some q' => gather q' (gatherLine q' s l) r
    | none => s

/-- The articles of a text in their order, each with its number and its texts. -/
def articlesOfLines (ls : List TextLine) : List (ArticleNumber × List (TextIndex × String)) :=
  ((gather start [] ls).map fun a => (a.1, a.2.reverse)).reverse

end JLaw.Spec
