import Verif.Model.Num
import Verif.Model.Struct

/-!
# Which values survive writing and reading

`Keeps` predicates say, field by field, which values are expected to be read back unchanged from the
element written for them. They mention only the data, neither the readers nor the writers.
-/

namespace JLaw

/-- The conditions on the five types at which the data model is cut. -/
structure Keep (L : Lvl) where
  /-- base text of a ruby: plain strings only -/
  plain : L.Text → Prop
  contents : L.Contents → Prop
  item : L.Item → Prop
  column : L.TableColumn → Prop
  amend : L.AmendProvision → Prop

variable {L : Lvl}

/-- A condition on an optional part. -/
def OptKeeps {α : Type} (P : α → Prop) (o : Option α) : Prop := ∀ x, o = some x → P x

/-- Numbers: no range end, or exactly one branch number. -/
def ArticleNumber.Keeps (a : ArticleNumber) : Prop :=
  a.range_end_numbers = [] ∨ a.eda_numbers.length = 1

def Ruby.Keeps (K : Keep L) (r : Ruby L) : Prop := K.plain r.text

def QuoteStruct.Keeps (K : Keep L) (q : QuoteStruct L) : Prop := K.contents q.contentes

/-- The number of a formula is lost. -/
def ArithFormula.Keeps (K : Keep L) (a : ArithFormula L) : Prop :=
  a.num = none ∧ K.contents a.contentes

def LineContents.Keeps (K : Keep L) : LineContents L → Prop
  | .quoteStruct v => v.Keeps K
  | .arithFormula v => v.Keeps K
  | .ruby v => v.Keeps K
  | .sup _ | .sub _ | .string _ => True

/-- Double lines come back dotted. -/
def Line.Keeps (K : Keep L) (l : Line L) : Prop :=
  l.style ≠ .double ∧ ∀ c ∈ l.contents, c.Keeps K

def TextElement.Keeps (K : Keep L) : TextElement L → Prop
  | .ruby v => v.Keeps K
  | .line v => v.Keeps K
  | .sup _ | .sub _ | .text _ => True

def Text.Keeps (K : Keep L) (t : Text L) : Prop := ∀ c ∈ t.contents, c.Keeps K

/-- Only strings, as needed inside a ruby. -/
def Text.Plain (t : Text L) : Prop := ∀ c ∈ t.contents, ∃ s, c = .text s

def TextWithWritingMode.Keeps (K : Keep L) (t : TextWithWritingMode L) : Prop :=
  ∀ c ∈ t.contents, c.Keeps K

def SentenceElement.Keeps (K : Keep L) : SentenceElement L → Prop
  | .line v => v.Keeps K
  | .quoteStruct v => v.Keeps K
  | .arithFormula v => v.Keeps K
  | .ruby v => v.Keeps K
  | .sup _ | .sub _ | .string _ => True

def Sentence.Keeps (K : Keep L) (s : Sentence L) : Prop := ∀ c ∈ s.contents, c.Keeps K

def Caption.Keeps (K : Keep L) (c : Caption L) : Prop := c.text.Keeps K

def Column.Keeps (K : Keep L) (c : Column L) : Prop := ∀ s ∈ c.sentence, s.Keeps K

def RemarksLabel.Keeps (K : Keep L) (r : RemarksLabel L) : Prop := r.text.Keeps K

def TableHeaderRow.Keeps (K : Keep L) (r : TableHeaderRow L) : Prop := ∀ t ∈ r.columns, t.Keeps K

def TableRow.Keeps (K : Keep L) (r : TableRow L) : Prop := ∀ c ∈ r.columns, K.column c

def Table.Keeps (K : Keep L) (t : Table L) : Prop :=
  (∀ r ∈ t.table_header_row, r.Keeps K) ∧ ∀ r ∈ t.table_row, r.Keeps K

/-- An empty list of sentences or of columns cannot be told from nothing. -/
def SentenceOrColumnOrTable.Keeps (K : Keep L) : SentenceOrColumnOrTable L → Prop
  | .sentence v => v ≠ [] ∧ ∀ s ∈ v, s.Keeps K
  | .column v => v ≠ [] ∧ ∀ c ∈ v, c.Keeps K
  | .table v => v.Keeps K

def Style.Keeps (K : Keep L) (x : Style L) : Prop := K.contents x.contentes
def Note.Keeps (K : Keep L) (x : Note L) : Prop := K.contents x.contentes
def Format.Keeps (K : Keep L) (x : Format L) : Prop := K.contents x.contentes

/-- Remarks are lost. -/
def BodyStruct.Keeps {τ β : Type} (T : τ → Prop) (B : β → Prop) (x : BodyStruct L τ β) : Prop :=
  OptKeeps T x.title ∧ x.title_remarks = [] ∧ B x.body ∧ x.body_remarks = []

def NoteStruct.Keeps (K : Keep L) (x : NoteStruct L) : Prop :=
  BodyStruct.Keeps (fun t => t.Keeps K) (fun b => b.Keeps K) x
def StyleStruct.Keeps (K : Keep L) (x : StyleStruct L) : Prop :=
  BodyStruct.Keeps (fun t => t.Keeps K) (fun b => b.Keeps K) x
def FormatStruct.Keeps (K : Keep L) (x : FormatStruct L) : Prop :=
  BodyStruct.Keeps (fun t => t.Keeps K) (fun b => b.Keeps K) x
def FigStruct.Keeps (K : Keep L) (x : FigStruct L) : Prop :=
  BodyStruct.Keeps (fun t => t.Keeps K) (fun _ => True) x
def TableStruct.Keeps (K : Keep L) (x : TableStruct L) : Prop :=
  BodyStruct.Keeps (fun t => t.Keeps K) (fun b => b.Keeps K) x

def ListSentence.Keeps (K : Keep L) : ListSentence L → Prop
  | .sentence v => v.Keeps K
  | .column v => v.Keeps K

def ListOf.Keeps {γ : Type} (K : Keep L) (C : γ → Prop) (x : ListOf L γ) : Prop :=
  (∀ s ∈ x.sentence, s.Keeps K) ∧ ∀ c ∈ x.children, C c

def Sublist3.Keeps (K : Keep L) (x : Sublist3 L) : Prop := ∀ s ∈ x.sentence, s.Keeps K
def Sublist2.Keeps (K : Keep L) (x : Sublist2 L) : Prop := ListOf.Keeps K (fun c => c.Keeps K) x
def Sublist1.Keeps (K : Keep L) (x : Sublist1 L) : Prop := ListOf.Keeps K (Sublist2.Keeps K) x
def LawList.Keeps (K : Keep L) (x : LawList L) : Prop := ListOf.Keeps K (Sublist1.Keeps K) x

def Struct.Keeps (K : Keep L) : Struct L → Prop
  | .tableStruct v => TableStruct.Keeps K v
  | .figStruct v => FigStruct.Keeps K v
  | .styleStruct v => StyleStruct.Keeps K v
  | .list v => LawList.Keeps K v

end JLaw
