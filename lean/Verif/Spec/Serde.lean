import Verif.Model.Serde

/-!
# What a JSON document says

`Says v j`: the JSON value `j` says the value `v` of the data model of `serde`. A struct may be given as
an object, with its entries in any order, with entries for other keys, and without entries for fields
that are `None`; or as an array of its fields in order. A variant without data may be given by its name
or as an object with the value `null`.
-/

namespace JLaw.Spec

/-- The values that an object gives for a key. -/
def given (k : String) : List (String × Json) → List Json
  | [] => []
  | (k', j) :: r => if k' = k then j :: given k r else given k r

mutual
/-- The JSON value says this value. -/
def Says : SerdeValue → Json → Prop
  | .none, .null => True
  | .bool b, .bool c => c = b
  | .u64 n, .int m => m = n
  | .str s, .str t => t = s
  | .seq l, .arr js => SaysAll l js
  | .struct names values, .obj l => SaysFields names values l
  | .struct _ values, .arr js => SaysAll values js
  | .unitVariant name, .str t => t = name
  | .unitVariant name, .obj l => l = [(name, .null)]
  | .newtypeVariant name v, .obj l => ∃ j, l = [(name, j)] ∧ Says v j
  | _, _ => False
/-- The elements of an array say these values one by one. -/
def SaysAll : List SerdeValue → List Json → Prop
  | [], [] => True
  | v :: vs, j :: js => Says v j ∧ SaysAll vs js
  | _, _ => False
/-- The object gives every field once, or not at all when it is `None`. -/
def SaysFields : List String → List SerdeValue → List (String × Json) → Prop
  | [], [], _ => True
  | k :: ks, v :: vs, l =>
    ((∃ j, given k l = [j] ∧ Says v j) ∨ (given k l = [] ∧ v = .none)) ∧ SaysFields ks vs l
  | _, _, _ => False
end

/-- The object gives the value for the key once, or not at all when it is `None`. -/
def Gives (l : List (String × Json)) (k : String) (v : SerdeValue) : Prop :=
  (∃ j, given k l = [j] ∧ Says v j) ∨ (given k l = [] ∧ v = .none)

end JLaw.Spec
