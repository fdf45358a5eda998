import Verif.Model.Base

/-!
# Article numbers as attribute strings

Models the first part of src/article_number.rs.
-/

namespace JLaw

/-- `ArticleNumber`, src/article_number.rs 12-19. -/
structure ArticleNumber where
  base_number : Usize
  eda_numbers : List Usize
  range_end_numbers : List Usize
  deriving DecidableEq, Repr

namespace ArticleNumber

/-- The text pushed for the range end, src/article_number.rs 28-37. -/
def rangeSuffix : List Usize → List Char
  | [] => []
  | r :: rs => ':' :: digits r.val ++ rs.flatMap fun n => '_' :: digits n.val

/-- `ArticleNumber::num_str`, src/article_number.rs 23-40. The range end is pushed inside the
loop over the branch numbers, as in the source. -/
def numChars (a : ArticleNumber) : List Char :=
  digits a.base_number.val ++
    a.eda_numbers.flatMap fun n => '_' :: digits n.val ++ rangeSuffix a.range_end_numbers

/-- `ArticleNumber::num_str` as a string. Source: src/article_number.rs 23-40. -/
def numStr (a : ArticleNumber) : String := String.ofList a.numChars

/-- The `map_err` of src/article_number.rs 47-48 and 68-69. -/
def parseSeg (s : List Char) : Res Usize :=
  match parseUsize s with
  | some n => .ok n
  | none => .err (.parsingError "usize" (String.ofList s))

/-- `ArticleNumber::from_num_str`, src/article_number.rs 43-89. `splitC` never returns an empty
list, so `num_s_lst.next().unwrap()` (line 45) is the `panic` branch and the last error (line 84)
is the case of no base number. -/
def fromNumChars (s : List Char) : Res ArticleNumber :=
  match splitC ':' s with
  | [] => .panic
  | first :: others =>
    (mapRes parseSeg (splitC '_' first)).bind fun ns =>
      match ns with
      | [] => .err (.parsingError "ArticleNumber" (String.ofList first))
      | base :: eda =>
        match others with
        | [] => .ok ⟨base, eda, []⟩
        | second :: _ =>
          (mapRes parseSeg (splitC '_' second)).bind fun r => .ok ⟨base, eda, r⟩

/-- `ArticleNumber::from_num_str` on a `String`. Source: src/article_number.rs 43-89. -/
def fromNumStr (s : String) : Res ArticleNumber := fromNumChars s.toList

/-- `ArticleNumber::from_str(s).ok()`, src/article_number.rs 204-209, as used through
`str::parse::<ArticleNumber>()`. -/
def parse? (s : String) : Option ArticleNumber :=
  match fromNumStr s with
  | .ok a => some a
  | _ => none

end ArticleNumber

end JLaw
