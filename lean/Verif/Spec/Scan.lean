import Verif.Spec.NumText

/-!
# Reading the number of a heading from left to right

A description of what a text says about a number that has neither patterns nor alternatives: the text
is gone through once, each step takes the longest run of digits of one script.
-/

namespace JLaw.Spec.Scan

/-- The scripts of numbers. -/
inductive Script where
  | ascii
  | wide
  | kanji
  deriving DecidableEq

/-- The script of a character of a number. -/
def scriptOf (c : Char) : Option Script :=
  if '0'.toNat ≤ c.toNat ∧ c.toNat ≤ '9'.toNat then some .ascii
  else if '０'.toNat ≤ c.toNat ∧ c.toNat ≤ '９'.toNat then some .wide
  else if c ∈ Spec.kanji then some .kanji
  else none

/-- The number at the start of a text, in one of the given scripts, and the rest of the text. -/
def number (ks : List Script) : List Char → Option (List Char × List Char)
  | [] => none
  | c :: s =>
    match scriptOf c with
    | none => none
    | some k =>
      if k ∈ ks then
        some (c :: s.takeWhile (fun d => scriptOf d = some k), s.dropWhile fun d => scriptOf d = some k)
      else none

/-- The branch numbers at the start of a text, each with its separator, and the rest of the text. The
first argument is at least the length of the text. -/
def branchesFrom (ks : List Script) : Nat → List Char → List (Char × List Char) × List Char
  | 0, s => ([], s)
  | _ + 1, [] => ([], [])
  | n + 1, c :: s =>
    if c = 'の' ∨ c = 'ノ' then
      match number ks s with
      | none => ([], c :: s)
      | some x => ((c, x.1) :: (branchesFrom ks n x.2).1, (branchesFrom ks n x.2).2)
    else ([], c :: s)

/-- The branch numbers at the start of a text, and the rest of the text. -/
def branches (ks : List Script) (s : List Char) : List (Char × List Char) × List Char :=
  branchesFrom ks s.length s

/-- A number with its branch numbers. -/
abbrev Numbered := List Char × List (Char × List Char)

/-- A number in any script with a unit and branch numbers, and the rest of the text. -/
def unitNumber (s : List Char) : Option (Numbered × List Char) :=
  match number [.ascii, .wide, .kanji] s with
  | some (w, u :: r) =>
    if u ∈ units then
      some ((w, (branches [.ascii, .wide, .kanji] r).1), (branches [.ascii, .wide, .kanji] r).2)
    else none
  | _ => none

/-- A number in digits with branch numbers, and the rest of the text. -/
def digitNumber (s : List Char) : Option (Numbered × List Char) :=
  match number [.wide, .ascii] s with
  | some (w, r) => some ((w, (branches [.wide, .ascii] r).1), (branches [.wide, .ascii] r).2)
  | none => none

/-- The rest of a text that starts with a mark. -/
def after : List Char → List Char → Option (List Char)
  | [], s => some s
  | _ :: _, [] => none
  | m :: ms, c :: s => if m = c then after ms s else none

/-- A number and, if the text goes on with the given mark, a number and まで, the end of a range. -/
def ranged (f : List Char → Option (Numbered × List Char)) (mark s : List Char) :
    Option (Numbered × Option Numbered) :=
  match f s with
  | none => none
  | some (n, r) =>
    match (after mark r).bind f with
    | none => some (n, none)
    | some (m, r') =>
      match after ['ま', 'で'] r' with
      | none => some (n, none)
      | some _ => some (n, some m)

/-- A text without the character 第 at its start. -/
def withoutDai : List Char → List Char
  | [] => []
  | c :: s => if c = '第' then s else c :: s

/-- A number of the machine. -/
def fit (n : Nat) : Option Usize := if h : n < limit then some ⟨n, h⟩ else none

/-- Value of a number in digits of one script, if the machine can hold it. -/
def digitValue (w : List Char) : Option Usize :=
  if w = [] then none
  else if w.all (fun c => scriptOf c = some .ascii) then fit (value '0' w)
  else if w.all (fun c => scriptOf c = some .wide) then fit (value '０' w)
  else none

/-- Value of a number in kanji, by the crate for such numerals, modulo the size of `usize`. -/
def kanjiValue (E : Ext) (w : List Char) : Option Usize := (E.kansujiNum w).map (Fin.ofNat _)

/-- Value of a branch number. -/
def branchValue (E : Ext) (w : List Char) : Option Usize :=
  match digitValue w with
  | some n => some n
  | none => kanjiValue E w

/-- All values, if there are all of them. -/
def allValues (f : List Char → Option Usize) : List (List Char) → Option (List Usize)
  | [] => some []
  | w :: ws =>
    match f w, allValues f ws with
    | some n, some ns => some (n :: ns)
    | _, _ => none

/-- The outcome of reading the first number of a heading. -/
inductive First where
  | number (n : Usize)
  /-- too big in full-width digits, or refused by the crate for kanji numerals -/
  | unreadable
  /-- too big in ASCII digits -/
  | overflow

/-- Reading the number before a unit. -/
def first (E : Ext) (w : List Char) : First :=
  match w.head?.bind scriptOf with
  | some .ascii =>
    match digitValue w with
    | some n => .number n
    | none => .overflow
  | some .wide =>
    match digitValue w with
    | some n => .number n
    | none => .unreadable
  | _ =>
    match kanjiValue E w with
    | some n => .number n
    | none => .unreadable

/-- The branch numbers at the end of a range, where only の separates: a number after ノ is taken
together with what is before it. The first argument is what has been collected. -/
def glued : List Char → List (Char × List Char) → List (List Char)
  | cur, [] => [cur]
  | cur, (c, w) :: bs => if c = 'の' then cur :: glued w bs else glued (cur ++ c :: w) bs

/-- What a heading with a unit means. -/
def unitMeaning (E : Ext) (n : Numbered) (m : Option Numbered) : Res (Option ArticleNumber) :=
  match first E n.1 with
  | .overflow => .panic
  | .unreadable => .ok none
  | .number base =>
    match allValues (branchValue E) (n.2.map Prod.snd) with
    | none => .ok none
    | some eda =>
      match m with
      | none => .ok (some ⟨base, eda, []⟩)
      | some (w, bs) =>
        match first E w with
        | .overflow => .panic
        | .unreadable => .ok none
        | .number stop =>
          match allValues (branchValue E) ((glued [] bs).filter (· ≠ [])) with
          | none => .ok none
          | some eda' => .ok (some ⟨base, eda, stop :: eda'⟩)

/-- What a number of a paragraph means. The branch numbers at the end of a range do not count. -/
def digitMeaning (n : Numbered) (m : Option Numbered) : Res (Option ArticleNumber) :=
  match digitValue n.1 with
  | none => .panic
  | some base =>
    if ∃ b ∈ n.2, b.1 = 'ノ' ∨ digitValue b.2 = none then .panic
    else
      match m with
      | none => .ok (some ⟨base, n.2.filterMap fun b => digitValue b.2, []⟩)
      | some (w, _) =>
        match digitValue w with
        | none => .ok none
        | some stop => .ok (some ⟨base, n.2.filterMap fun b => digitValue b.2, [stop]⟩)

/-- What a text says about the number of a part, chapter, section, subsection, division, article or
paragraph. -/
def articleNumber (E : Ext) (s : List Char) : Res (Option ArticleNumber) :=
  match ranged unitNumber ['か', 'ら', '第'] (withoutDai s) with
  | some (n, m) => unitMeaning E n m
  | none =>
    match ranged digitNumber ['か', 'ら'] s with
    | some (n, m) => digitMeaning n m
    | none => .ok none

end JLaw.Spec.Scan
