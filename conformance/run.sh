#!/bin/sh
# Runs the model on the document of /repo/src/tests (the Civil Code), as parse.rs and write.rs there do
# with the crate. A test of the model, not a proof. Needs a build of /verif/lean.
set -e
here=$(cd "$(dirname "$0")" && pwd)
tmp=$(mktemp -d)
python3 "$here/xml_to_lines.py" /repo/src/tests/129AC0000000089_20230614_505AC0000000053.xml "$tmp/doc"
cat > "$tmp/Run.lean" <<'LEAN'
import Verif.Model.Utils
open JLaw
instance : Inhabited XMLNode := ⟨.text ""⟩
def unesc (s : String) : String := String.ofList (go s.toList) where
  go : List Char → List Char
  | '\\' :: 'n' :: r => '\n' :: go r
  | '\\' :: 'r' :: r => '\r' :: go r
  | '\\' :: 't' :: r => '\t' :: go r
  | '\\' :: '\\' :: r => '\\' :: go r
  | c :: r => c :: go r
  | [] => []
partial def node (a : Array String) (i : Nat) : XMLNode × Nat := Id.run do
  let f := a[i]!.splitOn "\t"
  if f[0]! == "T" then return (.text (unesc f[1]!), i+1)
  let n := f[2]!.toNat!
  let k := f[3]!.toNat!
  let mut j := i+1
  let mut at_ : List (String × String) := []
  for _ in [0:n] do
    let g := a[j]!.splitOn "\t"
    at_ := at_ ++ [(g[1]!, unesc g[2]!)]
    j := j+1
  let mut ch : Array XMLNode := #[]
  for _ in [0:k] do
    let (x, j') := node a j
    ch := ch.push x
    j := j'
  return (.element f[1]! at_ ch.toList, j)
partial def diff (path : String) : XMLNode → XMLNode → List String
  | .text s, .text t => if s == t then [] else [s!"{path}: text {s} / {t}"]
  | .element n a c, .element m b d =>
    if n != m then [s!"{path}: tag {n} / {m}"] else
    let p := path ++ "/" ++ n
    (a.filter (fun x => !b.contains x)).map (fun x => s!"{p}: lost attr {x}") ++
    (b.filter (fun x => !a.contains x)).map (fun x => s!"{p}: new attr {x}") ++
    (if c.length != d.length then [s!"{p}: children {c.length} / {d.length}"] else
      (c.zip d).flatMap fun (x,y) => diff p x y)
  | _, _ => [s!"{path}: kind"]
def check (what : String) (b : Bool) : IO Unit :=
  if b then IO.println s!"ok: {what}" else throw (IO.userError what)
def Res.get? {α : Type} : Res α → Option α
  | .ok a => some a
  | _ => none
/-- How an attribute or child differs, without the values. -/
def kindOf (s : String) : String :=
  let l := s.splitOn ": "
  ((l.getD 1 "").splitOn ",").getD 0 ""
partial def countTag (t : String) : XMLNode → Nat
  | .element n _ c => (if n == t then 1 else 0) + (c.map (countTag t)).sum
  | _ => 0
/-- The assertions of src/tests/parse.rs 9-52 and src/tests/write.rs 9-35 on a law. -/
def assertions (law : Law (lvl 4)) : IO Unit := do
  match law.law_body.main_provision.children with
  | .part p :: _ =>
    match p.children with
    | .chapter c :: _ =>
      match c.children with
      | .article a :: _ =>
        check "title of the first article" (a.title.toStr (render 4) == "第一条")
        check "caption" ((a.caption.map fun c => c.text.toStr (render 4)) == some "（基本原則）")
        check "sentence" (((a.paragraph.head?.bind fun p => p.sentence.head?).map fun s =>
          sentenceElementToStr (render 4) s.contents) == some "私権は、公共の福祉に適合しなければならない。")
      | _ => throw (IO.userError "no article")
    | _ => throw (IO.userError "no chapter")
  | _ => throw (IO.userError "no part")
def main (args : List String) : IO Unit := do
  let (x, _) := node (← IO.FS.lines args[0]!) 0
  let some e := x.asElement | throw (IO.userError "not an element")
  let some law := Res.get? (Law.parser e : Res (Law (lvl 4))) | throw (IO.userError "not read")
  assertions law
  let (l, _) := withNumberArticleListFromMainProvision law.law_body.main_provision
  let main := (e.children.filterMap XMLNode.asElement).flatMap fun e =>
    e.children.filter fun n => (n.asElement.map Element.name) == some "MainProvision"
  check s!"{l.length} articles" (l.length == (main.map (countTag "Article")).sum)
  let y := law.toXml
  let some law2 := Res.get? (Law.parser y : Res (Law (lvl 4))) | throw (IO.userError "not read again")
  assertions law2
  check "a second round trip changes nothing" (diff "" y.node law2.toXml.node).isEmpty
  let kinds := (diff "" x y.node).map kindOf
  for k in kinds.eraseDups do IO.println s!"{kinds.count k} times: {k}"
LEAN
cd "$here/../lean"
lake env lean --run "$tmp/Run.lean" "$tmp/doc"
rm -r "$tmp"
