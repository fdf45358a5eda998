import Verif.Model.Law

/-!
# Reading and writing documents

The functions of src/lib.rs that read bytes and write to a `std::io::Write`. The XML reader and writer
of the crate `xmltree` are parameters: a reader is any function from bytes to an element, a writer is
any finite sequence of calls of `write` and `flush` in which every call may depend on the answers to
the calls before it.
-/

namespace JLaw

/-- The kinds of `std::io::Error` that are told apart. -/
inductive IoErr
  | interrupted
  | invalidData
  | other
  deriving DecidableEq, Repr

/-- What `write_with_config` of the crate `xmltree` does with the `Write` it is given: it ends with
`Ok` or `Err`, or makes a call and continues depending on the answer. -/
inductive Emit
  | done
  | fail
  | write (buf : ByteArray) (next : Except IoErr Nat → Emit)
  | flush (next : Except IoErr Unit → Emit)

/-- An implementation of the trait `std::io::Write` with states `σ`. -/
structure Sink (σ : Type) where
  write : σ → ByteArray → Except IoErr Nat × σ
  flush : σ → Except IoErr Unit × σ

/-- Run a writer on an implementation of `Write`: whether it ends with `Ok`, and the last state. -/
def Emit.run {σ : Type} (W : Sink σ) : Emit → σ → Bool × σ
  | .done, w => (true, w)
  | .fail, w => (false, w)
  | .write buf next, w => (next (W.write w buf).1).run W (W.write w buf).2
  | .flush next, w => (next (W.flush w).1).run W (W.flush w).2

/-- `impl Write for WritableString`, src/lib.rs 124-135. `std::str::from_utf8` is `String.fromUTF8?`,
`str::len` is `String.utf8ByteSize`. -/
def writableString : Sink String where
  write s buf :=
    match String.fromUTF8? buf with
    | some t => (.ok t.utf8ByteSize, s ++ t)
    | none => (.error .invalidData, s)
  flush s := (.ok (), s)

variable {L : Lvl}

/-- `to_xml`, src/lib.rs 142-150. The configuration of `gen_config` (137-139) is part of `emit`. -/
def toXmlString (emit : Element → Emit) (law : Law L) : Res String :=
  match (emit law.toXml).run writableString "" with
  | (true, s) => .ok s
  | (false, _) => .err .io

/-- `write_file`, src/lib.rs 153-159. The second component is the state of the `Write` afterwards. -/
def writeFile {σ : Type} (emit : Element → Emit) (W : Sink σ) (law : Law L) (w : σ) : Res Unit × σ :=
  match (emit law.toXml).run W w with
  | (true, w') => (.ok (), w')
  | (false, w') => (.err .io, w')

/-- `parse_xml`, src/lib.rs 55-59. `parse` is `Element::parse` of the crate `xmltree`. -/
def parseXml (parse : ByteArray → Option Element) (xml : ByteArray) : Res (Law L) :=
  (Res.ofOption .xmlParsing (parse xml)).bind Law.parser

/-- `parse_xml_file`, src/lib.rs 62-68. `file` is the content of the file with the path, or nothing when
opening or reading it fails. -/
def parseXmlFile (parse : ByteArray → Option Element) (file : String → Option ByteArray)
    (path : String) : Res (Law L) :=
  (Res.ofOption .io (file path)).bind fun buf => parseXml parse buf

/-- `Write::write_all` of the standard library, as a part of a writer: write what is left of `buf`
until nothing is left. After an interruption the call is repeated, here at most `retries` times, which
is the only simplification. A sink that claims to have written more than it was given is a panic in
Rust and a failure here. -/
def Emit.writeAll (buf : ByteArray) (next : Emit) (retries : Nat) : Emit :=
  if buf.size = 0 then next
  else .write buf fun answer =>
    match answer with
    | .ok n =>
      if 0 < n ∧ n ≤ buf.size then writeAll (buf.extract n buf.size) next retries else .fail
    | .error .interrupted =>
      match retries with
      | 0 => .fail
      | r + 1 => writeAll buf next r
    | .error _ => .fail
termination_by (buf.size, retries)
decreasing_by
  · apply Prod.Lex.left
    rw [ByteArray.size_extract]
    omega
  · exact Prod.Lex.right _ (Nat.lt_succ_self _)

/-- A writer that passes its chunks to `write_all` and stops at the first failure. -/
def Emit.chunks (retries : Nat) (ok : Bool) : List ByteArray → Emit
  | [] => if ok then .done else .fail
  | b :: bs => .writeAll b (.chunks retries ok bs) retries

end JLaw
