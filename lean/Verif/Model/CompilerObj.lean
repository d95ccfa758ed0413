import Verif.Model.Node
import Verif.Model.Compiler

/-!
`Compiler` objects: apx/compiler.py with the attribute `prog`, and `Compiler.exec`.

`Verif.Model.Compiler` describes the programs as values. Here the methods append to the attribute of
the object as the code does, put the header before or (records) in front of the code afterwards, and
leave the attribute as it is when an exception is raised.
-/

namespace Apx

/-- A `Compiler` object: the attribute `prog`; `none` when it is `None` or not there yet.
/repo/apx/compiler.py:5-7. -/
structure CompilerObj where
  prog : Option Bytes

/-- `Compiler()`. /repo/apx/compiler.py:6-7. -/
def CompilerObj.new : CompilerObj := ⟨none⟩

/-- `_packProgHeader(progLen, insert)`, `_unpackProgHeader(progLen, insert)`: `self.prog` afterwards.
/repo/apx/compiler.py:34-57. -/
def emitHeader (d : Dir) (progLen : Nat) (insert : Bool) (prog : Bytes) : Bytes :=
  let tmp := opProg d :: leBytes 4 progLen
  if insert then tmp ++ prog else prog ++ tmp

/-- `if header: self._packProgHeader(progLen)`. -/
def emitHeaderIf (header : Bool) (d : Dir) (progLen : Nat) (prog : Bytes) : Bytes :=
  if header then emitHeader d progLen false prog else prog

/-- `_packArray(dataElement, header)`, `_unpackArray`: `self.prog` afterwards and the length returned.
/repo/apx/compiler.py:153-287. -/
def emitArray (d : Dir) (header : Bool) (e : Elem) (prog : Bytes) : Bytes × Py Nat :=
  match e with
  | .prim tc _ _ (some n) =>
    match tc.intT with
    | some t => (emitHeaderIf header d (t.size * n) prog ++ opArray d t :: leBytes 2 n, .ok (t.size * n))
    | none =>
      if tc = .str then (emitHeaderIf header d n prog ++ opStr d :: leBytes 2 n, .ok n) else (prog, .error .notImplemented)
  | _ => (prog, .error .notImplemented)

/-- The integer cases of `_packSingleElement`, `_unpackSingleElement`.
/repo/apx/compiler.py:76-99,117-140. -/
def emitScalar (d : Dir) (header : Bool) (tc : TypeCode) (prog : Bytes) : Bytes × Py Nat :=
  match tc.intT with
  | some t => (emitHeaderIf header d t.size prog ++ [opScalar d t], .ok t.size)
  | none => (prog, .error .notImplemented)

/-- `_recordSelect(childElement)`. The characters are converted before any of them is appended.
/repo/apx/compiler.py:289-292. -/
def emitSelect (name : Option Str) (prog : Bytes) : Bytes × Py Unit :=
  let prog := prog ++ [opSelect]
  match name with
  | none => (prog, .error .typeError)
  | some s =>
    match ordBytes s with
    | .ok b => (prog ++ b ++ [0], .ok ())
    | .error x => (prog, .error x)

/-- The end of the record case: `OPCODE_RECORD_LEAVE` and the header in front.
/repo/apx/compiler.py:106-108,147-149. -/
def emitLeave (d : Dir) (header : Bool) (r : Bytes × Py Nat) : Bytes × Py Nat :=
  match r with
  | (prog, .error x) => (prog, .error x)
  | (prog, .ok packLen) =>
    let prog := prog ++ [opLeave]
    (if header then emitHeader d packLen true prog else prog, .ok packLen)

mutual
/-- `_packDataElement(dataElement, header)`, `_unpackDataElement`: `self.prog` afterwards and the
length returned. /repo/apx/compiler.py:59-69,71-151. -/
def emitElem (d : Dir) (header : Bool) (e : Elem) (prog : Bytes) : Bytes × Py Nat :=
  match e.isArray with
  | .error x => (prog, .error x)
  | .ok true => emitArray d header e prog
  | .ok false =>
    match e with
    | .prim tc _ _ _ => emitScalar d header tc prog
    | .record fs _ => emitLeave d header (emitFields d fs (prog ++ [opEnter]) 0)
    | .refType _ (.prim tc _ _ _) => emitScalar d header tc prog
    | .refType _ (.record fs _) => emitLeave d header (emitFields d fs (prog ++ [opEnter]) 0)
    | .refType _ _ => (prog, .error .notImplemented)
    | .refId _ => (prog, .error .assertionError)
    | .refName _ => (prog, .error .assertionError)

/-- The loop over the children of a record, with the sum so far.
/repo/apx/compiler.py:101-105,142-146. -/
def emitFields (d : Dir) : Fields → Bytes → Nat → Bytes × Py Nat
  | .nil, prog, packLen => (prog, .ok packLen)
  | .cons name e r, prog, packLen =>
    match emitSelect name prog with
    | (prog, .error x) => (prog, .error x)
    | (prog, .ok _) =>
      match emitElem d false e prog with
      | (prog, .error x) => (prog, .error x)
      | (prog, .ok n) => emitFields d r prog (packLen + n)
end

/-- `compilePackProg(dataElement)`, `compileUnpackProg(dataElement)`: the object afterwards and the
program. /repo/apx/compiler.py:20-32. -/
def CompilerObj.compile (_ : CompilerObj) (d : Dir) (e : Elem) : CompilerObj × Py Bytes :=
  match emitElem d true e [] with
  | (prog, .ok _) => (⟨none⟩, .ok prog)
  | (prog, .error x) => (⟨some prog⟩, .error x)

/-- The property `Port.data_element`: one reference is followed. /repo/apx/base.py:149-158. -/
def Port.dataElement (p : Port) : Py Elem :=
  match p.elem with
  | .refType _ t => .ok t
  | .refId _ => .error .apxTypeError
  | .refName _ => .error .apxTypeError
  | e => .ok e

/-- What can be handed to `Compiler.exec`. -/
inductive ExecArg
  | port (s : Side) (p : Port)
  | other

/-- The direction of the programs of a port. /repo/apx/compiler.py:13-16. -/
def Side.dir : Side → Dir
  | .require => .unpack
  | .provide => .pack

/-- `Compiler.exec(port)`. /repo/apx/compiler.py:9-18. -/
def CompilerObj.exec (c : CompilerObj) : ExecArg → CompilerObj × Py Bytes
  | .port s p =>
    match p.dataElement with
    | .ok e => c.compile s.dir e
    | .error x => (c, .error x)
  | .other => (c, .error .valueError)

/-- A use of a compiler object. -/
inductive CompilerUse
  | exec (a : ExecArg)
  | compile (d : Dir) (e : Elem)

/-- The object after a use, successful or not. -/
def CompilerObj.use (c : CompilerObj) : CompilerUse → CompilerObj
  | .exec a => (c.exec a).1
  | .compile d e => (c.compile d e).1

end Apx
