import Verif.Model.Element
import Verif.Model.PyVal

/-!
The byte-code compiler apx/compiler.py.

Pack and unpack programs are produced by separate but literally parallel methods that differ only
in the opcodes; they are one definition here, parameterised by the direction.
-/

namespace Apx

/-- Kind of program. -/
inductive Dir
  | pack | unpack
  deriving DecidableEq, Repr, Inhabited

/-- Integer types the compiler has opcodes for; `none` for the others.
/repo/apx/compiler.py:76-98,117-139. -/
def TypeCode.intT : TypeCode → Option IntT
  | .u8 => some .u8 | .u16 => some .u16 | .u32 => some .u32
  | .s8 => some .s8 | .s16 => some .s16 | .s32 => some .s32
  | .u64 => none | .s64 => none | .str => none

/-- `OPCODE_PACK_U8` .. `OPCODE_PACK_S32` and `OPCODE_UNPACK_U8` .. `OPCODE_UNPACK_S32`.
/repo/apx/vm_base.py:4-9,17-22. -/
def opScalar : Dir → IntT → UInt8
  | .pack, .u8 => 3 | .pack, .u16 => 4 | .pack, .u32 => 5
  | .pack, .s8 => 6 | .pack, .s16 => 7 | .pack, .s32 => 8
  | .unpack, .u8 => 16 | .unpack, .u16 => 17 | .unpack, .u32 => 18
  | .unpack, .s8 => 19 | .unpack, .s16 => 20 | .unpack, .s32 => 21

/-- `OPCODE_PACK_U8AR` .. and `OPCODE_UNPACK_U8AR` ... /repo/apx/vm_base.py:11-16,24-29. -/
def opArray : Dir → IntT → UInt8
  | .pack, .u8 => 10 | .pack, .u16 => 11 | .pack, .u32 => 12
  | .pack, .s8 => 13 | .pack, .s16 => 14 | .pack, .s32 => 15
  | .unpack, .u8 => 23 | .unpack, .u16 => 24 | .unpack, .u32 => 25
  | .unpack, .s8 => 26 | .unpack, .s16 => 27 | .unpack, .s32 => 28

/-- `OPCODE_PACK_STR`, `OPCODE_UNPACK_STR`. /repo/apx/vm_base.py:10,23. -/
def opStr : Dir → UInt8
  | .pack => 9 | .unpack => 22

/-- `OPCODE_PACK_PROG`, `OPCODE_UNPACK_PROG`. /repo/apx/vm_base.py:2-3. -/
def opProg : Dir → UInt8
  | .pack => 1 | .unpack => 2

/-- `OPCODE_RECORD_ENTER`. /repo/apx/vm_base.py:30. -/
def opEnter : UInt8 := 29
/-- `OPCODE_RECORD_SELECT`. /repo/apx/vm_base.py:31. -/
def opSelect : UInt8 := 30
/-- `OPCODE_RECORD_LEAVE`. /repo/apx/vm_base.py:32. -/
def opLeave : UInt8 := 31

/-- `_packProgHeader(progLen)`, `_unpackProgHeader(progLen)`: opcode and the low four bytes of the
length. /repo/apx/compiler.py:34-57. -/
def progHeader (d : Dir) (progLen : Nat) : Bytes := opProg d :: leBytes 4 progLen

/-- `_packU8AR` .. `_packS32AR` and the unpack versions: opcode and the low two bytes of the array
length; returns the data length. /repo/apx/compiler.py:205-275. -/
def arrayCode (d : Dir) (t : IntT) (n : Nat) : Bytes × Nat := (opArray d t :: leBytes 2 n, t.size * n)

/-- `_packSTR`, `_unpackSTR`. /repo/apx/compiler.py:277-287. -/
def strCode (d : Dir) (n : Nat) : Bytes × Nat := (opStr d :: leBytes 2 n, n)

/-- `map(ord, name)` appended to a bytearray: `ValueError` for characters above 255. -/
def ordBytes : Str → Py Bytes
  | [] => .ok []
  | c :: s => if c.toNat < 256 then do
      let r ← ordBytes s
      .ok (UInt8.ofNat c.toNat :: r)
    else .error .valueError

/-- `_recordSelect(childElement)`; `map(ord, None)` is a `TypeError`.
/repo/apx/compiler.py:289-292. -/
def recordSelect : Option Str → Py Bytes
  | none => .error .typeError
  | some s => do
    let b ← ordBytes s
    .ok (opSelect :: (b ++ [0]))

/-- `_packArray`, `_unpackArray`. /repo/apx/compiler.py:153-203. -/
def compileArray (d : Dir) : Elem → Py (Bytes × Nat)
  | .prim tc _ _ (some n) =>
    match tc.intT with
    | some t => .ok (arrayCode d t n)
    | none => if tc = .str then .ok (strCode d n) else .error .notImplemented
  | _ => .error .notImplemented

/-- `_packSingleElement`, `_unpackSingleElement` for the integer types.
/repo/apx/compiler.py:76-99,117-140. -/
def compileScalar (d : Dir) (tc : TypeCode) : Py (Bytes × Nat) :=
  match tc.intT with
  | some t => .ok ([opScalar d t], t.size)
  | none => .error .notImplemented

mutual
/-- `_packDataElement`, `_unpackDataElement` without the header: the code appended and the
length returned. /repo/apx/compiler.py:59-69, 71-151. -/
def compileElem (d : Dir) (e : Elem) : Py (Bytes × Nat) :=
  match e.isArray with
  | .error x => .error x
  | .ok true => compileArray d e
  | .ok false =>
    match e with
    | .prim tc _ _ _ => compileScalar d tc
    | .record fs _ => do
      let (code, n) ← compileFields d fs
      .ok (opEnter :: (code ++ [opLeave]), n)
    | .refType _ (.prim tc _ _ _) => compileScalar d tc
    | .refType _ (.record fs _) => do
      let (code, n) ← compileFields d fs
      .ok (opEnter :: (code ++ [opLeave]), n)
    | .refType _ _ => .error .notImplemented
    | .refId _ => .error .assertionError
    | .refName _ => .error .assertionError

/-- The loop over the children of a record. /repo/apx/compiler.py:103-105,144-146. -/
def compileFields (d : Dir) : Fields → Py (Bytes × Nat)
  | .nil => .ok ([], 0)
  | .cons name e r => do
    let s ← recordSelect name
    let (c, n) ← compileElem d e
    let (c', n') ← compileFields d r
    .ok (s ++ (c ++ c'), n + n')
end

/-- `compilePackProg(dataElement)`, `compileUnpackProg(dataElement)`. The header is written before
the code or, for records, inserted in front of it afterwards; the program is the same.
/repo/apx/compiler.py:20-32. -/
def compileProg (d : Dir) (e : Elem) : Py Bytes := do
  let (code, n) ← compileElem d e
  .ok (progHeader d n ++ code)

end Apx
