import Verif.Model.Element
import Verif.Model.Struct

/-!
Init values: `InitValue` and `createInitData` of apx/base.py.
-/

namespace Apx

/-- An `InitValue`: `Int`, `String` or `List`; `missing` is the `None` which the attribute parser can
leave in a list. /repo/apx/base.py:686-708,747-777. -/
inductive InitVal
  | int (i : Int)
  | str (s : Str)
  | list (l : List InitVal)
  | missing
  deriving Inhabited

/-- `v >> (8*k) & 0xFF` appended to a bytearray. -/
def byteAt (v : Int) (k : Nat) : UInt8 := UInt8.ofNat ((v / 256 ^ k) % 256).toNat

/-- The bytes appended for an integer. /repo/apx/base.py:663-676. -/
def initBytes (tc : TypeCode) (v : Int) : Bytes :=
  match tc with
  | .u8 | .s8 => [byteAt v 0]
  | .u16 | .s16 => [byteAt v 0, byteAt v 1]
  | _ => [byteAt v 0, byteAt v 1, byteAt v 2, byteAt v 3]

/-- The scalar branch for integer types; `int(value)` is applied to strings too.
/repo/apx/base.py:660-678. -/
def initScalar (tc : TypeCode) : InitVal → Py Bytes
  | .int i => .ok (initBytes tc i)
  | .str s => do
    let i ← pyInt s
    .ok (initBytes tc i)
  | .list _ => .error .valueError
  | .missing => .error .attributeError

/-- The loop over the elements of an array's init value. /repo/apx/base.py:658-659. -/
def initScalars (tc : TypeCode) : List InitVal → Py Bytes
  | [] => .ok []
  | v :: l => do
    let a ← initScalar tc v
    let b ← initScalars tc l
    .ok (a ++ b)

/-- `data.append(ord(c))` or `data.append(0)` for `n` positions; `ValueError` above 255.
/repo/apx/base.py:650-654. -/
def initString : Nat → Str → Py Bytes
  | 0, _ => .ok []
  | n + 1, [] => do
    let r ← initString n []
    .ok (0 :: r)
  | n + 1, c :: s => if c.toNat < 256 then do
      let r ← initString n s
      .ok (UInt8.ofNat c.toNat :: r)
    else .error .valueError

mutual
/-- `_createInitDataInner(dataElement, initValue)`. The flag `is_array_elem` is only ever true for
the integer types, where it selects `initScalar`. /repo/apx/base.py:635-684. -/
def Elem.initInner : Elem → InitVal → Py Bytes
  | .record fs _, .list l =>
    if l.length ≠ fs.length then .error .valueError else fs.initInner l
  | .record _ _, .missing => .error .attributeError
  | .record _ _, _ => .error .valueError
  | .prim .str _ _ a, .str s =>
    match a with
    | none => .error .typeError
    | some n => initString n s
  | .prim .str _ _ _, .missing => .error .attributeError
  | .prim .str _ _ _, _ => .error .valueError
  | .prim .u64 _ _ _, _ => .error .notImplemented
  | .prim .s64 _ _ _, _ => .error .notImplemented
  | .prim tc _ _ none, v => initScalar tc v
  | .prim tc _ _ (some _), .list l => initScalars tc l
  | .prim _ _ _ (some _), .missing => .error .attributeError
  | .prim _ _ _ (some _), _ => .error .valueError
  | .refType _ t, v => t.initInner v
  | .refId _, _ => .error .assertionError
  | .refName _, _ => .error .assertionError

/-- The loop over the children of a record. /repo/apx/base.py:643-644. -/
def Fields.initInner : Fields → List InitVal → Py Bytes
  | .cons _ e r, v :: l => do
    let a ← e.initInner v
    let b ← r.initInner l
    .ok (a ++ b)
  | .nil, _ => .ok []
  | .cons _ _ _, [] => .error .indexError
end

/-- `DataElement.createInitData(initValue)`: for records the message of the length error accesses a
missing attribute. /repo/apx/base.py:622-633. -/
def Elem.createInitData : Elem → InitVal → Py Bytes
  | .record fs _, .list l =>
    if l.length ≠ fs.length then .error .attributeError else fs.initInner l
  | e, v => e.initInner v

end Apx
