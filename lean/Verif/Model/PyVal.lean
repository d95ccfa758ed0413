import Verif.Model.Struct

/-!
Python values handed to and returned by the virtual machine, and the `struct` conversions of
apx/vm_state.py.
-/

namespace Apx

/-- A Python value given to `write_port` or returned by `read_port`: `int` (also `bool`), `str`,
`list`, `dict` with string keys in insertion order, `None` (`null`), or anything else (`other`: float,
bytes, objects). -/
inductive PyVal
  | null
  | int (i : Int)
  | str (s : Str)
  | list (l : List PyVal)
  | dict (d : List (Str × PyVal))
  | other
  deriving Inhabited

mutual
/-- Structural equality test (values carry no decidable equality by themselves). -/
def PyVal.eqb : PyVal → PyVal → Bool
  | .null, .null => true
  | .int i, .int j => i == j
  | .str s, .str t => s == t
  | .list l, .list m => PyVal.eqbList l m
  | .dict d, .dict e => PyVal.eqbDict d e
  | .other, .other => true
  | _, _ => false
/-- See `PyVal.eqb`. -/
def PyVal.eqbList : List PyVal → List PyVal → Bool
  | [], [] => true
  | a :: l, b :: m => PyVal.eqb a b && PyVal.eqbList l m
  | _, _ => false
/-- See `PyVal.eqb`. -/
def PyVal.eqbDict : List (Str × PyVal) → List (Str × PyVal) → Bool
  | [], [] => true
  | (k, a) :: l, (k', b) :: m => k == k' && PyVal.eqb a b && PyVal.eqbDict l m
  | _, _ => false
end

mutual
theorem PyVal.eqb_iff (a b : PyVal) : PyVal.eqb a b = true ↔ a = b := by
  match a with
  | .null => cases b <;> simp [PyVal.eqb]
  | .int i => cases b <;> simp [PyVal.eqb]
  | .str s => cases b <;> simp [PyVal.eqb]
  | .other => cases b <;> simp [PyVal.eqb]
  | .list l => cases b <;> simp [PyVal.eqb, PyVal.eqbList_iff l]
  | .dict d => cases b <;> simp [PyVal.eqb, PyVal.eqbDict_iff d]
theorem PyVal.eqbList_iff (l m : List PyVal) : PyVal.eqbList l m = true ↔ l = m := by
  match l with
  | [] => cases m <;> simp [PyVal.eqbList]
  | a :: l => cases m <;> simp [PyVal.eqbList, PyVal.eqb_iff a, PyVal.eqbList_iff l]
theorem PyVal.eqbDict_iff (l m : List (Str × PyVal)) : PyVal.eqbDict l m = true ↔ l = m := by
  match l with
  | [] => cases m <;> simp [PyVal.eqbDict]
  | (k, a) :: l => cases m <;> simp [PyVal.eqbDict, PyVal.eqb_iff a, PyVal.eqbDict_iff l, Prod.ext_iff, and_assoc]
end

instance : DecidableEq PyVal := fun a b => decidable_of_iff _ (PyVal.eqb_iff a b)

/-- `isinstance(v, dict)`. -/
def PyVal.isDict : PyVal → Bool
  | .dict _ => true
  | _ => false

/-- `isinstance(v, list)`. -/
def PyVal.isList : PyVal → Bool
  | .list _ => true
  | _ => false

/-- `v[key]` for a string key. -/
def PyVal.getKey : PyVal → Str → Py PyVal
  | .dict d, k => match d.lookup k with
    | some v => .ok v
    | none => .error .keyError
  | _, _ => .error .typeError

/-- `v[i]` for a non-negative integer. -/
def PyVal.getIdx : PyVal → Nat → Py PyVal
  | .list l, i => match l[i]? with
    | some v => .ok v
    | none => .error .indexError
  | .str s, i => match s[i]? with
    | some c => .ok (.str [c])
    | none => .error .indexError
  | .dict _, _ => .error .keyError
  | _, _ => .error .typeError

/-- `len(v)`. -/
def PyVal.len : PyVal → Py Nat
  | .list l => .ok l.length
  | .dict d => .ok d.length
  | .str s => .ok s.length
  | _ => .error .typeError

/-- `d[k] = v` on a dict: replaces the entry or adds one at the end. -/
def dictSet (d : List (Str × PyVal)) (k : Str) (v : PyVal) : List (Str × PyVal) :=
  match d with
  | [] => [(k, v)]
  | (k', v') :: d => if k' = k then (k', v) :: d else (k', v') :: dictSet d k v

/-- The integer types of the virtual machine. -/
inductive IntT
  | u8 | u16 | u32 | s8 | s16 | s32
  deriving DecidableEq, Repr, Inhabited

/-- `UINT8_LEN` .. `SINT32_LEN`. /repo/apx/vm_base.py:40-45. -/
def IntT.size : IntT → Nat
  | .u8 => 1 | .u16 => 2 | .u32 => 4 | .s8 => 1 | .s16 => 2 | .s32 => 4

/-- Whether the struct format letter is a signed one (`b`, `h`, `i`). /repo/apx/vm_state.py:4-9. -/
def IntT.signed : IntT → Bool
  | .u8 => false | .u16 => false | .u32 => false | .s8 => true | .s16 => true | .s32 => true

/-- `Struct(fmt).pack(v)` for the formats `B <H <I <b <h <i`: `struct.error` unless `v` is an
integer that fits. /repo/apx/vm_state.py:4-9. -/
def packInt (t : IntT) (v : PyVal) : Py Bytes :=
  match v with
  | .int i =>
    if t.signed then
      if -(256 ^ t.size / 2 : Int) ≤ i ∧ i < (256 ^ t.size / 2 : Int) then
        .ok (leBytes t.size (i % (256 ^ t.size : Int)).toNat)
      else .error .structError
    else
      if 0 ≤ i ∧ i < (256 ^ t.size : Int) then .ok (leBytes t.size i.toNat)
      else .error .structError
  | _ => .error .structError

/-- `Struct(fmt).unpack(bs)` for exactly the bytes of one integer. /repo/apx/vm_state.py:4-9. -/
def unpackInt (t : IntT) (bs : Bytes) : Int :=
  if t.signed then
    if leNat bs < 256 ^ t.size / 2 then (leNat bs : Int) else (leNat bs : Int) - (256 ^ t.size : Int)
  else (leNat bs : Int)

/-- `buffer[off:off+len(bs)] = bs` inside `struct.pack_into`; `struct.error` if the buffer is too
short. -/
def packInto (data : Bytes) (off : Nat) (bs : Bytes) : Py Bytes :=
  if off + bs.length ≤ data.length then .ok (data.take off ++ bs ++ data.drop (off + bs.length))
  else .error .structError

/-- The `n` bytes read by `struct.unpack_from(data, off)`; `struct.error` if there are fewer. -/
def unpackFrom (data : Bytes) (off n : Nat) : Py Bytes :=
  if off + n ≤ data.length then .ok ((data.drop off).take n) else .error .structError

end Apx
