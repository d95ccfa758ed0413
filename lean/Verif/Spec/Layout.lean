import Verif.Model.Element
import Verif.Model.PyVal
import Verif.Spec.Signature

/-!
Specification of the wire layout of values (C24-C30), independent of compiler and virtual machine.
-/

namespace Apx

/-- The integer type denoted by a type code (64-bit integers and text: none). -/
def TypeCode.integer : TypeCode → Option IntT
  | .u8 => some .u8 | .u16 => some .u16 | .u32 => some .u32
  | .s8 => some .s8 | .s16 => some .s16 | .s32 => some .s32
  | _ => none

/-- Width in bytes. -/
def IntT.width : IntT → Nat
  | .u8 | .s8 => 1
  | .u16 | .s16 => 2
  | .u32 | .s32 => 4

/-- Values representable by an integer type. -/
def IntT.InRange : IntT → Int → Prop
  | .u8, i => 0 ≤ i ∧ i ≤ 255
  | .u16, i => 0 ≤ i ∧ i ≤ 65535
  | .u32, i => 0 ≤ i ∧ i ≤ 4294967295
  | .s8, i => -128 ≤ i ∧ i ≤ 127
  | .s16, i => -32768 ≤ i ∧ i ≤ 32767
  | .s32, i => -2147483648 ≤ i ∧ i ≤ 2147483647

instance (t : IntT) (i : Int) : Decidable (t.InRange i) := by
  cases t <;> exact inferInstanceAs (Decidable (_ ∧ _))

/-- Little-endian two's complement: byte `k` is `⌊i / 256^k⌋ mod 256`. -/
def littleEndian (n : Nat) (i : Int) : Bytes :=
  (List.range n).map fun k => UInt8.ofNat ((i / 256 ^ k) % 256).toNat

/-- The bytes of one integer value, `none` if the value is not an integer in range. -/
def intLayout (t : IntT) : PyVal → Option Bytes
  | .int i => if t.InRange i then some (littleEndian t.width i) else none
  | _ => none

/-- The concatenated bytes of integers. -/
def intsLayout (t : IntT) : List PyVal → Option Bytes
  | [] => some []
  | v :: l => match intLayout t v, intsLayout t l with
    | some a, some b => some (a ++ b)
    | _, _ => none

/-- Text in a field of `n` bytes: UTF-8, cut off at `n` bytes or filled up with zero bytes. -/
def textLayout (n : Nat) (s : Str) : Bytes :=
  (utf8Encode s).take n ++ List.replicate (n - (utf8Encode s).length) 0

mutual
/-- The bytes that represent a value of a given type; `none` if the value does not fit the type
(integer out of range, missing field, too short list, wrong kind of value). Surplus list elements
and dict entries are not represented. -/
def Elem.layout : Elem → PyVal → Option Bytes
  | .prim tc _ _ none, v =>
    match tc.integer with
    | some t => intLayout t v
    | none => none
  | .prim tc _ _ (some n), v =>
    match tc.integer, v with
    | some t, .list l => if n ≤ l.length then intsLayout t (l.take n) else none
    | none, .str s => if tc = .str then some (textLayout n s) else none
    | _, _ => none
  | .record fs none, .dict d => fs.layout d
  | .refType _ t, v => t.layout v
  | _, _ => none

/-- The fields of a record in declaration order. -/
def Fields.layout : Fields → List (Str × PyVal) → Option Bytes
  | .nil, _ => some []
  | .cons (some k) e r, d =>
    match d.lookup k with
    | none => none
    | some v =>
      match e.layout v, r.layout d with
      | some a, some b => some (a ++ b)
      | _, _ => none
  | .cons none _ _, _ => none
end

mutual
/-- All array and string lengths are between 1 and 65535. -/
def Elem.LensOk : Elem → Prop
  | .prim _ _ _ a => ∀ n, a = some n → 1 ≤ n ∧ n ≤ 65535
  | .record fs _ => fs.LensOk
  | .refType _ t => t.LensOk
  | _ => True
/-- See `Elem.LensOk`. -/
def Fields.LensOk : Fields → Prop
  | .nil => True
  | .cons _ e r => e.LensOk ∧ r.LensOk
end

mutual
/-- Field names are ASCII without NUL (they are transported as C strings in programs). -/
def Elem.NamesOk : Elem → Prop
  | .record fs _ => fs.NamesOk
  | .refType _ t => t.NamesOk
  | _ => True
/-- See `Elem.NamesOk`. -/
def Fields.NamesOk : Fields → Prop
  | .nil => True
  | .cons n e r => (∀ s, n = some s → ∀ c ∈ s, c ≠ '\x00' ∧ c.toNat < 128) ∧ e.NamesOk ∧ r.NamesOk
end

mutual
/-- No record element has a name with a NUL character. -/
def Elem.NoNul : Elem → Prop
  | .record fs _ => fs.NoNul
  | .refType _ t => t.NoNul
  | _ => True
/-- See `Elem.NoNul`. -/
def Fields.NoNul : Fields → Prop
  | .nil => True
  | .cons n e r => (∀ s, n = some s → '\x00' ∉ s) ∧ e.NoNul ∧ r.NoNul
end

/-- The element is an array of integers with `n` elements. -/
def Elem.IsIntArray (e : Elem) (n : Nat) : Prop :=
  ∃ tc mn mx, e = .prim tc mn mx (some n) ∧ tc ≠ .str

mutual
/-- Inside records no integer array is longer than the number of entries of the dict it is in
(the extra condition which the code imposes, see C29). -/
def Elem.ArraysOk : Elem → PyVal → Prop
  | .record fs _, .dict d => fs.ArraysOk d
  | .refType _ t, v => t.ArraysOk v
  | _, _ => True
/-- See `Elem.ArraysOk`. -/
def Fields.ArraysOk : Fields → List (Str × PyVal) → Prop
  | .nil, _ => True
  | .cons name e r, d =>
    (∀ n, e.IsIntArray n → n ≤ d.length) ∧
    (∀ k v, name = some k → d.lookup k = some v → e.ArraysOk v) ∧ r.ArraysOk d
end

/-- A field that is not itself a record. -/
def Elem.IsFlat : Elem → Prop
  | .record _ _ => False
  | .refType _ t => t.IsFlat
  | _ => True

/-- No field is a record. -/
def Fields.AllFlat : Fields → Prop
  | .nil => True
  | .cons _ e r => e.IsFlat ∧ r.AllFlat

/-- A type without records inside records. -/
def Elem.NoNested : Elem → Prop
  | .record fs _ => fs.AllFlat
  | .refType _ t => t.NoNested
  | _ => True

mutual
/-- No record inside a record is empty. -/
def Elem.NoEmptyInside : Elem → Prop
  | .record fs _ => fs.NoEmptyInside
  | .refType _ t => t.NoEmptyInside
  | _ => True
/-- See `Elem.NoEmptyInside`. -/
def Fields.NoEmptyInside : Fields → Prop
  | .nil => True
  | .cons _ e r => (∀ m a, e ≠ .record .nil a ∧ e ≠ .refType m (.record .nil a)) ∧
    e.NoEmptyInside ∧ r.NoEmptyInside
end

/-- Field names of a record. -/
def Fields.names : Fields → List (Option Str)
  | .nil => []
  | .cons n _ r => n :: r.names

/-- Python equality of values whose dicts are not nested: dicts are compared as mappings. -/
def PyVal.Same : PyVal → PyVal → Prop
  | .dict d, .dict d' => ∀ k, d.lookup k = d'.lookup k
  | v, v' => v = v'

mutual
/-- The value has exactly the shape of the type: lists have the declared length, text fits into
the field and contains no NUL, dicts have exactly the declared fields (in any order). -/
def Elem.Exact : Elem → PyVal → Prop
  | .prim tc _ _ none, v => ∃ t i, tc.integer = some t ∧ v = .int i ∧ t.InRange i
  | .prim tc _ _ (some n), v =>
    (∃ t l, tc.integer = some t ∧ v = .list l ∧ l.length = n ∧ ∀ x ∈ l, ∃ i, x = .int i ∧ t.InRange i) ∨
    (∃ s, tc = .str ∧ v = .str s ∧ (utf8Encode s).length ≤ n ∧ '\x00' ∉ s)
  | .record fs none, .dict d =>
    fs.names.Nodup ∧ (∀ k, (d.lookup k).isSome ↔ some k ∈ fs.names) ∧ fs.Exact d
  | .refType _ t, v => t.Exact v
  | _, _ => False
/-- See `Elem.Exact`. -/
def Fields.Exact : Fields → List (Str × PyVal) → Prop
  | .nil, _ => True
  | .cons n e r, d => (∃ k v, n = some k ∧ d.lookup k = some v ∧ e.Exact v) ∧ r.Exact d
end

/-- Integer scalars and arrays. -/
def Elem.NumericLeaf : Elem → Prop
  | .prim tc _ _ _ => tc.integer.isSome
  | .refType _ t => t.NumericLeaf
  | _ => False

/-- All fields are integers or integer arrays. -/
def Fields.AllNumeric : Fields → Prop
  | .nil => True
  | .cons _ e r => e.NumericLeaf ∧ r.AllNumeric

/-- Integers, integer arrays and flat records of these. -/
def Elem.Numeric : Elem → Prop
  | .prim tc _ _ _ => tc.integer.isSome
  | .record fs a => a = none ∧ fs.AllNumeric ∧ fs.names.Nodup
  | .refType _ t => t.Numeric
  | _ => False

end Apx
