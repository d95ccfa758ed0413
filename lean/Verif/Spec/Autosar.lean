import Verif.Model.Autosar
import Verif.Spec.Layout

/-! Specification of integer type selection (C56) and of enumeration texts (C62). -/

namespace Apx

/-- What is assumed about `int(math.ceil(math.log(x,2)))`: it is right about which powers of two up
to `2^32` the number `x` exceeds or stays below, and at most one too large above that.  For exact
powers it may be either the exponent or one more (the floating-point quotient may fall on either
side), and above `2^32` numbers next to a power need not be distinguished from it. -/
def Accurate (ceilLog : Nat → Nat) : Prop :=
  (∀ x k : Nat, 0 < x → k ≤ 32 → (2 ^ k < x → k < ceilLog x) ∧ (x < 2 ^ k → ceilLog x ≤ k)) ∧
  ∀ x k : Nat, 0 < x → k ≤ 64 → x ≤ 2 ^ k → ceilLog x ≤ k + 1

/-- The exact value: the least `k` with `n ≤ 2 ^ k`. -/
def exactCeilLog (n : Nat) : Nat := if n ≤ 1 then 0 else (n - 1).log2 + 1

/-- The integers a type code can represent. -/
def TypeCode.Holds : TypeCode → Int → Prop
  | .u8, v => 0 ≤ v ∧ v < 2 ^ 8
  | .u16, v => 0 ≤ v ∧ v < 2 ^ 16
  | .u32, v => 0 ≤ v ∧ v < 2 ^ 32
  | .u64, v => 0 ≤ v ∧ v < 2 ^ 64
  | .s8, v => -2 ^ 7 ≤ v ∧ v < 2 ^ 7
  | .s16, v => -2 ^ 15 ≤ v ∧ v < 2 ^ 15
  | .s32, v => -2 ^ 31 ≤ v ∧ v < 2 ^ 31
  | .s64, v => -2 ^ 63 ≤ v ∧ v < 2 ^ 63
  | .str, _ => False

/-- An element for a single integer that admits every value from `mn` to `mx`: the type code can
represent it and it is inside the declared range. -/
def Elem.Admits (e : Elem) (mn mx : Int) : Prop :=
  ∃ tc lo hi, e = .prim tc lo hi none ∧ ∀ v : Int, mn ≤ v → v ≤ mx →
    tc.Holds v ∧ (∀ l, lo = some l → l ≤ v) ∧ (∀ h, hi = some h → v ≤ h)

mutual
/-- The element can represent every value of the AUTOSAR type: integers are admitted, texts of up
to `n` characters have room for `n` bytes and a terminator, and records have the same fields (with
a final `_RE` removed from the name) in the same order. -/
def AType.RepresentedBy : AType → Elem → Prop
  | .bool, e => e.Admits 0 1
  | .int mn mx, e => e.Admits mn mx
  | .string n, e => ∃ len : Nat, e = .prim .str none none (some len) ∧ (len : Int) = n + 1
  | .record fs, e => ∃ es, e = .record es none ∧ fs.RepresentedBy es
  | _, _ => False
/-- See `AType.RepresentedBy`. -/
def AFields.RepresentedBy : AFields → Fields → Prop
  | .nil, .nil => True
  | .cons name t r, .cons name' e es =>
    (∃ s, name' = some s ∧ (s ++ ['_', 'R', 'E'] = name ∨ s = name)) ∧ t.RepresentedBy e ∧ r.RepresentedBy es
  | _, _ => False
end

/-- Bounds for which the selection works.  Unsigned: a positive upper bound up to `2^63` that
is not one of the three powers of two at which the width changes.  Signed: an upper bound beyond 128 in
magnitude that fits and is not such a power, and a lower bound that fits the width which the upper
bound needs. -/
def GoodBounds (mn mx : Int) : Prop :=
  (0 ≤ mn ∧ 0 < mx ∧ mx ≤ 2 ^ 63 ∧ mx ≠ 2 ^ 8 ∧ mx ≠ 2 ^ 16 ∧ mx ≠ 2 ^ 32) ∨
  (mn < 0 ∧ 2 ^ 7 < mx.natAbs ∧ mx.natAbs < 2 ^ 15 ∧ -2 ^ 15 ≤ mn) ∨
  (mn < 0 ∧ 2 ^ 15 < mx.natAbs ∧ mx.natAbs < 2 ^ 31 ∧ -2 ^ 31 ≤ mn) ∨
  (mn < 0 ∧ 2 ^ 31 < mx.natAbs ∧ mx.natAbs ≤ 2 ^ 62 ∧ -2 ^ 63 ≤ mn)

mutual
/-- Types whose integers have good bounds, without arrays, with non-negative text lengths and with
field names that contain no quote and all of whose references are found. -/
def AType.Good : AType → Prop
  | .bool => True
  | .int mn mx => GoodBounds mn mx
  | .string n => 0 ≤ n
  | .record fs => fs.Good
  | _ => False
/-- See `AType.Good`. -/
def AFields.Good : AFields → Prop
  | .nil => True
  | .dangling _ _ => False
  | .cons name t r => '"' ∉ name ∧ t.Good ∧ r.Good
end

/-- The text which an enumeration gives to the value `v` that lies in the element `e`: the element's
text, with the position in the range (from 1) if the element covers more than one value. -/
def CompuElem.textOf (e : CompuElem) (v : Int) : Str :=
  if e.lower = e.upper then e.text else e.text ++ natStr (v - e.lower + 1).toNat

/-- The elements cover the values from `first` on without gap or overlap, in ascending order. -/
def Gapless : Int → List CompuElem → Prop
  | _, [] => True
  | first, e :: l => e.lower = first ∧ first ≤ e.upper ∧ Gapless (e.upper + 1) l

/-- The texts an element gives to its values, from the first to the last. -/
def CompuElem.texts (e : CompuElem) : List Str :=
  (List.range (e.upper + 1 - e.lower).toNat).map fun (i : Nat) => e.textOf (e.lower + (i : Int))

/-- A text that can stand in a value table: no quotes, commas or parentheses. -/
def PlainText (s : Str) : Prop := '"' ∉ s ∧ ',' ∉ s ∧ '(' ∉ s ∧ ')' ∉ s

end Apx
