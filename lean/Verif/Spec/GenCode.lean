import Verif.Spec.Layout
import Verif.Model.GenCode

/-!
Specification for the emitted C functions (C67): which C objects represent which values, and which
types the generator supports.
-/

namespace Apx

mutual
/-- The C object represents the value of the given type: the same integers; text as a zero-padded
character array with room for a terminator; the members of a struct are named like the fields of
the record, with a suffix. -/
def Elem.Repr (sfx : Str) : Elem → PyVal → CVal → Prop
  | .prim tc _ _ none, v, c => ∃ t i, tc.integer = some t ∧ t.InRange i ∧ v = .int i ∧ c = .int i
  | .prim tc _ _ (some n), v, c =>
    (∃ t l, tc.integer = some t ∧ (∀ i ∈ l, t.InRange i) ∧ l.length = n ∧ v = .list (l.map .int) ∧ c = .ints l) ∨
    (∃ s, tc = .str ∧ (utf8Encode s).length < n ∧ v = .str s ∧ c = .chars (textLayout n s))
  | .record fs none, .dict d, .struct cs => fs.Repr sfx d cs
  | .refType _ t, v, c => t.Repr sfx v c
  | _, _, _ => False
/-- See `Elem.Repr`. -/
def Fields.Repr (sfx : Str) : Fields → List (Str × PyVal) → CFields → Prop
  | .nil, _, .nil => True
  | .cons (some k) e r, d, .cons k' c cs =>
    k' = k ++ sfx ∧ (∃ v, d.lookup k = some v ∧ e.Repr sfx v c) ∧ r.Repr sfx d cs
  | _, _, _ => False
end

mutual
/-- The C object has the type that belongs to the element; its contents are arbitrary, except that
character arrays end in a zero byte. -/
def Elem.Shape (sfx : Str) : Elem → CVal → Prop
  | .prim tc _ _ none, c => tc.integer.isSome ∧ ∃ i, c = .int i
  | .prim tc _ _ (some n), c =>
    (tc.integer.isSome ∧ ∃ l : List Int, l.length = n ∧ c = .ints l) ∨
    (tc = .str ∧ ∃ b, b.length + 1 = n ∧ c = .chars (b ++ [0]))
  | .record fs none, .struct cs => fs.Shape sfx cs
  | .refType _ t, c => t.Shape sfx c
  | _, _ => False
/-- See `Elem.Shape`. -/
def Fields.Shape (sfx : Str) : Fields → CFields → Prop
  | .nil, .nil => True
  | .cons (some k) e r, .cons k' c cs => k' = k ++ sfx ∧ e.Shape sfx c ∧ r.Shape sfx cs
  | _, _ => False
end

/-- A reference to an integer type (through at most nine more references). -/
def Elem.IntRef (e : Elem) : Prop :=
  ∃ tc mn mx, e.resolveDataElement = .ok (.prim tc mn mx none) ∧ tc.integer.isSome

mutual
/-- Types for which the emitted code works: integers of up to 32 bits, arrays of these, strings, and
records of these in which every field has its own name; inside records references may only denote
integers. -/
def Elem.CSupported : Elem → Prop
  | .prim tc _ _ none => tc.integer.isSome
  | .prim tc _ _ (some n) => (tc.integer.isSome ∨ tc = .str) ∧ n < 4294967296
  | .record fs none => fs.names.Nodup ∧ fs.CSupported
  | .refType n t => (Elem.refType n t).IntRef
  | _ => False
/-- See `Elem.CSupported`. -/
def Fields.CSupported : Fields → Prop
  | .nil => True
  | .cons _ e r => e.CSupported ∧ r.CSupported
end

/-- Arrays, strings and records are passed by reference, integers by value. -/
def Elem.ByRef : Elem → Bool
  | .prim _ _ _ none => false
  | _ => true

/-- The argument of a write function. -/
def writeArg (e : Elem) (c : CVal) : CVal := if e.ByRef then .ptr c else c

end Apx
