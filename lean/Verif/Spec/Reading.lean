import Verif.Spec.Layout

/-! C27: the value that bytes stand for. -/

namespace Apx

mutual
/-- The bytes, as many as the type has, stand for this value: integers have the bytes as layout, text is what is encoded
before the first null byte, a record is the dictionary of its fields. -/
def Elem.ReadsAs : Elem → Bytes → PyVal → Prop
  | .prim tc _ _ none, b, v => ∃ t, tc.integer = some t ∧ intLayout t v = some b
  | .prim tc _ _ (some n), b, v =>
    (∃ t l, tc.integer = some t ∧ v = .list l ∧ l.length = n ∧ intsLayout t l = some b) ∨
    (∃ s, tc = .str ∧ v = .str s ∧ b.length = n ∧ utf8Encode s = b.takeWhile (· ≠ 0))
  | .record fs none, b, v => ∃ d, v = .dict d ∧ fs.ReadsAs b [] d
  | .refType _ t, b, v => t.ReadsAs b v
  | _, _, _ => False
/-- The entries `acc` with those of the fields added, from the bytes of the fields one after the other. A field that is
a record is never read. -/
def Fields.ReadsAs : Fields → Bytes → List (Str × PyVal) → List (Str × PyVal) → Prop
  | .nil, b, acc, d => b = [] ∧ d = acc
  | .cons (some k) e r, b, acc, d =>
    e.IsFlat ∧ ∃ b1 b2 v, b = b1 ++ b2 ∧ e.ReadsAs b1 v ∧ r.ReadsAs b2 (dictSet acc k v) d
  | .cons none _ _, _, _, _ => False
end

/-- One of the fields is an array of `n` integers. -/
def Fields.HasIntArray : Fields → Nat → Prop
  | .nil, _ => False
  | .cons _ e r, n => e.IsIntArray n ∨ r.HasIntArray n

end Apx
