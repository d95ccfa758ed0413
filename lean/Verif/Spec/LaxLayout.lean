import Verif.Spec.Layout

/-! C28: what a program accepts beside the values that fit. -/

namespace Apx

/-- A record without fields. -/
def Elem.isEmptyRecord : Elem → Bool
  | .record .nil _ => true
  | .refType _ (.record .nil _) => true
  | _ => false

mutual
/-- The bytes of a value, where any value at all will do for a field that is an empty record. -/
def Elem.laxLayout : Elem → PyVal → Option Bytes
  | .record fs none, .dict d => fs.laxLayout d
  | .refType _ t, v => t.laxLayout v
  | .prim tc mn mx a, v => (Elem.prim tc mn mx a).layout v
  | _, _ => none
/-- See `Elem.laxLayout`. -/
def Fields.laxLayout : Fields → List (Str × PyVal) → Option Bytes
  | .nil, _ => some []
  | .cons (some k) e r, d =>
    match d.lookup k with
    | none => none
    | some v =>
      match if e.isEmptyRecord then some [] else e.laxLayout v, r.laxLayout d with
      | some a, some b => some (a ++ b)
      | _, _ => none
  | .cons none _ _, _ => none
end

end Apx
