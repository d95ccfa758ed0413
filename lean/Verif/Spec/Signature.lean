import Verif.Model.Element

/-! Specification vocabulary for data signatures (C22, C23). -/

namespace Apx

/-- A name that may appear between quotes. -/
def QuoteFree (s : Str) : Prop := '"' ∉ s

/-- A type name that may appear inside `T["..."]`. -/
def RefNameOk (s : Str) : Prop := '"' ∉ s ∧ '[' ∉ s ∧ ']' ∉ s

mutual
/-- Well-formed elements: bounds come in pairs, records are not arrays, fields are named, names
contain no delimiter, and every reference has a name (i.e. is not a still unresolved number). -/
def Elem.WellFormed : Elem → Prop
  | .prim _ mn mx _ => mn.isSome = mx.isSome
  | .record fs a => a = none ∧ fs.WellFormed
  | .refId _ => False
  | .refName n => RefNameOk n
  | .refType n _ => RefNameOk n
/-- See `Elem.WellFormed`. -/
def Fields.WellFormed : Fields → Prop
  | .nil => True
  | .cons n e r => (∃ s, n = some s ∧ QuoteFree s) ∧ e.WellFormed ∧ r.WellFormed
end

mutual
/-- The element with every resolved reference replaced by the number or name under which the
text mentions it. -/
def Elem.asWritten (ids : Str → Option Int) (normalized : Bool) : Elem → Elem
  | .refType n _ => match normalized, ids n with
    | false, some i => .refId i
    | _, _ => .refName n
  | .record fs a => .record (fs.asWritten ids normalized) a
  | e => e
/-- See `Elem.asWritten`. -/
def Fields.asWritten (ids : Str → Option Int) (normalized : Bool) : Fields → Fields
  | .nil => .nil
  | .cons n e r => .cons n (e.asWritten ids normalized) (r.asWritten ids normalized)
end

mutual
/-- Every reference of the element is resolved, and to the type which the type list holds under
that name and under that type's number. -/
def Elem.ResolvedIn (types : List NamedType) (ids : Str → Option Int) : Elem → Prop
  | .prim _ _ _ _ => True
  | .record fs _ => fs.ResolvedIn types ids
  | .refId _ => False
  | .refName _ => False
  | .refType n t =>
    (∀ u ∈ types, u.name = n → u = ⟨n, t⟩) ∧ ⟨n, t⟩ ∈ types ∧
    (∀ i, ids n = some i → 0 ≤ i ∧ types[i.toNat]? = some ⟨n, t⟩)
/-- See `Elem.ResolvedIn`. -/
def Fields.ResolvedIn (types : List NamedType) (ids : Str → Option Int) : Fields → Prop
  | .nil => True
  | .cons _ e r => e.ResolvedIn types ids ∧ r.ResolvedIn types ids
end

mutual
/-- The element contains no resolved reference. -/
def Elem.NoResolved : Elem → Prop
  | .record fs _ => fs.NoResolved
  | .refType _ _ => False
  | _ => True
/-- See `Elem.NoResolved`. -/
def Fields.NoResolved : Fields → Prop
  | .nil => True
  | .cons _ e r => e.NoResolved ∧ r.NoResolved
end

mutual
/-- All leaves of an element (references replaced by what they denote) as pairs of element size
and number of items; `none` if a reference is unresolved or a record is itself an array. -/
def Elem.leaves : Elem → Option (List (Nat × Nat))
  | .prim tc _ _ a => some [(match tc with
      | .u8 | .s8 | .str => 1
      | .u16 | .s16 => 2
      | .u32 | .s32 => 4
      | .u64 | .s64 => 8, a.getD 1)]
  | .record fs none => fs.leaves
  | .record _ (some _) => none
  | .refType _ t => t.leaves
  | .refId _ => none
  | .refName _ => none
/-- See `Elem.leaves`. -/
def Fields.leaves : Fields → Option (List (Nat × Nat))
  | .nil => some []
  | .cons _ e r => match e.leaves, r.leaves with
    | some a, some b => some (a ++ b)
    | _, _ => none
end

/-- Total number of bytes of the leaves. -/
def totalSize (ls : List (Nat × Nat)) : Nat := (ls.map (fun p => p.1 * p.2)).sum

end Apx
