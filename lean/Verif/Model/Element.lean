import Verif.Model.PyStr

/-!
Data elements: the `DataElement` class of apx/base.py.

Simplifications.  Elements are trees of values instead of mutable objects.  A reference that has
been resolved to a `DataType` object is the constructor `refType name target`, carrying the name
of that type and its data element; the identity of the type object is represented by its name,
which is unique among the types of a node (`Node.add_type`, /repo/apx/node.py:171).  The `id`
attribute of the type objects is supplied as a function of the name where it is used.
Records cannot carry `minVal`/`maxVal` (nothing in /repo gives them one).
-/

namespace Apx

/-- Type codes `UINT8_TYPE_CODE` .. `STRING_TYPE_CODE`. /repo/apx/base.py:8-16. -/
inductive TypeCode
  | u8 | u16 | u32 | u64 | s8 | s16 | s32 | s64 | str
  deriving DecidableEq, Repr, Inhabited

mutual
/-- A `DataElement`. /repo/apx/base.py:417-459.
`prim` is an element of an integer or string type with optional range and array length,
`record` one with `RECORD_TYPE_CODE`; `refId`, `refName` and `refType` are the three states of
`typeReference` in an element with `REFERENCE_TYPE_CODE`: int, str, `DataType` object. -/
inductive Elem
  | prim (tc : TypeCode) (minVal maxVal : Option Int) (arrayLen : Option Nat)
  | record (fs : Fields) (arrayLen : Option Nat)
  | refId (i : Int)
  | refName (name : Str)
  | refType (name : Str) (target : Elem)
  deriving DecidableEq

/-- The list `elements` of a record, every child with its `name` attribute. -/
inductive Fields
  | nil
  | cons (name : Option Str) (e : Elem) (rest : Fields)
  deriving DecidableEq
end

instance : Inhabited Elem := ⟨.refId 0⟩
instance : Inhabited Fields := ⟨.nil⟩

/-- `len(elements)`. -/
def Fields.length : Fields → Nat
  | .nil => 0
  | .cons _ _ r => r.length + 1

/-- `elements + other`. -/
def Fields.append : Fields → Fields → Fields
  | .nil, g => g
  | .cons n e r, g => .cons n e (r.append g)

/-- `MAX_RECURSE_DEPTH`. /repo/apx/base.py:32. -/
def maxRecurseDepth : Nat := 10

/-- The loop of `resolve_data_element` with `n` iterations left. /repo/apx/base.py:608-620. -/
def Elem.resolveLoop : Nat → Elem → Py Elem
  | 0, .refType _ _ => .error .runtimeError
  | 0, .refId _ => .error .runtimeError
  | 0, .refName _ => .error .runtimeError
  | 0, e => .ok e
  | n + 1, .refType _ t => t.resolveLoop n
  | _ + 1, .refId _ => .error .apxTypeError
  | _ + 1, .refName _ => .error .apxTypeError
  | _ + 1, e => .ok e

/-- `DataElement.resolve_data_element()`. /repo/apx/base.py:606-620. -/
def Elem.resolveDataElement (e : Elem) : Py Elem := e.resolveLoop maxRecurseDepth

/-- The `arrayLen` attribute; `None` for references. /repo/apx/base.py:443,452,460-470. -/
def Elem.arrayLen : Elem → Option Nat
  | .prim _ _ _ a => a
  | .record _ a => a
  | _ => none

/-- `DataElement.isArray()`. /repo/apx/base.py:472-474. -/
def Elem.isArray (e : Elem) : Py Bool := do
  let d ← e.resolveDataElement
  .ok d.arrayLen.isSome

/-- `DataElement.isReference`. /repo/apx/base.py:483-485. -/
def Elem.isReference : Elem → Bool
  | .refId _ => true
  | .refName _ => true
  | .refType _ _ => true
  | _ => false

/-- A type as seen by reference resolution: its name and its data element. -/
structure NamedType where
  name : Str
  elem : Elem
  deriving DecidableEq

/-- `typeList[i]` with Python's negative indices. -/
def pyIndex {α : Type} (l : List α) (i : Int) : Py α :=
  match (if i < 0 then (if 0 ≤ i + l.length then l[(i + l.length).toNat]? else none) else l[i.toNat]?) with
  | some x => .ok x
  | none => .error .indexError

/-- The first type with a given name. /repo/apx/base.py:586-591. -/
def findType (types : List NamedType) (name : Str) : Option NamedType :=
  types.find? (fun t => t.name = name)

mutual
/-- `DataElement.resolve_type(typeList)` with a type list: references are replaced by the type
they denote, recursively inside records; the element afterwards is returned.
/repo/apx/base.py:575-604. -/
def Elem.resolveType (types : List NamedType) : Elem → Py Elem
  | .refType n t => .ok (.refType n t)
  | .refId i => do
    let t ← pyIndex types i
    .ok (.refType t.name t.elem)
  | .refName n =>
    match findType types n with
    | some t => .ok (.refType t.name t.elem)
    | none => .error .apxTypeError
  | .record fs a => do
    let fs ← fs.resolveType types
    .ok (.record fs a)
  | .prim tc mn mx a => .ok (.prim tc mn mx a)

/-- The loop over the children of a record. /repo/apx/base.py:602-603. -/
def Fields.resolveType (types : List NamedType) : Fields → Py Fields
  | .nil => .ok .nil
  | .cons n e r => do
    let e ← e.resolveType types
    let r ← r.resolveType types
    .ok (.cons n e r)
end

/-- The letter of a type code. /repo/apx/base.py:117-122. -/
def TypeCode.letter : TypeCode → Char
  | .u8 => 'C' | .u16 => 'S' | .u32 => 'L' | .u64 => 'U'
  | .s8 => 'c' | .s16 => 's' | .s32 => 'l' | .s64 => 'u' | .str => 'a'

/-- `"({:d},{:d})"` when both bounds are set. /repo/apx/base.py:520-521. -/
def rangeStr : Option Int → Option Int → Str
  | some a, some b => '(' :: (intStr a ++ (',' :: (intStr b ++ [')'])))
  | _, _ => []

/-- `"[{:d}]"` when the array length is set. /repo/apx/base.py:522-523. -/
def arrayStr : Option Nat → Str
  | some n => '[' :: (intStr n ++ [']'])
  | none => []

/-- `'{}'.format(name)`; Python prints `None` for a missing name. /repo/apx/base.py:506. -/
def nameStr : Option Str → Str
  | some s => s
  | none => "None".toList

mutual
/-- `DataElement.to_string(normalized)`; `ids` gives the `id` attribute of the type objects.
/repo/apx/base.py:499-524. -/
def Elem.toStr (ids : Str → Option Int) (normalized : Bool) : Elem → Py Str
  | .prim tc mn mx a => .ok (tc.letter :: (rangeStr mn mx ++ arrayStr a))
  | .record fs a => do
    let s ← fs.toStr ids normalized
    .ok ('{' :: (s ++ ('}' :: arrayStr a)))
  | .refType n _ =>
    match normalized, ids n with
    | false, some i => .ok ('T' :: '[' :: (intStr i ++ [']']))
    | _, _ => .ok ('T' :: '[' :: '"' :: (n ++ ['"', ']']))
  | .refName n => .ok ('T' :: '[' :: '"' :: (n ++ ['"', ']']))
  | .refId _ => .error .runtimeError

/-- The loop over the children in `to_string`. /repo/apx/base.py:505-506. -/
def Fields.toStr (ids : Str → Option Int) (normalized : Bool) : Fields → Py Str
  | .nil => .ok []
  | .cons n e r => do
    let s ← e.toStr ids normalized
    let t ← r.toStr ids normalized
    .ok ('"' :: (nameStr n ++ ('"' :: (s ++ t))))
end

/-- Element sizes. /repo/apx/base.py:273. -/
def TypeCode.size : TypeCode → Nat
  | .u8 => 1 | .u16 => 2 | .u32 => 4 | .u64 => 8
  | .s8 => 1 | .s16 => 2 | .s32 => 4 | .s64 => 8 | .str => 1

/-- The final multiplication. /repo/apx/base.py:289-292. -/
def timesArray (size : Nat) : Option Nat → Nat
  | some n => size * n
  | none => size

mutual
/-- `DataSignature._calcElemSize(dataElement)`. /repo/apx/base.py:269-292. -/
def Elem.calcElemSize : Elem → Py Nat
  | .refType _ t => t.calcElemSize
  | .refId _ => .error .assertionError
  | .refName _ => .error .assertionError
  | .record fs a => do
    let s ← fs.calcElemSize
    .ok (timesArray s a)
  | .prim tc _ _ a => .ok (timesArray tc.size a)

/-- The loop over record children. /repo/apx/base.py:279-281. -/
def Fields.calcElemSize : Fields → Py Nat
  | .nil => .ok 0
  | .cons _ e r => do
    let s ← e.calcElemSize
    let t ← r.calcElemSize
    .ok (s + t)
end

mutual
/-- Number of constructors (measure for the `packLen` loop). -/
def Elem.weight : Elem → Nat
  | .record fs _ => fs.weight + 1
  | .refType _ t => t.weight + 1
  | _ => 1
/-- Number of constructors (measure for the `packLen` loop). -/
def Fields.weight : Fields → Nat
  | .nil => 1
  | .cons _ e r => e.weight + r.weight + 1
end

/-- Measure for the stack of iterators. -/
def stackWeight : List Fields → Nat
  | [] => 0
  | f :: fs => f.weight + stackWeight fs

/-- The loop of `packLen`: `cur` is the current iterator, `stack` the suspended ones.
/repo/apx/base.py:252-266. -/
def packLenLoop (result : Nat) (cur : Fields) (stack : List Fields) : Py Nat :=
  match cur, stack with
  | .nil, [] => .ok result
  | .nil, i :: stack => packLenLoop result i stack
  | .cons _ (.record fs _) r, stack => packLenLoop result fs (r :: stack)
  | .cons _ e r, stack =>
    match e.calcElemSize with
    | .ok s => packLenLoop (result + s) r stack
    | .error x => .error x
termination_by cur.weight + stackWeight stack
decreasing_by
  all_goals simp only [stackWeight, Fields.weight, Elem.weight]
  all_goals omega

/-- `DataSignature.packLen()`. /repo/apx/base.py:247-267. -/
def Elem.packLen (e : Elem) : Py Nat := packLenLoop 0 (.cons none e .nil) []

end Apx
