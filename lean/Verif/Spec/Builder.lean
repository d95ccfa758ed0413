import Verif.Model.Builder

/-!
Specification of elements made by calls (C97).  It looks at nothing but the calls and what they
returned.  `t` is what happened, the latest first.
-/

namespace Apx

/-- The items of a list the program made. -/
def listIn : List BEvent → Nat → List Nat
  | ⟨.list items, .ok (some v)⟩ :: t, w => if v = w then items else listIn t w
  | ⟨.extend v c, .ok _⟩ :: t, w => if v = w then listIn t w ++ [c] else listIn t w
  | _ :: t, w => listIn t w
  | [], _ => []

/-- The elements of a record: those in the list when the record was made, then those appended to the
record since. -/
def childrenIn : List BEvent → Nat → List Nat
  | ⟨.record _ es, .ok (some h)⟩ :: t, g => if h = g then es.elim [] (listIn t) else childrenIn t g
  | ⟨.append h c, .ok _⟩ :: t, g => if h = g then childrenIn t g ++ [c] else childrenIn t g
  | _ :: t, g => childrenIn t g
  | [], _ => []

/-- The letters that stand for the integer types in a data signature. -/
def IntFactory.letter : IntFactory → Char
  | .UInt8 => 'C'
  | .UInt16 => 'S'
  | .UInt32 => 'L'
  | .SInt8 => 'c'
  | .SInt16 => 's'
  | .SInt32 => 'l'

/-- The element a reference stands for. -/
def BRef.elem : BRef → Elem
  | .number i => .refId i
  | .name n => .refName n
  | .type n e => .refType n e

mutual
/-- Element number `h` has the name `name` and is, at the end, the element `e`. -/
inductive Built (t : List BEvent) : Nat → Option Str → Elem → Prop
  | int {h : Nat} {f : IntFactory} {tc : TypeCode} {name : Option Str} {mn mx : Option Int} :
      ⟨.int f name mn mx none, .ok (some h)⟩ ∈ t → tc.letter = f.letter → Built t h name (.prim tc mn mx none)
  | ints {h : Nat} {f : IntFactory} {tc : TypeCode} {name : Option Str} {mn mx : Option Int} {n : Nat} :
      ⟨.int f name mn mx (some n), .ok (some h)⟩ ∈ t → tc.letter = f.letter →
      Built t h name (.prim tc mn mx (some n))
  | char {h : Nat} {name : Option Str} :
      ⟨.string name none, .ok (some h)⟩ ∈ t → Built t h name (.prim .str none none none)
  | text {h : Nat} {name : Option Str} {n : Nat} :
      ⟨.string name (some n), .ok (some h)⟩ ∈ t → Built t h name (.prim .str none none (some n))
  | reference {h : Nat} {name : Option Str} {r : BRef} {e : Elem} :
      ⟨.reference r name, .ok (some h)⟩ ∈ t → e = r.elem → Built t h name e
  | record {h : Nat} {name : Option Str} {es : Option Nat} {fs : Fields} :
      ⟨.record name es, .ok (some h)⟩ ∈ t → BuiltAll t (childrenIn t h) fs → Built t h name (.record fs none)
/-- The elements with these numbers, in this order, are these fields. -/
inductive BuiltAll (t : List BEvent) : List Nat → Fields → Prop
  | nil : BuiltAll t [] .nil
  | cons {c : Nat} {cs : List Nat} {name : Option Str} {e : Elem} {fs : Fields} :
      Built t c name e → BuiltAll t cs fs → BuiltAll t (c :: cs) (.cons name e fs)
end

/-- Element `c` is directly in the record `h`. -/
def InRecord (t : List BEvent) (c h : Nat) : Prop := c ∈ childrenIn t h

/-- The call made element `h`. -/
def BEvent.Makes (ev : BEvent) (h : Nat) : Prop :=
  ev.result = .ok (some h) ∧ ∀ items, ev.call ≠ .list items

mutual
/-- How many elements are inside each other. -/
def Elem.levels : Elem → Nat
  | .record fs _ => fs.levels + 1
  | _ => 1
/-- See `Elem.levels`. -/
def Fields.levels : Fields → Nat
  | .nil => 0
  | .cons _ e r => max e.levels r.levels
end

end Apx
