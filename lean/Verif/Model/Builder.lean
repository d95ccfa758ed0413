import Verif.Model.Element

/-!
Data elements made by calling the class `DataElement`: its class methods and `append`
(/repo/apx/base.py:417-573), with the objects and the lists they share.

Simplifications.  An object that does not exist cannot be named in a program; in the model such a call
raises `AttributeError`.  The bound on the depth of recursion is a parameter.  A `DataType` object
given as reference is represented by its name (as in Model/Element.lean).  Attributes are not assigned
to from outside.
-/

namespace Apx

/-- The argument `reference`. /repo/apx/base.py:440-442. -/
inductive BRef
  | number (i : Int)
  | name (s : Str)
  | type (name : Str) (target : Elem)
  deriving DecidableEq

/-- What an object of the class `DataElement` holds besides its name; the attribute `elements` of a
record is the number of a list object. /repo/apx/base.py:421-458. -/
inductive BKind
  | prim (tc : TypeCode) (minVal maxVal : Option Int) (arrayLen : Option Nat)
  | record (list : Nat)
  | ref (r : BRef)
  deriving DecidableEq

/-- An object of the class `DataElement`. -/
structure BObj where
  name : Option Str
  kind : BKind
  deriving DecidableEq

/-- All elements, all list objects, and which list object each list made by the program is. -/
structure BState where
  objs : List BObj
  lists : List (List Nat)
  vars : List Nat
  deriving DecidableEq

/-- The class methods for integers. -/
inductive IntFactory
  | UInt8 | UInt16 | UInt32 | SInt8 | SInt16 | SInt32
  deriving DecidableEq

/-- The type code each of them passes on. /repo/apx/base.py:527-537,543-553. -/
def IntFactory.code : IntFactory → TypeCode
  | .UInt8 => .u8
  | .UInt16 => .u16
  | .UInt32 => .u32
  | .SInt8 => .s8
  | .SInt16 => .s16
  | .SInt32 => .s32

/-- What a program does: `[…]`, `list.append(elem)`, `DataElement.UInt8(name, minVal, maxVal, arrayLen)` and
the other integer types, `DataElement.String(name, arrayLen)`, `DataElement.Record(name, elements)`,
`DataElement.TypeReference(reference, name)`, `elem.append(other)`. Lists and elements are numbered in the
order in which they are made. -/
inductive BCall
  | list (items : List Nat)
  | extend (list elem : Nat)
  | int (f : IntFactory) (name : Option Str) (minVal maxVal : Option Int) (arrayLen : Option Int)
  | string (name : Option Str) (arrayLen : Option Int)
  | record (name : Option Str) (elements : Option Nat)
  | reference (r : BRef) (name : Option Str)
  | append (elem other : Nat)
  deriving DecidableEq

/-- The setter of `arrayLen`. /repo/apx/base.py:463-470. -/
def setArrayLen : Option Int → Py (Option Nat)
  | none => .ok none
  | some n => if n < 0 then .error .valueError else .ok (some n.toNat)

/-- A new object. -/
def BState.new (s : BState) (o : BObj) : BState × Py (Option Nat) :=
  ({ s with objs := s.objs ++ [o] }, .ok (some s.objs.length))

/-- `cls(name, typeCode, minVal, maxVal, arrayLen)`. /repo/apx/base.py:421-458. -/
def BState.prim (s : BState) (tc : TypeCode) (name : Option Str) (mn mx : Option Int) (len : Option Int) :
    BState × Py (Option Nat) :=
  match setArrayLen len with
  | .ok n => s.new ⟨name, .prim tc mn mx n⟩
  | .error e => (s, .error e)

/-- `list(elements)`, or `[]` for `None`: the items of the new list. /repo/apx/base.py:558-561. -/
def BState.copied (s : BState) : Option Nat → Py (List Nat)
  | none => .ok []
  | some v =>
    match s.vars[v]?.bind (s.lists[·]?) with
    | some l => .ok l
    | none => .error .attributeError

/-- `Record(name, elements)`. /repo/apx/base.py:555-562. -/
def BState.record (s : BState) (name : Option Str) (elements : Option Nat) : BState × Py (Option Nat) :=
  match s.copied elements with
  | .ok l => ({ s with lists := s.lists ++ [l] }).new ⟨name, .record s.lists.length⟩
  | .error e => (s, .error e)

/-- `append(elem)`. /repo/apx/base.py:569-573. -/
def BState.append (s : BState) (h c : Nat) : BState × Py (Option Nat) :=
  match s.objs[h]? with
  | none => (s, .error .attributeError)
  | some ⟨_, .record l⟩ => ({ s with lists := s.lists.modify l (· ++ [c]) }, .ok none)
  | some _ => (s, .error .parseError)

/-- One call: the state afterwards, and what is returned or raised. -/
def BState.step (s : BState) : BCall → BState × Py (Option Nat)
  | .list items =>
    if items.all (· < s.objs.length) then
      (⟨s.objs, s.lists ++ [items], s.vars ++ [s.lists.length]⟩, .ok (some s.vars.length))
    else (s, .error .attributeError)
  | .extend v c =>
    match s.vars[v]?, s.objs[c]? with
    | some l, some _ => ({ s with lists := s.lists.modify l (· ++ [c]) }, .ok none)
    | _, _ => (s, .error .attributeError)
  | .int f name mn mx len => s.prim f.code name mn mx len
  | .string name len => s.prim .str name none none len
  | .record name es => s.record name es
  | .reference r name => s.new ⟨name, .ref r⟩
  | .append h c =>
    match s.objs[c]? with
    | some _ => s.append h c
    | none => (s, .error .attributeError)

/-- What happened: a call and what it returned or raised. -/
structure BEvent where
  call : BCall
  result : Py (Option Nat)

/-- A program: the state afterwards and what happened, the latest first. -/
def BState.run (s : BState) (t : List BEvent) : List BCall → BState × List BEvent
  | [] => (s, t)
  | c :: cs => (s.step c).1.run (⟨c, (s.step c).2⟩ :: t) cs

/-- A program that starts with nothing. -/
def runCalls (cs : List BCall) : BState × List BEvent := BState.run ⟨[], [], []⟩ [] cs

/-- Texts one after another; the first exception ends the loop. -/
def concatPy : List (Py Str) → Py Str
  | [] => .ok []
  | x :: xs => do
    let a ← x
    let b ← concatPy xs
    .ok (a ++ b)

/-- The text for `typeReference`. /repo/apx/base.py:508-516. -/
def BRef.toStr (ids : Str → Option Int) (normalized : Bool) : BRef → Py Str
  | .type n _ =>
    match normalized, ids n with
    | false, some i => .ok ('T' :: '[' :: (intStr i ++ [']']))
    | _, _ => .ok ('T' :: '[' :: '"' :: (n ++ ['"', ']']))
  | .name n => .ok ('T' :: '[' :: '"' :: (n ++ ['"', ']']))
  | .number _ => .error .runtimeError

/-- The attribute `name` of an element. -/
def BState.nameOf (s : BState) (h : Nat) : Option Str := s.objs[h]?.bind (·.name)

/-- `to_string(normalized)` of an element, with at most `n` calls inside each other; more raise
`RecursionError`, which is a `RuntimeError`. /repo/apx/base.py:499-524. -/
def BState.toStr (s : BState) (ids : Str → Option Int) (normalized : Bool) : Nat → Nat → Py Str
  | 0, _ => .error .runtimeError
  | n + 1, h =>
    match s.objs[h]? with
    | none => .error .attributeError
    | some o =>
      match o.kind with
      | .prim tc mn mx a => .ok (tc.letter :: (rangeStr mn mx ++ arrayStr a))
      | .ref r => r.toStr ids normalized
      | .record l => do
        let t ← concatPy (((s.lists[l]?).getD []).map fun c => do
          let u ← s.toStr ids normalized n c
          .ok ('"' :: (nameStr (s.nameOf c) ++ ('"' :: u))))
        .ok ('{' :: (t ++ ['}']))

/-! ### An element as data signature -/

/-- The attribute `dataElement` of a `DataSignature`: an element, or the class `DataElement` itself. -/
inductive DsgElement
  | element (e : Elem)
  | theClass

/-- `DataSignature(dsg)` for an element: what is copied is the class, not the argument.
/repo/apx/base.py:234-235. -/
def signatureOfElement (_ : Elem) : DsgElement := .theClass

/-- `str(dsg)`: the method is called on the class without an object. /repo/apx/base.py:240-241. -/
def DsgElement.str (ids : Str → Option Int) : DsgElement → Py Str
  | .element e => e.toStr ids false
  | .theClass => .error .typeError

/-- `dsg.to_string(normalized)`: on the class, the flag is taken for the object.
/repo/apx/base.py:243-244,500-501. -/
def DsgElement.toStr (ids : Str → Option Int) (normalized : Bool) : DsgElement → Py Str
  | .element e => e.toStr ids normalized
  | .theClass => .error .attributeError

/-- `dsg.packLen()`: the class has no attribute `typeCode`. /repo/apx/base.py:246-267. -/
def DsgElement.packLen : DsgElement → Py Nat
  | .element e => e.packLen
  | .theClass => .error .attributeError

end Apx
