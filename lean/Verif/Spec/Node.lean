import Verif.Model.Node

/-! Specification vocabulary for nodes (C42-C46). -/

namespace Apx

/-- A chain of references to `d`: through the types of the given names, one after the other. -/
def refChain (names : List Str) (d : Elem) : Elem := names.foldr Elem.refType d

/-- What a user can do to a node: add types and ports given by their texts, copy ports or everything
from another node, finalize, replace the node by its mirror. -/
inductive NodeOp
  | addType (name dsg : Str) (attr : Option Str)
  | addPort (side : Side) (name dsg : Str) (attr : Option Str)
  | append (text : Str)
  | addPortFrom (src : Node) (side : Side) (p : Port) (ignoreDuplicates : Bool)
  | extend (src : Node)
  | finalize (sort compact : Bool)
  | mirror (name : Option Str)

/-- The node after an operation; if the operation raises, whatever it left behind. -/
def Node.step (n : Node) : NodeOp → Node
  | .addType name dsg attr =>
    match mkType name dsg attr >>= n.addType with
    | .ok (n', _) => n'
    | .error _ => n
  | .addPort side name dsg attr =>
    match mkPort name dsg attr >>= n.addPort side with
    | .ok (n', _) => n'
    | .error _ => n
  | .append text =>
    match n.appendText text with
    | .ok (n', _) => n'
    | .error _ => n
  | .addPortFrom src side p ig => (n.addPortFrom src side p ig).1
  | .extend src => (n.extend src).1
  | .finalize sort compact =>
    match n.finalize sort compact with
    | .ok n' => n'
    | .error _ => n
  | .mirror name =>
    match n.mirror name with
    | .ok n' => n'
    | .error _ => n

/-- The node after a history of operations. -/
def Node.run (n : Node) (ops : List NodeOp) : Node := ops.foldl Node.step n

/-- A node built through the API. -/
def Node.Built (n : Node) : Prop := ∃ name ops, n = (Node.new name).run ops

/-- The operation sorts the ports. -/
def NodeOp.Sorts : NodeOp → Prop
  | .finalize sort _ => sort = true
  | _ => False

/-- The operation finalizes the node. -/
def NodeOp.Finalizes : NodeOp → Prop
  | .finalize _ _ => True
  | _ => False

/-- The operation replaces the node by its mirror. -/
def NodeOp.Mirrors : NodeOp → Prop
  | .mirror _ => True
  | _ => False

/-- The operation adds a port directly, not by copying. -/
def NodeOp.AddsDirectly : NodeOp → Prop
  | .addPort _ _ _ _ => True
  | .append _ => True
  | _ => False

/-- The names of all ports. -/
def Node.portNames (n : Node) : List Str := n.requires.map Port.name ++ n.provides.map Port.name

/-- Sorted by name. -/
def SortedByName {α : Type} (name : α → Str) (l : List α) : Prop := l.Pairwise fun a b => name a ≤ name b

/-- A type without its number and its short name. -/
def TypeObj.content (t : TypeObj) : Str × Elem × Option TypeAttr := (t.name, t.elem, t.attr)

/-- A port without its identifier. -/
def Port.content (p : Port) : Str × Elem × Option PortAttr := (p.name, p.elem, p.attr)

mutual
/-- Every reference of the element is resolved, to one of these types. -/
def Elem.RefsIn (types : List NamedType) : Elem → Prop
  | .prim _ _ _ _ => True
  | .record fs _ => fs.RefsIn types
  | .refId _ => False
  | .refName _ => False
  | .refType n t => ⟨n, t⟩ ∈ types
/-- See `Elem.RefsIn`. -/
def Fields.RefsIn (types : List NamedType) : Fields → Prop
  | .nil => True
  | .cons _ e r => e.RefsIn types ∧ r.RefsIn types
end

mutual
/-- The reference `r` occurs in the element. -/
def Elem.Mentions (r : Elem) : Elem → Prop
  | .record fs _ => Fields.Mentions r fs
  | e => e = r
/-- See `Elem.Mentions`. -/
def Fields.Mentions (r : Elem) : Fields → Prop
  | .nil => False
  | .cons _ e rest => Elem.Mentions r e ∨ Fields.Mentions r rest
end

/-- A reference by name or number that the list of types does not contain. -/
def Unknown (types : List NamedType) : Elem → Prop
  | .refName n => ∀ t ∈ types, t.name ≠ n
  | .refId i => i < -(types.length : Int) ∨ (types.length : Int) ≤ i
  | _ => False

end Apx
