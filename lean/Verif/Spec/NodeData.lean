import Verif.Model.NodeData
import Verif.Spec.Layout

/-! Specification vocabulary for node data (C31-C35, C59). -/

namespace Apx

/-- The type of a port with all references followed. -/
def NPort.type (types : List NamedType) (p : NPort) : Py Elem := do
  let e ← p.elem.resolveType types
  e.resolveDataElement

/-- The length of a port's data. -/
def NPort.packLen (types : List NamedType) (p : NPort) : Py Nat := do
  let e ← p.elem.resolveType types
  e.packLen

/-- Content of a file that may be missing. -/
def fileBytes : Option FileData → Bytes
  | some f => f.data
  | none => []

/-- The bytes of port number `k`. -/
def portBytes (ranges : List PortRange) (f : Option FileData) (k : Nat) : Option Bytes :=
  ranges[k]?.map fun r => ((fileBytes f).drop r.offset).take r.len

/-- Byte `o` belongs to range `r`. -/
def PortRange.Owns (r : PortRange) (o : Nat) : Prop := r.offset ≤ o ∧ o < r.offset + r.len

instance (r : PortRange) (o : Nat) : Decidable (r.Owns o) := inferInstanceAs (Decidable (_ ∧ _))

/-- Some byte of `[off, off+len)` belongs to range `r`. -/
def PortRange.Overlaps (off len : Nat) (r : PortRange) : Prop :=
  ∃ o, off ≤ o ∧ o < off + len ∧ r.Owns o

/-- The same as a comparison of bounds. -/
def PortRange.overlapsB (off len : Nat) (r : PortRange) : Bool :=
  decide (max off r.offset < min (off + len) (r.offset + r.len))

theorem PortRange.overlapsB_iff (off len : Nat) (r : PortRange) :
    r.overlapsB off len = true ↔ r.Overlaps off len := by
  simp only [overlapsB, decide_eq_true_eq, Overlaps, Owns]
  constructor
  · intro h
    exact ⟨max off r.offset, by omega, by omega, by omega, by omega⟩
  · rintro ⟨o, h1, h2, h3, h4⟩
    omega

/-- The operations that can happen to a node data object after construction. -/
inductive Access
  | write (i : Int) (v : PyVal)
  | read (i : Int)
  | remote (hasClient : Bool) (off : Nat) (data : Bytes) (more : Bool)

/-- The object after an operation. -/
def NodeData.step (nd : NodeData) : Access → NodeData
  | .write i v => (nd.writeProvide i v).1
  | .read i => (nd.readRequire i).1
  | .remote c off data more => (nd.remoteWrite c off data more).1

/-- The object after a history of operations. -/
def NodeData.run (nd : NodeData) : List Access → NodeData
  | [] => nd
  | a :: as => (nd.step a).run as

/-- Objects reachable from a successful construction. -/
def NodeData.Reachable (types : List NamedType) (rq pv : List NPort) (text : Str) (nd : NodeData) : Prop :=
  ∃ nd0 as, NodeData.build types rq pv text = .ok nd0 ∧ nd = nd0.run as

/-- The ports occupy consecutive disjoint ranges of the file in port order, each as long as the
port's packed data, and cover the file exactly. -/
structure Partitioned (types : List NamedType) (ports : List NPort) (ranges : List PortRange)
    (file : Option FileData) : Prop where
  count : ranges.length = ports.length
  range : ∀ (k : Nat) (p : NPort) (r : PortRange), ports[k]? = some p → ranges[k]? = some r →
    r.id = k ∧ p.packLen types = .ok r.len ∧ r.offset = ((ranges.take k).map (·.len)).sum
  size : (fileBytes file).length = (ranges.map (·.len)).sum
  owner : ∀ o, o < (fileBytes file).length → ∃ (k : Nat) (r : PortRange), ranges[k]? = some r ∧ r.Owns o ∧
    ∀ (j : Nat) (s : PortRange), ranges[j]? = some s → s.Owns o → j = k
  inside : ∀ r ∈ ranges, r.offset + r.len ≤ (fileBytes file).length

/-! Init values. -/

mutual
/-- The Python value which an init value stands for, given the type. -/
def Elem.Denotes : Elem → InitVal → PyVal → Prop
  | .prim _ _ _ none, .int i, v => v = .int i
  | .prim .str _ _ (some _), .str s, v => v = .str s
  | .prim _ _ _ (some _), .list l, v => ∃ is : List Int, l = is.map .int ∧ v = .list (is.map .int)
  | .record fs none, .list l, .dict d => fs.Denotes l d
  | .refType _ t, iv, v => t.Denotes iv v
  | _, _, _ => False
/-- The items of the list are the fields in declaration order. -/
def Fields.Denotes : Fields → List InitVal → List (Str × PyVal) → Prop
  | .nil, [], _ => True
  | .cons (some k) e r, iv :: l, d => (∃ v, d.lookup k = some v ∧ e.Denotes iv v) ∧ r.Denotes l d
  | _, _, _ => False
end

mutual
/-- All text consists of ASCII characters. -/
def InitVal.Ascii : InitVal → Prop
  | .str s => ∀ c ∈ s, c.toNat < 128
  | .list l => InitVal.AsciiList l
  | _ => True
/-- See `InitVal.Ascii`. -/
def InitVal.AsciiList : List InitVal → Prop
  | [] => True
  | v :: l => v.Ascii ∧ InitVal.AsciiList l
end

mutual
/-- Lists given for integer arrays have the declared length. -/
def Elem.InitFits : Elem → InitVal → Prop
  | .prim _ _ _ (some n), .list l => l.length = n
  | .record fs _, .list l => fs.InitFits l
  | .refType _ t, iv => t.InitFits iv
  | _, _ => True
/-- See `Elem.InitFits`. -/
def Fields.InitFits : Fields → List InitVal → Prop
  | .cons _ e r, iv :: l => e.InitFits iv ∧ r.InitFits l
  | _, _ => True
end

/-- The port's init value, if any, has the declared array lengths. -/
def NPort.InitFits (types : List NamedType) (p : NPort) : Prop :=
  ∀ iv de, p.init = some iv → p.type types = .ok de → de.InitFits iv

mutual
/-- The value of a port that has never been written and has no init value: 0, empty text, lists
and dicts of these. -/
def Elem.IsZero : Elem → PyVal → Prop
  | .prim _ _ _ none, v => v = .int 0
  | .prim .str _ _ (some _), v => v = .str []
  | .prim _ _ _ (some n), v => v = .list (List.replicate n (.int 0))
  | .record fs _, .dict d => fs.IsZero d
  | .refType _ t, v => t.IsZero v
  | _, _ => False
/-- See `Elem.IsZero`. -/
def Fields.IsZero : Fields → List (Str × PyVal) → Prop
  | .nil, _ => True
  | .cons (some k) e r, d => (∃ v, d.lookup k = some v ∧ e.IsZero v) ∧ r.IsZero d
  | .cons none _ _, _ => False
end

/-- Operations of the local application, as opposed to remote writes. -/
def Access.Local : Access → Prop
  | .remote _ _ _ _ => False
  | _ => True

end Apx
