import Verif.Model.Client
import Verif.Spec.NodeData

/-! Specification vocabulary for clients (C54). -/

namespace Apx

/-- The port a user means by a designator: the port object itself; the only port with that name; or,
with `indexed` telling the direction, the port at that position. -/
def Designates (n : Node) (indexed : Side) (side : Side) (k : Nat) : Designator → Prop
  | .port r => r.side = side ∧ r.pos = some k
  | .name s => ∀ side' k', (∃ p, (n.ports side')[k']? = some p ∧ p.name = s) ↔ side' = side ∧ k' = k
  | .index i => side = indexed ∧ i = k
  | .other => False

/-- The port exists, and a port object carries the `id` of the port that it is. -/
def Designator.Proper (n : Node) (side : Side) (k : Nat) (d : Designator) : Prop :=
  ∃ p, (n.ports side)[k]? = some p ∧ ∀ r, d = .port r → r.id = p.id

/-- No port is meant by the designator: an object that is not in the node, a name of neither a port nor
a type, a number beyond the ports (or below the negative count), or something else. -/
def DesignatesNothing (n : Node) (indexed : Side) : Designator → Prop
  | .port r => r.pos = none
  | .name s => (∀ side, ∀ p ∈ n.ports side, p.name ≠ s) ∧ ∀ t ∈ n.types, t.name ≠ s
  | .index i => i < -((n.ports indexed).length : Int) ∨ ((n.ports indexed).length : Int) ≤ i
  | .other => True

/-- A client for this node after some accesses. -/
def Client.For (c : Client) (n : Node) (nd : NodeData) : Prop :=
  ∃ nd0 as, Client.attach n = .ok ⟨some (n, nd0)⟩ ∧ nd = nd0.run as ∧ c = ⟨some (n, nd)⟩

end Apx
