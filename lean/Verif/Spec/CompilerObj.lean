import Verif.Model.CompilerObj
import Verif.Model.NodeBuild

/-! What a port compiled by itself is compared with. -/

namespace Apx

/-- The programs a node data object runs for the ports of a side. -/
def NodeData.programs (nd : NodeData) : Side → List Bytes
  | .require => nd.inProgs
  | .provide => nd.outProgs

/-- How many names lead from an element to its data: 0 for `C` or `{"x"C}`, 1 for the name of such a
type, 2 for the name of a type that is such a name, and so on. -/
def Elem.names : Elem → Nat
  | .refType _ t => t.names + 1
  | _ => 0

/-- The data at the end of the names. -/
def Elem.data : Elem → Elem
  | .refType _ t => t.data
  | e => e

/-- At most one name, or two names for something that is not an array. -/
def Elem.FewNames (e : Elem) : Prop := e.names ≤ 1 ∨ (e.names = 2 ∧ e.data.arrayLen = none)

instance (e : Elem) : Decidable e.FewNames := by unfold Elem.FewNames; infer_instance

end Apx
