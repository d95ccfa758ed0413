import Verif.Model.Node
import Verif.Model.NodeData

/-! `NodeData(node)`: from a node to its data files. -/

namespace Apx

/-- What `NodeData` reads of a port. /repo/apx/base.py:147-164, /repo/apx/node_data.py:53-94. -/
def Port.toNPort (p : Port) : NPort := ⟨p.name, p.id.map Int.ofNat, p.elem, p.attr.bind PortAttr.initValue⟩

/-- `NodeData(node)`. The text of the definition file is made by a context holding only this node,
which does not finalize it. /repo/apx/node_data.py:23-51, /repo/apx/context.py:62-71. -/
def Node.nodeData (n : Node) : Py NodeData := do
  let text ← n.definitionText false
  NodeData.build n.named (n.requires.map Port.toNPort) (n.provides.map Port.toNPort) text

/-- The port after `resolve_data_element`, which replaces the references inside a record in place.
/repo/apx/base.py:315-317,575-604. -/
def resolveInPlace (types : List NamedType) (p : Port) : Py Port := do
  let e ← p.elem.resolveType types
  .ok { p with elem := e }

/-- The node after `NodeData(node)` has succeeded: all its ports are resolved in place.
/repo/apx/node_data.py:53-94. -/
def Node.afterNodeData (n : Node) : Py Node := do
  let _ ← n.nodeData
  let r ← mapPy (resolveInPlace n.named) n.requires
  let p ← mapPy (resolveInPlace n.named) n.provides
  .ok { n with requires := r, provides := p }

end Apx
