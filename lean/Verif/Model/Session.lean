import Verif.Model.Endpoint
import Verif.Model.NodeBuild

/-!
A client for a node: `Client(node)`, /repo/apx/client.py:19-44.

Simplification: the three file objects always exist in the heap (`Mgr.files`); a port data file that
the node data does not have is an object without content which is not given to the manager.
-/

namespace Apx
open Manager

variable {H : Type}

/-- The file objects 0, 1, 2 of a client: in-port data, out-port data, definition. The in-port data
file has the node data as its handler. /repo/apx/node_data.py:45-50,70-72,91-93,96-99. -/
def clientFiles (name : Str) (nd : NodeData) : List FObj :=
  [FObj.create .input (name ++ ".in".toList) (nd.inFile.getD ⟨[]⟩) true,
   FObj.create .output (name ++ ".out".toList) (nd.outFile.getD ⟨[]⟩),
   FObj.create .output (name ++ ".apx".toList) nd.definitionFile]

/-- `if file is not None: self.fileManager.requestRemoteFile(file)`. /repo/apx/client.py:38-39. -/
def requestIf (s : Mgr H) (present : Bool) (i : Nat) : Py (Mgr H) :=
  if present then
    match requestRemoteFile s i with
    | (s, none) => .ok s
    | (_, some x) => .error x
  else .ok s

/-- `if file is not None: self.fileManager.attachLocalFile(file)`. /repo/apx/client.py:40-43. -/
def attachIf (s : Mgr H) (present : Bool) (i : Nat) : Py (Mgr H) :=
  if present then
    match attachLocalFile s i with
    | (s, none) => .ok s
    | (_, some x) => .error x
  else .ok s

/-- `Client(node)`: a new manager, the node data, and the files given to the manager.
/repo/apx/client.py:19-44, /repo/apx/file_manager.py:5-6. -/
def Endpoint.ofNode (n : Node) : Py (Endpoint H) := do
  let nd ← n.nodeData
  let s ← requestIf (Mgr.mk (clientFiles n.name nd) ⟨[], []⟩ ⟨[], []⟩ [] '<' []) nd.inFile.isSome 0
  let s ← attachIf s nd.outFile.isSome 1
  let s ← attachIf s true 2
  .ok ⟨s, nd, 0, 1, [], false⟩

end Apx
