import Verif.Model.FileManager

/-!
Giving the files of a node's data to a file manager: /repo/apx/file_manager.py.

A node data object is represented by the indices of its three file objects in the manager's heap.
-/

namespace Apx.Manager

variable {H : Type}

/-- The attributes `outPortDataFile`, `definitionFile` and `inPortDataFile` of a node data object; the
port data files can be `None`.  /repo/apx/node_data.py:45-50,70-72,91-99. -/
structure NodeFiles where
  out : Option Nat
  definition : Option Nat
  inp : Option Nat
  deriving DecidableEq, Repr

/-- `if file is not None: self.attachLocalFile(file)`.  /repo/apx/file_manager.py:9-12. -/
def attachOpt (s : Mgr H) : Option Nat → Result H
  | none => (s, none)
  | some i => attachLocalFile s i

/-- `if file is not None: self.requestRemoteFile(file)`.  /repo/apx/file_manager.py:13-14. -/
def requestOpt (s : Mgr H) : Option Nat → Result H
  | none => (s, none)
  | some i => requestRemoteFile s i

/-- `attachNodeData(nodeData)`: an exception ends the call, what was done before stays.
/repo/apx/file_manager.py:8-14. -/
def attachNodeData (s : Mgr H) (n : NodeFiles) : Result H :=
  match attachOpt s n.out with
  | (s, some e) => (s, some e)
  | (s, none) =>
    match attachOpt s n.definition with
    | (s, some e) => (s, some e)
    | (s, none) => requestOpt s n.inp

end Apx.Manager
