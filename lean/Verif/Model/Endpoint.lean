import Verif.Model.NodeData
import Verif.Model.FileManager
import Verif.Model.Socket

/-!
One end of a connection: the node data of a client and its file manager, which share the port data
files. /repo/apx/client.py:28-44, /repo/apx/node_data.py, /repo/remotefile/__init__.py:241-396.
-/

namespace Apx

/-- The manager, the node data, which of the manager's file objects are the node's in-port and out-port
data file, the calls of the node data client's `on_require_port_data` made so far, and whether the
receive thread waits for ever for the node data's lock. -/
structure Endpoint (H : Type) where
  mgr : Manager.Mgr H
  node : NodeData
  inFile : Nat
  outFile : Nat
  calls : List (Nat × PyVal)
  stuck : Bool

namespace Endpoint
variable {H : Type}

/-- `write_provide_port(port_id, value)`: the node data writes its out-port data file, which passes the
write on to the manager if the file is open. /repo/apx/node_data.py:130-137,148-155,
/repo/apx/file.py:85-89. -/
def write (e : Endpoint H) (i : Int) (v : PyVal) : Endpoint H × Outcome Unit :=
  match e.node.writeProvide i v with
  | (nd, .raised x) => ({ e with node := nd }, .raised x)
  | (nd, .blocked) => ({ e with node := nd }, .blocked)
  | (nd, .ok (off, data)) =>
    match Manager.writeLocal e.mgr e.outFile off data with
    | (m, some x, _) => ({ e with node := nd, mgr := m }, .raised x)
    | (m, none, _) => ({ e with node := nd, mgr := m }, .ok ())

/-- The node data as it sees its in-port data file after the manager has changed it. -/
def withFile (nd : NodeData) : Option Manager.FObj → NodeData
  | some o => if nd.inFile.isSome then { nd with inFile := some o.content } else nd
  | none => nd

/-- The notification of the node data, if it is due. /repo/apx/file.py:70-75. -/
def notify (e : Endpoint H) (note : Option Manager.Note) : Endpoint H × Option PyErr :=
  match note with
  | none => (e, none)
  | some n =>
    if n.file = e.inFile then
      match e.node.inPortNotify true n.notification.offset.toNat n.notification.len with
      | (nd, l, .ok ()) => ({ e with node := nd, calls := e.calls ++ l }, none)
      | (nd, l, .raised x) => ({ e with node := nd, calls := e.calls ++ l }, some x)
      | (nd, l, .blocked) => ({ e with node := nd, calls := e.calls ++ l, stuck := true }, none)
    else (e, none)

/-- `onMsgReceived(msg)`. Nothing more happens in a receive thread that waits for ever.
/repo/remotefile/__init__.py:320-328,384-389. -/
def receive (e : Endpoint H) (msg : Bytes) : Endpoint H × Option PyErr :=
  if e.stuck then (e, none)
  else
    match Manager.onMsgReceived e.mgr msg with
    | (m, some x, _) => ({ e with mgr := m }, some x)
    | (m, none, note) => notify { e with mgr := m, node := withFile e.node m.files[e.inFile]? } note

/-- The endpoint as the receive handler of a socket adapter. -/
def handler (h : H) : Socket.Handler (Endpoint H) where
  onConnected e :=
    match Manager.onConnected e.mgr h with
    | (m, x) => ({ e with mgr := m }, x)
  onMsgReceived := receive

end Endpoint
end Apx
