import Verif.Model.NodeBuild

/-!
Reading and writing ports through a client: apx/client.py.

Simplification: a port object is given by its class, by where it is in the client's node (the
objects in a node's lists are distinct) and by its attribute `id`.
-/

namespace Apx

/-- A port object as an argument: its class, its position in that list of the client's node (`none` if
it is not in the list) and its `id`. -/
structure PortRef where
  side : Side
  pos : Option Nat
  id : Option Nat
  deriving DecidableEq

/-- The argument `identifier`; `other` is an object of any other type. /repo/apx/client.py:91-138. -/
inductive Designator
  | port (r : PortRef)
  | name (s : Str)
  | index (i : Int)
  | other
  deriving DecidableEq

/-- `list[port.id]` and whether `test_port is port`. Subscripting with `None` is a `TypeError`.
/repo/apx/client.py:95-99,123-124. -/
def samePort (n : Node) (side : Side) (r : PortRef) : Py Bool :=
  match r.id with
  | none => .error .typeError
  | some k =>
    if k < (n.ports side).length then .ok (decide (r.side = side ∧ r.pos = some k)) else .error .indexError

/-- What `read` is about to do: call `read_require_port` or `read_provide_port` with this `id`. -/
structure Target where
  side : Side
  id : Option Nat
  deriving DecidableEq

/-- The first part of `read(identifier)`. A type found under the name has an `id`, too, and is not a
`RequirePort`; `None` has none. /repo/apx/client.py:91-112. -/
def Node.readTarget (n : Node) : Designator → Py Target
  | .port r => do
    let same ← samePort n r.side r
    if same then .ok ⟨r.side, r.id⟩ else .error .valueError
  | .name s =>
    match n.find s with
    | none => .error .attributeError
    | some (.type t) => .ok ⟨.provide, t.id⟩
    | some (.port side p) => .ok ⟨side, p.id⟩
  | .index i => do
    let p ← pyIndex n.requires i
    .ok ⟨.require, p.id⟩
  | .other => .error .unboundLocal

/-- The first part of `write(identifier, value)`: the `id` for `write_provide_port`. The error message
of two branches mentions `self.port`, which does not exist. /repo/apx/client.py:120-138. -/
def Node.writeTarget (n : Node) : Designator → Py (Option Nat)
  | .port r => do
    let same ← samePort n .provide r
    if same then .ok r.id
    else if r.side = .require then .error .valueError else .error .attributeError
  | .name s =>
    match n.find s with
    | some (.port .provide p) => .ok p.id
    | _ => .error .attributeError
  | .index i => do
    let p ← pyIndex n.provides i
    .ok p.id
  | .other => .error .unboundLocal

/-- A `Client` with its node and node data (`none` if no node is attached). /repo/apx/client.py:19-44. -/
structure Client where
  attached : Option (Node × NodeData)

/-- `attach_node(node)`, as far as reading and writing are concerned. /repo/apx/client.py:28-44. -/
def Client.attach (n : Node) : Py Client := do
  let nd ← n.nodeData
  .ok ⟨some (n, nd)⟩

/-- `read(identifier)`: `None` without a node. The methods of the node data refuse ids that are not
integers with `ValueError`. /repo/apx/client.py:91-112, /repo/apx/node_data.py:139-143,157-161. -/
def Client.read (c : Client) (d : Designator) : Client × Outcome (Option OutVal) :=
  match c.attached with
  | none => (c, .ok none)
  | some (n, nd) =>
    match n.readTarget d with
    | .error x => (c, .raised x)
    | .ok ⟨_, none⟩ => (c, .raised .valueError)
    | .ok ⟨.require, some k⟩ =>
      match nd.readRequire k with
      | (nd', .ok v) => (⟨some (n, nd')⟩, .ok (some (.val v)))
      | (nd', .raised x) => (⟨some (n, nd')⟩, .raised x)
      | (nd', .blocked) => (⟨some (n, nd')⟩, .blocked)
    | .ok ⟨.provide, some k⟩ =>
      match nd.readProvide k with
      | .ok v => (c, .ok (some v))
      | .error x => (c, .raised x)

/-- `write(identifier, value)`. /repo/apx/client.py:120-138. -/
def Client.write (c : Client) (d : Designator) (v : PyVal) : Client × Outcome Unit :=
  match c.attached with
  | none => (c, .ok ())
  | some (n, nd) =>
    match n.writeTarget d with
    | .error x => (c, .raised x)
    | .ok none => (c, .raised .valueError)
    | .ok (some k) =>
      match nd.writeProvide k v with
      | (nd', .ok _) => (⟨some (n, nd')⟩, .ok ())
      | (nd', .raised x) => (⟨some (n, nd')⟩, .raised x)
      | (nd', .blocked) => (⟨some (n, nd')⟩, .blocked)

/-- The method `on_data` of a data listener: how many arguments it takes (besides `self`), and that it
raises nothing. The abstract class `DataListener` declares three: id, name and data.
/repo/apx/client.py:6-11. -/
structure Listener where
  arity : Nat
  deriving DecidableEq

/-- `on_require_port_data(port, value)`: what the listener is called with, and the exception raised.
/repo/apx/client.py:84-89. -/
def onRequirePortData (listener : Option Listener) (port : Nat) (value : PyVal) : Option (Nat × PyVal) × Option PyErr :=
  match listener with
  | none => (none, none)
  | some l => if l.arity = 2 then (some (port, value), none) else (none, some .typeError)

namespace NodeData

/-- The loop of `inPortDataWriteNotify` with a `Client` as node data client: the calls of the
listener's `on_data` made. /repo/apx/node_data.py:106-108, /repo/apx/client.py:87-89. -/
def listenerLoop (listener : Option Listener) (nd : NodeData) :
    List PortRange → NodeData × List (Nat × PyVal) × Outcome Unit
  | [] => (nd, [], .ok ())
  | r :: rs =>
    match nd.unpackRequire r with
    | (nd, .raised x) => (nd, [], .raised x)
    | (nd, .blocked) => (nd, [], .blocked)
    | (nd, .ok v) =>
      match onRequirePortData listener r.id v with
      | (call, some x) => (nd, call.toList, .raised x)
      | (call, none) =>
        let (nd, l, o) := listenerLoop listener nd rs
        (nd, call.toList ++ l, o)

/-- A remote write to the in-port data file of a client's node: `remoteWrite` with the client's
`on_require_port_data` in place. /repo/apx/file.py:70-75, /repo/apx/node_data.py:101-108,
/repo/apx/client.py:87-89. -/
def remoteWriteClient (nd : NodeData) (listener : Option Listener) (off : Nat) (data : Bytes) (more : Bool) :
    NodeData × List (Nat × PyVal) × Outcome Int :=
  match nd.inFile with
  | none => (nd, [], .raised .attributeError)
  | some f =>
    let w := f.inputWrite off data more true
    let nd := { nd with inFile := some w.1 }
    match w.2.2 with
    | none => (nd, [], .ok w.2.1)
    | some _ =>
      match nd.byteToPort off data.length with
      | .error x => (nd, [], .raised x)
      | .ok rs =>
        match nd.listenerLoop listener rs with
        | (nd, l, .ok ()) => (nd, l, .ok w.2.1)
        | (nd, l, .raised x) => (nd, l, .raised x)
        | (nd, l, .blocked) => (nd, l, .blocked)

end NodeData

end Apx
