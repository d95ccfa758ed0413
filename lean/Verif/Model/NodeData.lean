import Verif.Model.InitValue
import Verif.Model.Vm
import Verif.Model.File

/-!
Node data: apx/node_data.py.

A port object is identified by its `id`: the constructor refuses ports whose `id` differs from
their position (`createPackProg`, `createUnpackProg`), so identity tests (`mapping.port is port`)
compare positions.
-/

namespace Apx

/-- What `NodeData` needs to know of a port: `name`, `id`, data element and init value.
/repo/apx/base.py:124-164. -/
structure NPort where
  name : Str
  id : Option Int
  elem : Elem
  init : Option InitVal
  deriving Inhabited

/-- `PortMapRange` (the port being given by its id). /repo/apx/node_data.py:7. -/
structure PortRange where
  offset : Nat
  len : Nat
  id : Nat
  deriving DecidableEq, Repr, Inhabited

/-- Entries of `outPortValues`: an `InitValue` object, or a value written (or the initial 0).
/repo/apx/node_data.py:153,200-205. -/
inductive OutVal
  | init (v : InitVal)
  | val (v : PyVal)
  deriving Inhabited

/-- What the two `_create...PortDataFile` loops accumulate. -/
structure PortLayout where
  offset : Nat
  ranges : List PortRange
  progs : List Bytes
  initData : Bytes

/-- Before the loop. /repo/apx/node_data.py:54-55,75-76. -/
def PortLayout.empty : PortLayout := ⟨0, [], [], []⟩

/-- `if len(programs) != port.id: raise RuntimeError('...{:d}...')`; formatting `None` is a
`TypeError`. /repo/apx/node_data.py:190-191,196-197. -/
def checkId (n : Nat) : Option Int → Py Unit
  | none => .error .typeError
  | some i => if i = n then .ok () else .error .runtimeError

/-- The initial bytes of a port. /repo/apx/node_data.py:63-66,84-87. -/
def portInit (e : Elem) (n : Nat) : Option InitVal → Py Bytes
  | some v => e.createInitData v
  | none => .ok (List.replicate n 0)

/-- `assert(port.id is not None)`, made for require ports only. /repo/apx/node_data.py:57. -/
def assertId (d : Dir) (i : Option Int) : Py Unit :=
  if d = .unpack ∧ i = none then .error .assertionError else .ok ()

/-- One iteration of the loops over the ports. /repo/apx/node_data.py:57-66,78-87,177-198. -/
def addPort (d : Dir) (types : List NamedType) (s : PortLayout) (p : NPort) : Py PortLayout := do
  assertId d p.id
  let e ← p.elem.resolveType types
  let de ← e.resolveDataElement
  let n ← e.packLen
  let prog ← compileProg d de
  checkId s.progs.length p.id
  let b ← portInit de n p.init
  .ok ⟨s.offset + n, s.ranges ++ [⟨s.offset, n, s.progs.length⟩], s.progs ++ [prog], s.initData ++ b⟩

/-- The loop over the ports. -/
def addPorts (d : Dir) (types : List NamedType) : PortLayout → List NPort → Py PortLayout
  | s, [] => .ok s
  | s, p :: ps => do
    let s ← addPort d types s p
    addPorts d types s ps

/-- The end of `_create...PortDataFile`. /repo/apx/node_data.py:67-72,88-93. -/
def createPortFile (s : PortLayout) : Py (Option FileData) :=
  if s.initData.length ≠ s.offset then .error .assertionError
  else if s.offset > 0 then do
    let f ← FileData.create s.offset (some s.initData)
    .ok (some f)
  else .ok none

/-- `createOutPortValue`. /repo/apx/node_data.py:200-205. -/
def outPortValue (p : NPort) : OutVal :=
  match p.init with
  | some v => .init v
  | none => .val (.int 0)

/-- `_createDefinitionFile`. /repo/apx/node_data.py:96-99. -/
def createDefinitionFile (text : Str) : Py FileData := do
  let f ← FileData.create text.length none
  let b ← asciiEncode text
  .ok (f.write 0 b).1

/-- A `NodeData` object; `locked` is the state of `self.lock`. /repo/apx/node_data.py:36-51. -/
structure NodeData where
  inRanges : List PortRange
  inProgs : List Bytes
  inFile : Option FileData
  outRanges : List PortRange
  outProgs : List Bytes
  outFile : Option FileData
  outValues : List OutVal
  definitionFile : FileData
  locked : Bool

/-- `NodeData(node)`, given the node's types, ports and text. /repo/apx/node_data.py:23-51. -/
def NodeData.build (types : List NamedType) (requirePorts providePorts : List NPort) (text : Str) :
    Py NodeData := do
  let i ← addPorts .unpack types .empty requirePorts
  let inFile ← createPortFile i
  let o ← addPorts .pack types .empty providePorts
  let outFile ← createPortFile o
  let df ← createDefinitionFile text
  .ok ⟨i.ranges, i.progs, inFile, o.ranges, o.progs, outFile, providePorts.map outPortValue, df, false⟩

/-- `inPortByteMap`: the id of the port owning each byte. /repo/apx/node_data.py:177-181. -/
def byteMap : List PortRange → List Nat
  | [] => []
  | r :: rs => List.replicate r.len r.id ++ byteMap rs

/-- Result of a method that takes the lock: it can block forever. -/
inductive Outcome (α : Type)
  | ok (a : α)
  | raised (x : PyErr)
  | blocked
  deriving DecidableEq, Repr

namespace NodeData

/-- `self.outPortDataMap[port_id]` with the assertion on the id. Negative indices count from the
end and then fail the assertion. /repo/apx/node_data.py:135-136,144-145,162-163. -/
def lookupRange (ranges : List PortRange) (i : Int) : Py PortRange := do
  let r ← pyIndex ranges i
  if i = r.id then .ok r else .error .assertionError

/-- `write_provide_port(port_id, value)` for an integer id: the object afterwards, the outcome and,
on success, the write made to the output file (offset, data). An exception in the virtual machine
leaves the lock acquired. /repo/apx/node_data.py:130-137,148-155. -/
def writeProvide (nd : NodeData) (i : Int) (v : PyVal) : NodeData × Outcome (Nat × Bytes) :=
  match lookupRange nd.outRanges i with
  | .error x => (nd, .raised x)
  | .ok r =>
    match nd.outProgs[r.id]? with
    | none => (nd, .raised .indexError)
    | some prog =>
      if nd.locked then (nd, .blocked)
      else match execPackProg prog (List.replicate r.len 0) 0 v with
        | .error x => ({ nd with locked := true }, .raised x)
        | .ok data =>
          let nd := { nd with outValues := nd.outValues.set r.id (.val v) }
          match nd.outFile with
          | none => (nd, .raised .attributeError)
          | some f => ({ nd with outFile := some (f.write r.offset data).1 }, .ok (r.offset, data))

/-- `read_provide_port(port_id)`. /repo/apx/node_data.py:139-146. -/
def readProvide (nd : NodeData) (i : Int) : Py OutVal := do
  let r ← lookupRange nd.outRanges i
  match nd.outValues[r.id]? with
  | some v => .ok v
  | none => .error .indexError

/-- `_unpackRequirePort(port_id, data_offset, data_len)`. /repo/apx/node_data.py:166-175. -/
def unpackRequire (nd : NodeData) (r : PortRange) : NodeData × Outcome PyVal :=
  match nd.inProgs[r.id]? with
  | none => (nd, .raised .indexError)
  | some prog =>
    match nd.inFile with
    | none => (nd, .raised .attributeError)
    | some f =>
      match f.read r.offset r.len with
      | none => (nd, .raised .runtimeError)
      | some data =>
        if nd.locked then (nd, .blocked)
        else match execUnpackProg prog data 0 with
          | .error x => ({ nd with locked := true }, .raised x)
          | .ok v => (nd, .ok v)

/-- `read_require_port(port_id)`. /repo/apx/node_data.py:157-164. -/
def readRequire (nd : NodeData) (i : Int) : NodeData × Outcome PyVal :=
  match lookupRange nd.inRanges i with
  | .error x => (nd, .raised x)
  | .ok r => nd.unpackRequire r

/-- The loop of `byte_to_port`; the first argument bounds the number of iterations.
/repo/apx/node_data.py:121-127. -/
def byteToPortLoop (ranges : List PortRange) : Nat → Nat → Nat → Py (List PortRange)
  | 0, off, stop => if off < stop then .error .runtimeError else .ok []
  | fuel + 1, off, stop =>
    if off < stop then
      match (byteMap ranges)[off]? with
      | none => .error .indexError
      | some id =>
        match ranges[id]? with
        | none => .error .indexError
        | some r => do
          if r.id ≠ id then .error .assertionError
          let rest ← byteToPortLoop ranges fuel (r.offset + r.len) stop
          .ok (r :: rest)
    else .ok []

/-- `byte_to_port(start_offset, data_len)` for non-negative arguments; the bound on the number of
iterations is `data_len` (see `byteToPort_fuel`). /repo/apx/node_data.py:110-127. -/
def byteToPort (nd : NodeData) (start len : Nat) : Py (List PortRange) :=
  let fileLen := (byteMap nd.inRanges).length
  if start > fileLen then .error .valueError
  else if start + len > fileLen then .error .valueError
  else byteToPortLoop nd.inRanges len start (start + len)

/-- The loop of `inPortDataWriteNotify`: the calls of `on_require_port_data(port, value)` made.
/repo/apx/node_data.py:106-108. -/
def notifyLoop (nd : NodeData) : List PortRange → NodeData × List (Nat × PyVal) × Outcome Unit
  | [] => (nd, [], .ok ())
  | r :: rs =>
    match nd.unpackRequire r with
    | (nd, .raised x) => (nd, [], .raised x)
    | (nd, .blocked) => (nd, [], .blocked)
    | (nd, .ok v) =>
      let (nd, l, o) := notifyLoop nd rs
      (nd, (r.id, v) :: l, o)

/-- `inPortDataWriteNotify(file, write_offset, write_len)`. `hasClient`: `nodeDataClient is not
None`. /repo/apx/node_data.py:101-108. -/
def inPortNotify (nd : NodeData) (hasClient : Bool) (off len : Nat) :
    NodeData × List (Nat × PyVal) × Outcome Unit :=
  if hasClient then
    match nd.byteToPort off len with
    | .error x => (nd, [], .raised x)
    | .ok rs => nd.notifyLoop rs
  else (nd, [], .ok ())

/-- The second half of `InputFile.write`: the notification, if one is due, and the return value.
/repo/apx/file.py:72-75. -/
def afterRemote (nd : NodeData) (hasClient : Bool) (off len : Nat) (retval : Int)
    (note : Option FileData.Notification) : NodeData × List (Nat × PyVal) × Outcome Int :=
  match note with
  | none => (nd, [], .ok retval)
  | some _ =>
    match nd.inPortNotify hasClient off len with
    | (nd, l, .ok ()) => (nd, l, .ok retval)
    | (nd, l, .raised x) => (nd, l, .raised x)
    | (nd, l, .blocked) => (nd, l, .blocked)

/-- A remote write to the in-port data file (`InputFile.write`), which notifies the node data.
/repo/apx/file.py:70-75, /repo/apx/node_data.py:101-108. -/
def remoteWrite (nd : NodeData) (hasClient : Bool) (off : Nat) (data : Bytes) (more : Bool) :
    NodeData × List (Nat × PyVal) × Outcome Int :=
  match nd.inFile with
  | none => (nd, [], .raised .attributeError)
  | some f =>
    let w := f.inputWrite off data more true
    afterRemote { nd with inFile := some w.1 } hasClient off data.length w.2.1 w.2.2

end NodeData
end Apx
