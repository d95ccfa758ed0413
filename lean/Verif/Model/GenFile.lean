import Verif.Model.GenCode
import Verif.Model.GenText

/-!
The files a call of `NodeGenerator().generate(...)` writes (apx/generator.py): the header with the
prototypes, the source with the definitions, and the header with the prototypes of the callbacks.
Here they are syntax trees; `GenPrint` is their text.

Simplifications. The generator is new, or has so far only been used without callbacks (for what
remains from a use with callbacks see `GenState`); the directories and `os.path.normpath` are left out.
-/

namespace Apx

/-- A C type: a name, or a pointer to it. -/
structure CTy where
  base : Str
  pointer : Bool
  deriving DecidableEq

/-- A parameter of a function: `C.variable(name, typename, pointer=...)`. -/
structure CParam where
  name : Str
  type : CTy
  deriving DecidableEq

/-- The head of a function: `C.function(name, typename, pointer=..., args=...)`. -/
structure CProto where
  name : Str
  result : CTy
  params : List CParam
  deriving DecidableEq

/-- The arguments of `generate(...)` and of the constructor of the generator.
/repo/apx/generator.py:122,132-153. -/
structure GenOptions where
  name : Option Str := none
  includes : List Str := []
  callbacks : Option (Str → Option Str) := none
  direct : List Str := []
  flags : Bool := true
  suffix : Str := []

/-- `name`: the node name unless another one is given. /repo/apx/generator.py:160-166. -/
def GenOptions.nameFor (o : GenOptions) (n : Node) : Str := o.name.getD n.name

/-! ### The heads of the functions -/

/-- `ApxNode_Read_<node>_<port>(T *val)`. /repo/apx/generator.py:185-190. -/
def readProto (name : Str) (p : Port) : Py CProto := do
  let t ← p.elem.ctypename
  .ok ⟨"ApxNode_Read_".toList ++ name ++ ('_' :: p.name), ⟨"Std_ReturnType".toList, false⟩,
    [⟨"val".toList, ⟨t, true⟩⟩]⟩

/-- `ApxNode_Write_<node>_<port>(T val)`, with a pointer for arrays and records.
/repo/apx/generator.py:208-212. -/
def writeProto (name : Str) (p : Port) : Py CProto := do
  let c ← p.elem.isComplexType
  let t ← p.elem.ctypename
  .ok ⟨"ApxNode_Write_".toList ++ name ++ ('_' :: p.name), ⟨"Std_ReturnType".toList, false⟩,
    [⟨"val".toList, ⟨t, c⟩⟩]⟩

/-- The functions of the ports, in the order of the ports, each with the name of its port. -/
def protos (f : Port → Py CProto) : List Port → Py (List (Str × CProto))
  | [] => .ok []
  | p :: ps => do
    let c ← f p
    let r ← protos f ps
    .ok ((p.name, c) :: r)

/-- `signalInfoMap[direction][name].func`: that of the last port with the name.
/repo/apx/generator.py:202,220,615,622. -/
def protoNamed (l : List (Str × CProto)) (name : Str) : Py CProto :=
  match l.reverse.find? fun x => x.1 = name with
  | some x => .ok x.2
  | none => .error .keyError

/-- /repo/apx/generator.py:420. -/
def initProto (name : Str) : CProto :=
  ⟨"ApxNode_Init_".toList ++ name, ⟨"apx_nodeData_t".toList, true⟩, []⟩

/-- /repo/apx/generator.py:421. -/
def nodeDataProto (name : Str) : CProto :=
  ⟨"ApxNode_GetNodeData_".toList ++ name, ⟨"apx_nodeData_t".toList, true⟩, []⟩

/-- /repo/apx/generator.py:422. -/
def connectedProto (name : Str) : CProto :=
  ⟨"ApxNode_IsConnected_".toList ++ name, ⟨"bool".toList, false⟩, []⟩

/-- `InPortDataNotifyFunc`, given its name. /repo/apx/generator.py:431-436. -/
def notifyProto (name : Str) : CProto :=
  ⟨name, ⟨"void".toList, false⟩,
    [⟨"arg".toList, ⟨"void".toList, true⟩⟩, ⟨"nodeData".toList, ⟨"apx_nodeData_t".toList, true⟩⟩,
      ⟨"offset".toList, ⟨"uint32_t".toList, false⟩⟩, ⟨"len".toList, ⟨"uint32_t".toList, false⟩⟩]⟩

/-! ### Callbacks with types -/

/-- A `Callback` object with all it needs of `port_info`: the entry, the type name, `arrayLen` and
`isComplexType()` of the port. /repo/apx/generator.py:53-61,78-90. -/
structure CbPort where
  entry : CbEntry
  typename : Str
  arrayLen : Option Nat
  complex : Bool
  deriving DecidableEq

/-- `callbacks.create(info, name)`. /repo/apx/generator.py:39,78-90,104-106. -/
def mkCbPort (cb : Str → Option Str) (s : Signal) : Py CbPort := do
  let t ← s.elem.ctypename
  let d ← s.elem.resolveDataElement
  let c ← s.elem.isComplexType
  .ok ⟨mkEntry cb s, t, d.arrayLen, c⟩

/-- All require ports. /repo/apx/generator.py:196-200. -/
def mkCbPorts (cb : Str → Option Str) : List Signal → Py (List CbPort)
  | [] => .ok []
  | s :: ss => do
    let c ← mkCbPort cb s
    let r ← mkCbPorts cb ss
    .ok (c :: r)

/-- A member of `union data_tag`. /repo/apx/generator.py:84-87,94-96,643-644. -/
structure CMember where
  name : Str
  typename : Str
  arrayLen : Option Nat
  deriving DecidableEq

/-- `TypeInfo` for a port with a callback. /repo/apx/generator.py:84-86. -/
def CbPort.member (c : CbPort) : Option CMember :=
  if c.entry.callback.isSome then some ⟨c.entry.name, c.typename, c.arrayLen⟩ else none

/-- `callbacks.data_vars`: sorted by name. /repo/apx/generator.py:93-96. -/
def cbMembers (l : List CbPort) : List CMember := sortedByName CMember.name (l.filterMap CbPort.member)

/-- A call with an argument made of the union: `f(data.x)`, `f(&data.x)`, `f(&data.x[0])`.
/repo/apx/generator.py:104-107. -/
structure CDataCall where
  func : Str
  ref : Bool
  member : Str
  first : Bool
  deriving DecidableEq

/-- The two calls in the case of a port with a callback; `read` is the name of the read function of the
port. /repo/apx/generator.py:103-107. -/
def CbPort.calls (name : Str) (c : CbPort) : List CDataCall :=
  match c.entry.callback with
  | none => []
  | some f =>
    [⟨"ApxNode_Read_".toList ++ name ++ ('_' :: c.entry.name), true, c.entry.name, c.arrayLen.isSome⟩,
      ⟨f, c.complex, c.entry.name, c.arrayLen.isSome⟩]

/-- The prototype of the callback of a port. /repo/apx/generator.py:111-112. -/
def CbPort.proto (c : CbPort) : Option CProto :=
  c.entry.callback.map fun f => ⟨f, ⟨"void".toList, false⟩, [⟨"value".toList, ⟨c.typename, c.complex⟩⟩]⟩

/-- The line of the `switch`: a case, or a comment instead of one. -/
inductive CSwitchItem
  | case (port : Str) (calls : List CDataCall)
  | comment (port : Str)
  deriving DecidableEq

/-- The loop that fills the `switch`; `written` is `lastCaseWritten`. `cases` tells which entries get a
case. /repo/apx/generator.py:664-672. -/
def switchItems (name : Str) (isCase : CbEntry → Bool) (last : Nat) : Bool → List CbPort → List CSwitchItem
  | _, [] => []
  | written, c :: cs =>
    (if written then [.comment c.entry.name] else []) ++
    (if isCase c.entry then [.case c.entry.name (c.calls name)] else []) ++
    switchItems name isCase last (if isCase c.entry then decide (last ≤ c.entry.offset) else written) cs

/-! ### The bodies of the functions -/

/-- A statement of the function that initializes the node. /repo/apx/generator.py:568-597. -/
inductive CInitStmt
  /-- `apx_nodeDataHandlerTable_t nodeDataHandler;` -/
  | declareTable
  /-- `memcpy(&m_inPortdata[0], &m_inPortInitData[0], APX_IN_PORT_DATA_LEN);` -/
  | copyIn
  /-- `memset(&m_inPortSyncedFlags[0], 0, sizeof(m_inPortSyncedFlags));` -/
  | clearIn
  /-- `memcpy(&m_outPortdata[0], &m_outPortInitData[0], APX_OUT_PORT_DATA_LEN);` -/
  | copyOut
  /-- `memset(&m_outPortDirtyFlags[0], 0, sizeof(m_outPortDirtyFlags));` -/
  | clearOut
  /-- `apx_nodeData_create(&m_nodeData, "...", ...);`: are there buffers for the two directions, and
  flags for the in-port data? -/
  | create (name : Str) (hasIn flags hasOut : Bool)
  /-- `memset(&nodeDataHandler, 0, sizeof(nodeDataHandler));` -/
  | clearTable
  /-- `nodeDataHandler.inPortDataWritten = f;` -/
  | assign (f : Str)
  /-- `apx_nodeData_setHandlerTable(&m_nodeData, &nodeDataHandler);` -/
  | install
  /-- `return &m_nodeData;` -/
  | done
  deriving DecidableEq

/-- The body of the function that initializes the node; `handler` is the function assigned to
`nodeDataHandler.inPortDataWritten`. /repo/apx/generator.py:567-597. -/
def initBody (nodeName : Str) (inLen outLen : Nat) (flags : Bool) (handler : Option Str) : List CInitStmt :=
  (if handler.isSome then [.declareTable] else []) ++
  (if inLen > 0 then .copyIn :: (if flags then [.clearIn] else []) else []) ++
  (if outLen > 0 then [.copyOut, .clearOut] else []) ++
  [.create nodeName (decide (inLen > 0)) flags (decide (outLen > 0))] ++
  (match handler with
    | some f => [.clearTable, .assign f, .install]
    | none => []) ++
  [.done]

/-- The body of a function of the source file. -/
inductive CBody
  | init (stmts : List CInitStmt)
  /-- `return &m_nodeData;` -/
  | nodeData
  /-- `return` of the conjunction of `apx_nodeData_is...PortDataOpen(&m_nodeData)` for the directions with
  data, or `return false;` -/
  | connected (hasIn hasOut : Bool)
  /-- a read or write function -/
  | code (op : COp) (f : CFunc)
  /-- `(void)arg; (void)nodeData; (void)offset; (void)len;` -/
  | ignore
  /-- the union, the bound from below, and the `switch` -/
  | dispatch (members : List CMember) (start : Option Str) (items : List CSwitchItem)
  deriving DecidableEq

/-- A function of the source file. -/
structure CDef where
  proto : CProto
  body : CBody
  deriving DecidableEq

/-- The functions for the ports: each port gets the function of the last port with its name.
/repo/apx/generator.py:613-626. -/
def portDefs (op : COp) (l : List (Str × CProto)) (code : Port → Py (CFunc × Nat)) : List Port → Py (List CDef)
  | [] => .ok []
  | p :: ps => do
    let c ← protoNamed l p.name
    let f ← code p
    let r ← portDefs op l code ps
    .ok (⟨c, .code op f.1⟩ :: r)

/-- The function that is called when in-port data has been written. /repo/apx/generator.py:628-692. -/
def notifyDefs (body : CBody) : Option Str → List CDef
  | none => []
  | some f => [⟨notifyProto f, body⟩]

/-- Its body. `c` is the callback code. /repo/apx/generator.py:636-689. -/
def notifyBody (name : Str) (callbacks : Bool) (c : CallbackCode) (l : List CbPort) : CBody :=
  if callbacks then
    .dispatch (cbMembers l) c.start
      (switchItems name (fun e => decide (e ∈ c.cases)) (lastCallbackOffset c.macros) false
        (sortedByKey (fun x => x.entry.offset) l))
  else .ignore

/-! ### The files -/

/-- The header file. /repo/apx/generator.py:405-438. -/
structure GenHeader where
  guard : Str
  includes : List Str
  node : List CProto
  ports : List CProto
  notify : List CProto
  deriving DecidableEq

/-- All prototypes of the header, in their order. -/
def GenHeader.protos (h : GenHeader) : List CProto := h.node ++ h.ports ++ h.notify

/-- The source file. `lenMacros` and `offsetMacros` are the macros for the ports, if there are callbacks.
/repo/apx/generator.py:440-705. -/
structure GenSource where
  nodeName : Str
  includes : List Str
  defLen : Nat
  inLen : Nat
  outLen : Nat
  macros : Option (List (Str × Nat) × List (Str × Nat))
  inInit : Bytes
  outInit : Bytes
  flags : Bool
  literal : Str
  defs : List CDef
  deriving DecidableEq

/-- The header with the prototypes of the callbacks. /repo/apx/generator.py:707-718. -/
structure GenCbHeader where
  guard : Str
  protos : List CProto
  deriving DecidableEq

/-- The files, with their names. /repo/apx/generator.py:227-237. -/
structure GenFiles where
  headerName : Str
  header : GenHeader
  sourceName : Str
  source : GenSource
  callbacks : Option (Str × GenCbHeader)
  deriving DecidableEq

/-- The ports with callbacks, if callbacks are given. -/
def cbPortsOf (o : GenOptions) (g : Generated) : Py (List CbPort) :=
  match o.callbacks with
  | none => .ok []
  | some cb => mkCbPorts cb g.require

/-- `prefixed_name`. /repo/apx/generator.py:160-166. -/
def prefixedName (name : Str) : Str := "ApxNode_".toList ++ name

/-- The header file. /repo/apx/generator.py:234-235,405-438. -/
def mkHeader (o : GenOptions) (g : Generated) (ps : List CProto) : GenHeader :=
  let name := o.nameFor g.node
  { guard := macroName (prefixedName name) ++ "_H".toList
    includes := o.includes
    node := [initProto name, nodeDataProto name, connectedProto name]
    ports := ps
    notify := if g.inLen > 0 then [notifyProto (notifyName name)] else [] }

/-- The header of the callbacks. /repo/apx/generator.py:229-233,707-718. -/
def mkCbHeader (name : Str) (l : List CbPort) : GenCbHeader :=
  { guard := macroName (prefixedName name) ++ "_CBK_H".toList
    protos := (sortedByKey (fun x => x.entry.offset) l).filterMap CbPort.proto }

/-- The macros for the ports. /repo/apx/generator.py:467-477. -/
def mkMacros (l : List CbEntry) : List (Str × Nat) × List (Str × Nat) :=
  ((sortedByKey CbEntry.len l).map fun e => (e.name, e.len),
    (sortedByKey CbEntry.offset l).map fun e => (e.name, e.offset))

/-- What is written by `generate(...)` of a generator that has been used without callbacks only; `old` is
its `InPortDataNotifyFunc` (`none` for a new generator). `g` is the data layout.
/repo/apx/generator.py:132-237,405-718. -/
def genFiles (old : Option Str) (o : GenOptions) (g : Generated) : Py GenFiles := do
  let name := o.nameFor g.node
  let rs ← protos (readProto name) g.node.requires
  let ps ← protos (writeProto name) g.node.provides
  let cbs ← cbPortsOf o g
  let c ← ((⟨[], [], [], old⟩ : GenState).generate g o.name o.callbacks).2
  let d ← emitDefinition g
  let rd ← portDefs .unpack rs (readFunc g o.suffix) g.node.requires
  let wd ← portDefs .pack ps (writeFunc g o.suffix o.direct) g.node.provides
  .ok {
    headerName := prefixedName name ++ ".h".toList
    header := mkHeader o g (rs.map Prod.snd ++ ps.map Prod.snd)
    sourceName := prefixedName name ++ ".c".toList
    source := {
      nodeName := g.node.name
      includes := [prefixedName name ++ ".h".toList] ++
        (if o.callbacks.isSome then [prefixedName name ++ "_Cbk.h".toList] else []) ++ ["pack.h".toList]
      defLen := d.2
      inLen := g.inLen
      outLen := g.outLen
      macros := if o.callbacks.isSome then some (mkMacros (cbs.map CbPort.entry)) else none
      inInit := g.inInit
      outInit := g.outInit
      flags := o.flags
      literal := d.1
      defs := [⟨initProto name, .init (initBody g.node.name g.inLen g.outLen o.flags c.handler)⟩,
          ⟨nodeDataProto name, .nodeData⟩,
          ⟨connectedProto name, .connected (decide (g.inLen > 0)) (decide (g.outLen > 0))⟩] ++
        rd ++ wd ++ notifyDefs (notifyBody name o.callbacks.isSome c cbs) c.notify }
    callbacks := if o.callbacks.isSome then
        some (prefixedName name ++ "_Cbk.h".toList, mkCbHeader name cbs)
      else none }

/-- `NodeGenerator().generate(dir, node, ...)`. -/
def generateFiles (o : GenOptions) (n : Node) : Py GenFiles := do
  let g ← generate n
  genFiles none o g

end Apx
