import Verif.Model.GenFile

/-!
What the functions `ApxNode_Init_*` and `ApxNode_IsConnected_*` of the generated source do when they are called.
`memcpy`, `memset` and the functions `apx_nodeData_*` belong to libraries outside /repo; they are given their documented
meaning.
-/

namespace Apx

/-- The local variable `nodeDataHandler`: not there, not initialized, or with this value of `inPortDataWritten` and null
pointers otherwise. -/
inductive CTable
  | missing
  | garbage
  | set (inPortDataWritten : Option Str)
  deriving DecidableEq

/-- What `apx_nodeData_create` and `apx_nodeData_setHandlerTable` put into `m_nodeData`: the name, the definition (as the
literal it is a pointer to) with its length, for each direction with a buffer its length (with in-port data also whether
there are flags), and the handler. -/
structure CNodeObj where
  name : Str
  literal : Str
  defLen : Nat
  inData : Option (Nat × Bool)
  outData : Option Nat
  handler : Option Str
  deriving DecidableEq

/-- The static variables of the source file, and the local variable. -/
structure CStatics where
  inBuf : Bytes
  inFlags : Bytes
  outBuf : Bytes
  outFlags : Bytes
  table : CTable
  node : Option CNodeObj
  deriving DecidableEq

/-- `memcpy(dst, src, n)`; undefined if an object is too small. -/
def memcpyBytes (dst src : Bytes) (n : Nat) : Option Bytes :=
  if n ≤ dst.length ∧ n ≤ src.length then some (src.take n ++ dst.drop n) else none

/-- `memset(&x[0], 0, sizeof(x))`. -/
def memsetZero (dst : Bytes) : Bytes := dst.map fun _ => 0

/-- The node object `apx_nodeData_create` makes. -/
def createObj (s : GenSource) (name : Str) (hasIn flags hasOut : Bool) : CNodeObj :=
  { name := name, literal := s.literal, defLen := s.defLen
    inData := if hasIn then some (s.inLen, flags) else none
    outData := if hasOut then some s.outLen else none
    handler := none }

/-- A table with a new entry. -/
def CTable.assign (f : Str) : CTable → CTable
  | .set _ => .set (some f)
  | t => t

/-- `apx_nodeData_setHandlerTable(&m_nodeData, &nodeDataHandler)`; undefined without initialized table or node. -/
def CStatics.install (m : CStatics) : Option CStatics :=
  match m.table, m.node with
  | .set h, some n => some { m with node := some { n with handler := h } }
  | _, _ => none

/-- One statement. /repo/apx/generator.py:568-597. -/
def CInitStmt.exec (s : GenSource) (m : CStatics) : CInitStmt → Option CStatics
  | .declareTable => some { m with table := .garbage }
  | .copyIn => (memcpyBytes m.inBuf s.inInit s.inLen).map fun b => { m with inBuf := b }
  | .clearIn => some { m with inFlags := memsetZero m.inFlags }
  | .copyOut => (memcpyBytes m.outBuf s.outInit s.outLen).map fun b => { m with outBuf := b }
  | .clearOut => some { m with outFlags := memsetZero m.outFlags }
  | .create name hasIn flags hasOut => some { m with node := some (createObj s name hasIn flags hasOut) }
  | .clearTable => if m.table = .missing then none else some { m with table := .set none }
  | .assign f => if m.table = .missing then none else some { m with table := m.table.assign f }
  | .install => m.install
  | .done => some { m with table := .missing }

/-- A call of the function that initializes the node. -/
def runInit (s : GenSource) : List CInitStmt → CStatics → Option CStatics
  | [], m => some m
  | c :: l, m => (c.exec s m).bind (runInit s l)

/-- What a call of `ApxNode_IsConnected_*` returns, given whether the library has the two files open.
/repo/apx/generator.py:602-611. -/
def connectedValue (hasIn hasOut inOpen outOpen : Bool) : Bool :=
  if hasIn && hasOut then inOpen && outOpen
  else if hasIn then inOpen
  else if hasOut then outOpen
  else false

end Apx
