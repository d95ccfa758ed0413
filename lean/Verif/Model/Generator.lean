import Verif.Model.NodeBuild

/-!
The code generator, apx/generator.py: the data layout (`generate`, and the parts of
`_writeSourceFile` that emit lengths and initial data). The emitted code is in `GenCode` and `GenText`.
-/

namespace Apx

/-- `DataElement.isComplexType()`. /repo/apx/base.py:472-481. -/
def Elem.isComplexType (e : Elem) : Py Bool := do
  let a ← e.isArray
  if a then .ok true
  else do
    let d ← e.resolveDataElement
    match d with
    | .record _ _ => .ok true
    | _ => .ok false

/-- `DataSignature.ctypename()`: only references to types and simple types have a C name.
/repo/apx/base.py:295-304,102-115. -/
def Elem.ctypename : Elem → Py Str
  | .refType name _ => .ok name
  | .refId _ => .error .assertionError
  | .refName _ => .error .assertionError
  | .record _ _ => .error .notImplemented
  | .prim tc _ _ _ =>
    match tc with
    | .u8 => .ok "uint8".toList
    | .u16 => .ok "uint16".toList
    | .u32 => .ok "uint32".toList
    | .s8 => .ok "sint8".toList
    | .s16 => .ok "sint16".toList
    | .s32 => .ok "sint32".toList
    | .str => .ok "uint8".toList
    | _ => .error .notImplemented

/-- A `SignalInfo`: `elem` is the data element of `dsg`. /repo/apx/generator.py:30-51. -/
structure Signal where
  name : Str
  offset : Nat
  packLen : Nat
  elem : Elem
  initData : Bytes
  deriving DecidableEq, Inhabited

/-- The initial data of a signal. /repo/apx/generator.py:37-43. -/
def signalInit (packLen : Nat) (e : Elem) : Option InitVal → Py Bytes
  | some v => e.createInitData v
  | none => .ok (List.replicate packLen 0)

/-- `SignalInfo(...)`. /repo/apx/generator.py:31-46. -/
def mkSignal (name : Str) (offset packLen : Nat) (e : Elem) (init : Option InitVal) : Py Signal := do
  let b ← signalInit packLen e init
  if b.length = packLen then .ok ⟨name, offset, packLen, e, b⟩ else .error .assertionError

/-- Only provide ports are asked whether they are complex at this point. /repo/apx/generator.py:210. -/
def askComplex (side : Side) (p : Port) : Py Bool :=
  if side = .provide then p.elem.isComplexType else .ok false

/-- One iteration of the loops over the ports. /repo/apx/generator.py:184-203,207-222. -/
def genSignal (side : Side) (types : List NamedType) (offset : Nat) (p : Port) : Py Signal := do
  let _ ← askComplex side p
  let _ ← p.elem.ctypename
  let n ← p.elem.packLen
  let e ← resolveDsg types p.elem
  mkSignal p.name offset n e p.toNPort.init

/-- The loops over the ports. -/
def genSignals (side : Side) (types : List NamedType) : Nat → List Port → Py (List Signal)
  | _, [] => .ok []
  | offset, p :: ps => do
    let s ← genSignal side types offset p
    let ss ← genSignals side types (offset + s.packLen) ps
    .ok (s :: ss)

/-- `inPortDataLen`, `outPortDataLen`. /repo/apx/generator.py:203,221. -/
def totalLen (ss : List Signal) : Nat := (ss.map Signal.packLen).foldr (· + ·) 0

/-- `signalInfoMap[direction][name]`: the last signal with the name. /repo/apx/generator.py:202,220. -/
def signalNamed (ss : List Signal) (name : Str) : Option Signal :=
  ss.reverse.find? fun s => s.name = name

/-- The initial data of the ports, looked up by name. /repo/apx/generator.py:500-502,530-532. -/
def namedInits (ss : List Signal) (ports : List Port) : Bytes :=
  (ports.map fun p => match signalNamed ss p.name with
    | some s => s.initData
    | none => []).flatten

/-- The bytes of the initializer of `m_inPortInitData`, `m_outPortInitData`; nothing is emitted if the
length is zero. /repo/apx/generator.py:495-554. -/
def emitInit (ss : List Signal) (ports : List Port) : Py Bytes :=
  if totalLen ss > 0 then
    if (namedInits ss ports).length = totalLen ss then .ok (namedInits ss ports) else .error .assertionError
  else .ok []

/-- What is emitted for a node: the signals of both directions, the two lengths and the two
initializers. -/
structure Generated where
  node : Node
  require : List Signal
  provide : List Signal
  inLen : Nat
  outLen : Nat
  inInit : Bytes
  outInit : Bytes

/-- `if not node.isFinalized: node.finalize_sorted()`. /repo/apx/generator.py:177-178. -/
def Node.finalizeForGenerator (n : Node) : Py Node :=
  if n.isFinalized then .ok n else n.finalize true false

/-- `generate(...)`: the data layout. The node is finalized (and sorted) first if necessary.
/repo/apx/generator.py:177-237,495-554. -/
def generate (n : Node) : Py Generated := do
  let n ← n.finalizeForGenerator
  let rs ← genSignals .require n.named 0 n.requires
  let ps ← genSignals .provide n.named 0 n.provides
  let o ← emitInit ps n.provides
  let i ← emitInit rs n.requires
  .ok ⟨n, rs, ps, totalLen rs, totalLen ps, i, o⟩

end Apx
