import Verif.Model.Node
import Verif.Model.Autosar

/-!
Importing AUTOSAR components: apx/node.py:36-132 and `createContextfromPartition` of apx/context.py.

The AUTOSAR objects come from the package `autosar`, which is not part of /repo.  A workspace is the
function `find` from references to objects; of an object only what py-apx reads is represented.
Simplifications.
* A reference used as the type of a data element that leads to something other than a data type makes
  the import raise, also when a type with the name of that object was imported before.
* The attribute text of an imported type is kept as a text by the source, without value table; the model
  has an attribute object without value table.
* Imported types have no attribute `short_name`, which only `to_string` reads; that it raises is modelled
  where the source calls it (`Node.targetTypeImported`).
* Imported types print their full names also after `finalize(compact=True)` (apx/base.py:859-863); short names of
  imported types are not modelled.
-/

namespace Apx

/-- A constant value. `other` is an object of another class. /repo/apx/node.py:82-97. -/
inductive AConst
  | int (i : Int)
  | str (s : Str)
  | record (l : List AConst)
  | array (l : List AConst)
  | other

/-- What a workspace can contain. /repo/apx/node.py:46-52,72-79, /repo/apx/base.py:853-866. -/
inductive AItem
  | senderReceiver (typeRefs : List Str)
  | dataType (name : Str) (t : AType)
  | compuConst (elements : List CompuElem)
  | constant (value : AConst)
  | value (v : AConst)
  | other

/-- `ws.find(ref)`. -/
abbrev Workspace := Str → Option AItem

/-- A communication specification: a `DataElementComSpec` with its `initValueRef`, or another one.
/repo/apx/node.py:72-73. -/
inductive AComSpec
  | dataElement (initRef : Option Str)
  | other
  deriving DecidableEq

/-- An AUTOSAR port. -/
structure APort where
  name : Str
  interfaceRef : Str
  comspec : List AComSpec
  deriving DecidableEq

/-- A software component. -/
structure AComponent where
  name : Str
  requires : List APort
  provides : List APort

mutual
/-- `_deriveInitValueFromAutosarConstant(item)`. /repo/apx/node.py:82-97. -/
def AConst.derive : AConst → Py Str
  | .int i => .ok (if i > 255 then '0' :: 'x' :: hexStr i.toNat else intStr i)
  | .str s => .ok ('"' :: (s ++ ['"']))
  | .record l => do
    let s ← AConst.deriveAll l
    .ok ('{' :: (joinComma s ++ ['}']))
  | .array l => do
    let s ← AConst.deriveAll l
    .ok ('{' :: (joinComma s ++ ['}']))
  | .other => .error .notImplemented

/-- The list comprehensions. /repo/apx/node.py:91,94. -/
def AConst.deriveAll : List AConst → Py (List Str)
  | [] => .ok []
  | v :: l => do
    let s ← v.derive
    let r ← AConst.deriveAll l
    .ok (s :: r)
end

/-- The text after `ws.find(initValueRef)`. /repo/apx/node.py:74-79. -/
def constText : Option AItem → Py Str
  | none => .error .valueError
  | some (.constant v) => do
    let s ← v.derive
    .ok ('=' :: s)
  | some (.value v) => do
    let s ← v.derive
    .ok ('=' :: s)
  | some _ => .error .notImplemented

/-- `_calcAttributeFromAutosarPort(ws, port)`. /repo/apx/node.py:68-80. -/
def APort.attribute (ws : Workspace) (p : APort) : Py (Option Str) :=
  match p.comspec with
  | [.dataElement (some ref)] => do
    let s ← constText (ws ref)
    .ok (some s)
  | _ => .ok none

/-- The attribute of a type: `ws.find('/DataType/DataTypeSemantics/' + name)`.
/repo/apx/base.py:853-857. -/
def typeSemantics (ws : Workspace) (name : Str) : Option TypeAttr :=
  match ws ("/DataType/DataTypeSemantics/".toList ++ name) with
  | some (.compuConst es) => some ⟨none, valueTableAttr es⟩
  | _ => none

/-- The type that `_updateDataType` finds or adds for a data type. `AutosarDataType(ws, dataType, self)`
and `item.id = len(self.dataTypes)`. /repo/apx/node.py:52-63, /repo/apx/base.py:849-857. -/
def Node.importType (c : Nat → Nat) (ws : Workspace) (n : Node) (name : Str) (t : AType) : Py (Node × TypeObj) :=
  match n.typeNamed name with
  | some item => .ok (n, item)
  | none => do
    let e ← t.element c
    let item : TypeObj := ⟨name, e, typeSemantics ws name, some n.types.length, none⟩
    .ok ({ n with types := n.types ++ [item] }, item)

/-- `_updateDataType(ws, port)`; `none` is `None`. /repo/apx/node.py:46-66. -/
def Node.updateDataType (c : Nat → Nat) (ws : Workspace) (n : Node) (p : APort) : Py (Node × Option TypeObj) :=
  match ws p.interfaceRef with
  | some (.senderReceiver [ref]) =>
    match ws ref with
    | none => .error .assertionError
    | some (.dataType name t) => do
      let r ← n.importType c ws name t
      .ok (r.1, some r.2)
    | some _ => .error .genericException
  | some (.senderReceiver (_ :: _ :: _)) => .error .notImplemented
  | _ => .ok (n, none)

/-- `"%s" % dataType.id`. -/
def idText : Option Nat → Str
  | some i => natStr i
  | none => "None".toList

/-- The port made for an AUTOSAR port whose type is known. /repo/apx/node.py:124-130. -/
def Node.addImported (ws : Workspace) (n : Node) (side : Side) (p : APort) (t : TypeObj) : Py (Node × Port) := do
  let a ← p.attribute ws
  let q ← mkPort p.name ('T' :: '[' :: (idText t.id ++ [']'])) a
  n.addPort side q

/-- `add_autosar_port(port, ws)`, for a `RequirePort` or `ProvidePort`: the node afterwards (with a type
more, possibly, even if the port is refused) and the result. /repo/apx/node.py:114-132. -/
def Node.addAutosarPort (c : Nat → Nat) (ws : Workspace) (n : Node) (side : Side) (p : APort) :
    NodeM (Option Port) :=
  match n.updateDataType c ws p with
  | .error x => (n, .error x)
  | .ok (n, none) => (n, .ok none)
  | .ok (n, some t) =>
    match n.addImported ws side p t with
    | .error x => (n, .error x)
    | .ok (n, q) => (n, .ok (some q))

/-- `for port in ports: self.add_autosar_port(port, ws)`. /repo/apx/node.py:108-111. -/
def Node.addAutosarPorts (c : Nat → Nat) (ws : Workspace) (n : Node) (side : Side) : List APort → NodeM Unit
  | [] => (n, .ok ())
  | p :: l =>
    match n.addAutosarPort c ws side p with
    | (n, .error x) => (n, .error x)
    | (n, .ok _) => n.addAutosarPorts c ws side l

/-- The last step of an import. /repo/apx/node.py:112-113. -/
def Node.finishImport : NodeM Unit → NodeM Unit
  | (n, .error x) => (n, .error x)
  | (n, .ok ()) =>
    match n.resolveTypes with
    | .error x => (n, .error x)
    | .ok n => (n, .ok ())

/-- `import_autosar_swc(swc, ws, name)`. /repo/apx/node.py:99-113. -/
def Node.importSwc (c : Nat → Nat) (ws : Workspace) (n : Node) (swc : AComponent) (name : Option Str) : NodeM Unit :=
  match ({ n with name := name.getD swc.name } : Node).addAutosarPorts c ws .provide swc.provides with
  | (n, .error x) => (n, .error x)
  | (n, .ok ()) => Node.finishImport (n.addAutosarPorts c ws .require swc.requires)

/-- `Node.from_autosar_swc(swc, name)`. /repo/apx/node.py:36-41. -/
def Node.fromSwc (c : Nat → Nat) (ws : Workspace) (swc : AComponent) (name : Option Str) : Py Node :=
  match (Node.new []).importSwc c ws swc name with
  | (n, .ok ()) => .ok n
  | (_, .error x) => .error x

/-- The loop of `createContextfromPartition` over the ports of a component in one direction: ports whose
interface is not found are passed over (with a warning), and so are those that are not sender-receiver
or have no data element. /repo/apx/context.py:12-19. -/
def Node.appendPorts (c : Nat → Nat) (ws : Workspace) (n : Node) (side : Side) : List APort → NodeM Unit
  | [] => (n, .ok ())
  | p :: l =>
    match ws p.interfaceRef with
    | some (.senderReceiver (_ :: _)) =>
      match n.addAutosarPort c ws side p with
      | (n, .error x) => (n, .error x)
      | (n, .ok _) => n.appendPorts c ws side l
    | _ => n.appendPorts c ws side l

/-- The node of an application component in `createContextfromPartition`. /repo/apx/context.py:8-20. -/
def partitionNode (c : Nat → Nat) (ws : Workspace) (swc : AComponent) : Py Node :=
  match (Node.new swc.name).appendPorts c ws .require swc.requires with
  | (_, .error x) => .error x
  | (n, .ok ()) =>
    match n.appendPorts c ws .provide swc.provides with
    | (_, .error x) => .error x
    | (n, .ok ()) => .ok n

/-! ### Copying from an imported node -/

/-- The type of this node that a port copied from an imported node refers to: a type that exists is
compared with the imported one, whose `to_string` reads the attribute `short_name`, which imported types
do not have. /repo/apx/node.py:296-300,379-383, /repo/apx/base.py:208,849-857. -/
def Node.targetTypeImported (n : Node) (src : Node) (name : Str) (e : Elem) : NodeM TypeObj :=
  match n.find name with
  | none => n.addTypeFrom src name e
  | some (.type t) =>
    match t.toStr n.ids true with
    | .ok _ => (n, .error .attributeError)
    | .error x => (n, .error x)
  | some (.port side p) =>
    match p.toStr n.ids true side with
    | .ok _ => (n, .error .attributeError)
    | .error x => (n, .error x)

/-- `add_port_from_node(from_node, from_port)` where `from_node` is an imported node.
/repo/apx/node.py:273-303. -/
def Node.addPortFromImported (n : Node) (src : Node) (side : Side) (p : Port) : NodeM Port :=
  match n.checkDuplicate src side p with
  | .error x => (n, .error x)
  | .ok (some q) => (n, .ok q)
  | .ok none =>
    match p.clone src.ids side with
    | .error x => (n, .error x)
    | .ok c =>
      match p.elem with
      | .refId _ => (n, .error .runtimeError)
      | .refName _ => (n, .error .runtimeError)
      | .refType name e =>
        match n.targetTypeImported src name e with
        | (n, .error x) => (n, .error x)
        | (n, .ok t) => n.addPortM side { c with elem := .refType t.name t.elem }
      | _ => n.addPortM side c

/-- The loop of `extend` over the ports of one direction of an imported node. -/
def Node.extendWithImported (n : Node) (src : Node) (side : Side) : List Port → NodeM Unit
  | [] => (n, .ok ())
  | p :: ps =>
    match n.addPortFromImported src side p with
    | (n, .ok _) => n.extendWithImported src side ps
    | (n, .error x) => (n, .error x)

/-- `extend(other_node)` where the other node is an imported one. /repo/apx/node.py:181-187. -/
def Node.extendImported (n : Node) (src : Node) : NodeM Unit :=
  match n.extendWithImported src .require src.requires with
  | (n, .ok ()) => n.extendWithImported src .provide src.provides
  | (n, .error x) => (n, .error x)

end Apx
