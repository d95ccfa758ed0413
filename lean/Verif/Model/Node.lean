import Verif.Model.Signature
import Verif.Model.PortAttr

/-!
APX nodes: apx/node.py, the classes `Port` and `DataType` of apx/base.py, and the line splitter of
apx/parser.py, which `Node.append` uses for texts.

Simplifications.
* Nodes, types and ports are values. A type object is identified by its name, unique in a node
  (`add_type`), so `dataTypeMap` is not a separate component: it maps each name to the type of
  `dataTypes` with that name.
* A line without a quoted name gives the Python object the name `None`, which prints as `None`; in
  the model such an object has the text `None` as its name. (In Python sorting such a node can raise.)
* AUTOSAR ports and types (node.py:36-132) are in `Model/Import`.
* The attribute `text`, set by the parser and read nowhere, is left out.
-/

namespace Apx

/-! ### Splitting a line -/

/-- `re.sub(r'#(.*)', '', text)`: `.` does not match a line feed. The flag tells whether we are inside
a comment. /repo/apx/parser.py:17-21. -/
def stripCommentGo : Bool → Str → Str
  | _, [] => []
  | false, c :: s => if c = '#' then stripCommentGo true s else c :: stripCommentGo false s
  | true, c :: s => if c = '\n' then c :: stripCommentGo false s else stripCommentGo true s

/-- `strip_comment(apx_text)`. /repo/apx/parser.py:20-21. -/
def stripComment (s : Str) : Str := stripCommentGo false s

/-- The characters of `rstrip(' \r\n')`. -/
def isTrail (c : Char) : Bool := c = ' ' || c = '\r' || c = '\n'

/-- `[\+\-A-Z]`. /repo/apx/parser.py:15. -/
def isLineType (c : Char) : Bool := c = '+' || c = '-' || (65 ≤ c.toNat && c.toNat ≤ 90)

/-- The results of `apx_split_line`: `None`; `(None, processed)`; `(lineType, name)`; and
`(lineType, name, dsg, attr)`. -/
inductive Line
  | blank
  | other (processed : Str)
  | short (kind : Str) (name : Option Str)
  | full (kind : Str) (name : Option Str) (dsg : Str) (attr : Option Str)
  deriving DecidableEq, Repr

/-- The part of `apx_split_line` after the line type. `[^:]*` always matches.
/repo/apx/parser.py:32-45. -/
def splitRest (kind remain : Str) : Line :=
  let (name, remain) := parseStr remain
  if remain.length > 0 then
    match remain.dropWhile (· != ':') with
    | _ :: attr => .full kind name (remain.takeWhile (· != ':')) (some attr)
    | [] => .full kind name (remain.takeWhile (· != ':')) none
  else .short kind name

/-- `apx_split_line(s)`. /repo/apx/parser.py:24-46. -/
def splitLine (s : Str) : Line :=
  let processed := rstripP isTrail (stripComment s)
  if processed.length = 0 then .blank
  else
    let kind := processed.takeWhile isLineType
    if kind.isEmpty then .other processed
    else splitRest kind (processed.dropWhile isLineType)

/-! ### Ports and types -/

/-- A `DataType`. /repo/apx/base.py:193-222. -/
structure TypeObj where
  name : Str
  elem : Elem
  attr : Option TypeAttr
  id : Option Nat
  shortName : Option Str
  deriving Inhabited

/-- What reference resolution sees of a type. -/
def TypeObj.named (t : TypeObj) : NamedType := ⟨t.name, t.elem⟩

/-- A `Port`; the direction is that of the list it is in. /repo/apx/base.py:124-190. -/
structure Port where
  name : Str
  elem : Elem
  attr : Option PortAttr
  id : Option Nat
  deriving Inhabited

/-- `RequirePort` or `ProvidePort`. -/
inductive Side
  | require
  | provide
  deriving DecidableEq, Repr

/-- `portType`. /repo/apx/base.py:171,184. -/
def Side.letter : Side → Char
  | .require => 'R'
  | .provide => 'P'

/-- An optional constructor argument. -/
def optArg {α β : Type} (f : α → Py β) : Option α → Py (Option β)
  | none => .ok none
  | some x => do
    let y ← f x
    .ok (some y)

/-- `DataType(name, dataSignature, attributes)`. /repo/apx/base.py:197-202. -/
def mkType (name dsg : Str) (attr : Option Str) : Py TypeObj := do
  let e ← dataSignature dsg
  let a ← optArg typeAttribute attr
  .ok ⟨name, e, a, none, none⟩

/-- `RequirePort(name, dataSignature, attributes)` and `ProvidePort(...)`.
/repo/apx/base.py:128-133,170-171,183-184. -/
def mkPort (name dsg : Str) (attr : Option Str) : Py Port := do
  let e ← dataSignature dsg
  let a ← optArg portAttribute attr
  .ok ⟨name, e, a, none⟩

/-- `'%s"%s"%s'` or `'%s"%s"%s:%s'`. /repo/apx/base.py:139-142,209-212. -/
def lineText (kind : Char) (name dsg : Str) : Option Str → Str
  | some a => kind :: '"' :: (name ++ ('"' :: (dsg ++ (':' :: a))))
  | none => kind :: '"' :: (name ++ ('"' :: dsg))

/-- `Port.to_string(normalized)`. /repo/apx/base.py:138-142. -/
def Port.toStr (ids : Str → Option Int) (normalized : Bool) (side : Side) (p : Port) : Py Str := do
  let s ← p.elem.toStr ids normalized
  .ok (lineText side.letter p.name s (p.attr.map PortAttr.str))

/-- `DataType.to_string(normalized)`. /repo/apx/base.py:207-212. -/
def TypeObj.toStr (ids : Str → Option Int) (normalized : Bool) (t : TypeObj) : Py Str := do
  let s ← t.elem.toStr ids normalized
  .ok (lineText 'T' (t.shortName.getD t.name) s (t.attr.map TypeAttr.str))

/-! ### Nodes -/

/-- A `Node`. /repo/apx/node.py:27-33. -/
structure Node where
  name : Str
  isFinalized : Bool
  types : List TypeObj
  requires : List Port
  provides : List Port
  deriving Inhabited

/-- `Node(name)`. /repo/apx/node.py:27-33. -/
def Node.new (name : Str) : Node := ⟨name, false, [], [], []⟩

/-- The type with a given name (`dataTypeMap`). -/
def Node.typeNamed (n : Node) (name : Str) : Option TypeObj := n.types.find? (fun t => t.name = name)

/-- The `id` attributes of the type objects. -/
def Node.ids (n : Node) (name : Str) : Option Int := (n.typeNamed name).bind fun t => t.id.map Int.ofNat

/-- `dataTypes` as reference resolution sees them. -/
def Node.named (n : Node) : List NamedType := n.types.map TypeObj.named

/-- `dsg.resolve_data_element(typeList)`: the element afterwards. /repo/apx/base.py:315-317. -/
def resolveDsg (types : List NamedType) (e : Elem) : Py Elem := do
  let e ← e.resolveType types
  let _ ← e.resolveDataElement
  .ok e

/-- `_verify_data_types_are_equal`, `_verify_ports_are_equal`: comparison of two texts.
/repo/apx/node.py:379-383,397-401. -/
def verifyEqual (existing new : Py Str) : Py Unit := do
  let a ← existing
  let b ← new
  if a ≠ b then .error .valueError else .ok ()

/-- `add_type(new_type)`; returns the node and the type in it. The normalized text of a type does not
depend on the type numbers. /repo/apx/node.py:170-179. -/
def Node.addType (n : Node) (t : TypeObj) : Py (Node × TypeObj) :=
  match n.typeNamed t.name with
  | none => do
    let e ← resolveDsg n.named t.elem
    .ok ({ n with types := n.types ++ [{ t with elem := e }] }, { t with elem := e })
  | some existing => do
    verifyEqual (existing.toStr n.ids true) (t.toStr n.ids true)
    .ok (n, existing)

/-- `if port.dsg.dataElement.isReference: port.resolve_type(self.dataTypes)`.
/repo/apx/node.py:191-192,198-199,363-364. -/
def resolvePort (types : List NamedType) (p : Port) : Py Port :=
  if p.elem.isReference then do
    let e ← resolveDsg types p.elem
    .ok { p with elem := e }
  else .ok p

/-- The list of ports of a direction. -/
def Node.ports (n : Node) : Side → List Port
  | .require => n.requires
  | .provide => n.provides

/-- The node with the ports of one direction replaced. -/
def Node.setPorts (n : Node) : Side → List Port → Node
  | .require, l => { n with requires := l }
  | .provide, l => { n with provides := l }

/-- `add_require_port(port)` and `add_provide_port(port)`. /repo/apx/node.py:189-201. -/
def Node.addPort (n : Node) (side : Side) (p : Port) : Py (Node × Port) := do
  let p ← resolvePort n.named { p with id := some (n.ports side).length }
  .ok (n.setPorts side (n.ports side ++ [p]), p)

/-- The name of an object built from a line. -/
def lineName (n : Option Str) : Str := n.getD "None".toList

/-- `append(item)` for a text. /repo/apx/node.py:148-165. -/
def Node.appendText (n : Node) (item : Str) : Py (Node × Port) :=
  match splitLine item with
  | .blank => .error .typeError
  | .other _ => .error .valueError
  | .short _ _ => .error .valueError
  | .full kind name dsg attr =>
    if kind = ['R'] then do
      let p ← mkPort (lineName name) dsg attr
      n.addPort .require p
    else if kind = ['P'] then do
      let p ← mkPort (lineName name) dsg attr
      n.addPort .provide p
    else .error .valueError

/-- Elementwise application of a function that can raise. -/
def mapPy {α β : Type} (f : α → Py β) : List α → Py (List β)
  | [] => .ok []
  | x :: l => do
    let y ← f x
    let r ← mapPy f l
    .ok (y :: r)

/-- `resolve_types()`. /repo/apx/node.py:358-364. -/
def Node.resolveTypes (n : Node) : Py Node := do
  let r ← mapPy (resolvePort n.named) n.requires
  let p ← mapPy (resolvePort n.named) n.provides
  .ok { n with requires := r, provides := p }

/-- Insertion in front of the first element whose name is not smaller. -/
def insertByName {α : Type} (name : α → Str) (x : α) : List α → List α
  | [] => [x]
  | y :: l => if name x ≤ name y then x :: y :: l else y :: insertByName name x l

/-- `sorted(list, key=lambda x: x.name)`. Python's sort is stable, which determines its result; the
model computes it by insertion. /repo/apx/node.py:404-411. -/
def sortedByName {α : Type} (name : α → Str) : List α → List α
  | [] => []
  | x :: l => insertByName name x (sortedByName name l)

/-- `_sort_elements(sort_all)`. /repo/apx/node.py:403-411. -/
def Node.sortElements (n : Node) (sortAll : Bool) : Node :=
  let n := { n with types := sortedByName TypeObj.name n.types }
  if sortAll then
    { n with requires := sortedByName Port.name n.requires, provides := sortedByName Port.name n.provides }
  else n

/-- `compact_types()`. /repo/apx/node.py:349-356. -/
def Node.compactTypes (n : Node) : Node :=
  { n with types := n.types.mapIdx fun i t => { t with shortName := some ('T' :: intStr i) } }

/-- `_set_type_ids()`. /repo/apx/node.py:413-415. -/
def Node.setTypeIds (n : Node) : Node :=
  { n with types := n.types.mapIdx fun i t => { t with id := some i } }

/-- `finalize(sort, compact)`: the node afterwards. (When `resolve_types` raises, which
`C43_finalize` excludes for nodes built through the API, the Python node is left sorted
but not finalized.) /repo/apx/node.py:366-374. -/
def Node.finalize (n : Node) (sort compact : Bool) : Py Node :=
  if n.isFinalized then .ok n
  else do
    let n ← (n.sortElements sort).resolveTypes
    let n := if compact then n.compactTypes else n
    .ok { n.setTypeIds with isFinalized := true }

/-- `RequirePort.mirror()`, `ProvidePort.mirror()`; `ids` are those of the port's own node. The
signature is printed by name for require ports and by number, if there is one, for provide ports.
/repo/apx/base.py:173-174,186-187. -/
def Port.mirror (ids : Str → Option Int) (side : Side) (p : Port) : Py Port := do
  let s ← p.elem.toStr ids (side = .require)
  mkPort p.name s (p.attr.map PortAttr.str)

/-- `clone()`, which builds the same port as `mirror()` but of the other class.
/repo/apx/base.py:176-177,189-190. -/
def Port.clone (ids : Str → Option Int) (side : Side) (p : Port) : Py Port := p.mirror ids side

/-- `mirror(name)`, `name` being the node's own if `None` is given. /repo/apx/node.py:258-271. -/
def Node.mirror (n : Node) (name : Option Str) : Py Node := do
  let r ← mapPy (Port.mirror n.ids .provide) n.provides
  let p ← mapPy (Port.mirror n.ids .require) n.requires
  Node.resolveTypes ⟨name.getD n.name, false, n.types, r, p⟩

/-! ### Text -/

/-- `lines(normalized)`. /repo/apx/node.py:245-256. -/
def Node.lines (n : Node) (normalized : Bool) : Py (List Str) := do
  let t ← mapPy (TypeObj.toStr n.ids false) n.types
  let p ← mapPy (Port.toStr n.ids normalized .provide) n.provides
  let r ← mapPy (Port.toStr n.ids normalized .require) n.requires
  .ok (('N' :: '"' :: (n.name ++ ['"'])) :: (t ++ p ++ r))

/-- `'\n'.join(lines)`. -/
def joinLines : List Str → Str
  | [] => []
  | [l] => l
  | l :: m :: r => l ++ ('\n' :: joinLines (m :: r))

/-- `'APX/1.2'`. -/
def headerText : Str := "APX/1.2".toList

/-- `dumps(normalized)`: the node, which is finalized first if necessary, and the text.
/repo/apx/node.py:223-228. -/
def Node.dumps (n : Node) (normalized : Bool) : Py (Node × Str) := do
  let n ← if n.isFinalized then .ok n else n.finalize true false
  let l ← n.lines normalized
  .ok (n, headerText ++ ('\n' :: (joinLines l ++ ['\n'])))

/-- `Context.dumps()` of a context holding this node: the text of the definition file. The node is
not finalized. /repo/apx/context.py:62-71, /repo/apx/node_data.py:24-28. -/
def Node.definitionText (n : Node) (normalized : Bool) : Py Str := do
  let l ← n.lines normalized
  .ok (joinLines (headerText :: l) ++ ['\n'])

/-! ### Copying from another node -/

/-- Outcome of an operation on a node that can raise half-way. -/
abbrev NodeM (α : Type) := Node × Py α

/-- What `_inner_find` can return. /repo/apx/node.py:341-347. -/
inductive Found
  | type (t : TypeObj)
  | port (side : Side) (p : Port)

/-- `find(name)` for a text. /repo/apx/node.py:328-347. -/
def Node.find (n : Node) (name : Str) : Option Found :=
  match n.types.find? (fun t => t.name = name) with
  | some t => some (.type t)
  | none =>
    match n.requires.find? (fun p => p.name = name) with
    | some p => some (.port .require p)
    | none => (n.provides.find? (fun p => p.name = name)).map (Found.port .provide)

/-- `DataType.clone()` of the type `name` with element `e` of the node `src`, then `append`.
/repo/apx/base.py:214-218, /repo/apx/node.py:324-326. -/
def Node.cloneType (n : Node) (src : Node) (name : Str) (e : Elem) : NodeM TypeObj :=
  match (do
      let s ← e.toStr src.ids true
      let c ← mkType name s (((src.typeNamed name).bind TypeObj.attr).map TypeAttr.str)
      n.addType c : Py (Node × TypeObj)) with
  | .ok (n', t) => (n', .ok t)
  | .error x => (n, .error x)

mutual
/-- `add_data_type_from_node(from_node, from_data_type)`, the type being given by its name and
element. The Python function returns the clone, which is the type added, unless the node already had
an equal type of that name; only callers that know it did not use the result.
/repo/apx/node.py:305-326. -/
def Node.addTypeFrom (n : Node) (src : Node) (name : Str) : Elem → NodeM TypeObj
  | .prim tc mn mx a => n.cloneType src name (.prim tc mn mx a)
  | .record fs a =>
    match n.addFieldsFrom src fs with
    | (n, .ok ()) => n.cloneType src name (.record fs a)
    | (n, .error x) => (n, .error x)
  | .refId _ => (n, .error .notImplemented)
  | .refName _ => (n, .error .notImplemented)
  | .refType _ _ => (n, .error .notImplemented)

/-- The loop over the elements of a record type. /repo/apx/node.py:318-320. -/
def Node.addFieldsFrom (n : Node) (src : Node) : Fields → NodeM Unit
  | .nil => (n, .ok ())
  | .cons _ (.refType m t) r =>
    match n.addTypeFrom src m t with
    | (n, .ok _) => n.addFieldsFrom src r
    | (n, .error x) => (n, .error x)
  | .cons _ (.refId _) _ => (n, .error .valueError)
  | .cons _ (.refName _) _ => (n, .error .valueError)
  | .cons _ (.prim _ _ _ _) r => n.addFieldsFrom src r
  | .cons _ (.record _ _) r => n.addFieldsFrom src r
end

/-- The first port with that name, provide ports first. /repo/apx/node.py:386-387. -/
def Node.portNamed (n : Node) (name : Str) : Option (Side × Port) :=
  match n.provides.find? (fun p => p.name = name) with
  | some p => some (.provide, p)
  | none => (n.requires.find? (fun p => p.name = name)).map (Prod.mk Side.require)

/-- `_check_duplicate_port(new_port)`. /repo/apx/node.py:385-395. -/
def Node.checkDuplicate (n : Node) (src : Node) (side : Side) (p : Port) : Py (Option Port) :=
  match n.portNamed p.name with
  | none => .ok none
  | some (side', q) =>
    if side' ≠ side then .error .valueError
    else do
      verifyEqual (q.toStr n.ids true side) (p.toStr src.ids true side)
      .ok (some q)

/-- The type of this node that a copied port refers to. /repo/apx/node.py:296-300. -/
def Node.targetType (n : Node) (src : Node) (name : Str) (e : Elem) : NodeM TypeObj :=
  let fromText := TypeObj.toStr src.ids true ((src.typeNamed name).getD ⟨name, e, none, none, none⟩)
  match n.find name with
  | none => n.addTypeFrom src name e
  | some (.type t) =>
    match verifyEqual (t.toStr n.ids true) fromText with
    | .ok () => (n, .ok t)
    | .error x => (n, .error x)
  | some (.port side p) =>
    -- a port's text never equals a type's text
    match verifyEqual (p.toStr n.ids true side) fromText with
    | .ok () => (n, .error .attributeError)
    | .error x => (n, .error x)

/-- The end of `add_port_from_node`: `append(to_port)`. /repo/apx/node.py:302-303. -/
def Node.addPortM (n : Node) (side : Side) (p : Port) : NodeM Port :=
  match n.addPort side p with
  | .ok (n', p) => (n', .ok p)
  | .error x => (n, .error x)

/-- `add_port_from_node(from_node, from_port, ignore_duplicates)`; the last argument is not used by
the code. Returns the port in this node. /repo/apx/node.py:273-303. -/
def Node.addPortFrom (n : Node) (src : Node) (side : Side) (p : Port) (_ignoreDuplicates : Bool) : NodeM Port :=
  match n.checkDuplicate src side p with
  | .error x => (n, .error x)
  | .ok (some q) => (n, .ok q)
  | .ok none =>
    match p.clone src.ids side with
    | .error x => (n, .error x)
    | .ok c =>
      match p.elem with
      | .refId _ => (n, .error .runtimeError)
      | .refName _ => (n, .error .runtimeError)
      | .refType name e =>
        match n.targetType src name e with
        | (n, .error x) => (n, .error x)
        | (n, .ok t) => n.addPortM side { c with elem := .refType t.name t.elem }
      | _ => n.addPortM side c

/-- The loop of `extend` over the ports of one direction. -/
def Node.extendWith (n : Node) (src : Node) (side : Side) : List Port → NodeM Unit
  | [] => (n, .ok ())
  | p :: ps =>
    match n.addPortFrom src side p false with
    | (n, .ok _) => n.extendWith src side ps
    | (n, .error x) => (n, .error x)

/-- `extend(other_node)`. /repo/apx/node.py:181-187. -/
def Node.extend (n : Node) (src : Node) : NodeM Unit :=
  match n.extendWith src .require src.requires with
  | (n, .ok ()) => n.extendWith src .provide src.provides
  | (n, .error x) => (n, .error x)

end Apx
