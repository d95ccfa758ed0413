import Verif.Model.Com
import Verif.Model.GenFile

/-!
The files written by `ComGenerator` (apx/generator.py:723-891): the header and the source of the
communication layer.

Simplifications.
* A file is represented by its declarations, definitions and includes; comments and layout are not.
* `str(C.include(None))` is taken to be an include of a file called `None`.
* What the statements of the functions do when they are executed is in `Model/Com`.
-/

namespace Apx

/-- A function of the upper layer with what is needed to write it: `com_func.proto` and
`com_func.data_element.dataType.name`. /repo/apx/generator.py:723-726,756-781. -/
structure ComApi where
  func : ComFunc
  proto : CProto
  typename : Str
  deriving DecidableEq

/-- The body of a function. `send arg var ref func`: if `arg` is not equal to `var` (`*arg` if `ref`), it is
stored in `var`, and `func(var)` (`func(&var)` if `ref`) is called. `receive func arg`: `func(arg)` is called.
/repo/apx/generator.py:756-781. -/
inductive ComBody
  | send (arg var : Str) (ref : Bool) (func : Str)
  | receive (func arg : Str)
  deriving DecidableEq

/-- A definition in the source. -/
structure ComDef where
  proto : CProto
  body : ComBody
  deriving DecidableEq

/-- `com_func.proto.args[0].name`. -/
def CProto.firstArg (p : CProto) : Py Str :=
  match p.params with
  | [] => .error .indexError
  | a :: _ => .ok a.name

/-- `createSendBody`. /repo/apx/generator.py:756-774. -/
def sendBody (node : Str) (a : ComApi) : Py ComDef := do
  let arg ← a.proto.firstArg
  .ok ⟨a.proto, .send arg a.func.var a.func.complex ("ApxNode_Write_".toList ++ node ++ ('_' :: a.func.port))⟩

/-- `createReceiveBody`. /repo/apx/generator.py:776-781. -/
def receiveBody (node : Str) (a : ComApi) : Py ComDef := do
  let arg ← a.proto.firstArg
  .ok ⟨a.proto, .receive ("ApxNode_Read_".toList ++ node ++ ('_' :: a.func.port)) arg⟩

/-- The local variables with the names of their types: that of the first function with the name.
/repo/apx/generator.py:783-790,723-726. -/
def comVarTypes : List (Str × Str) → List ComApi → List (Str × Str)
  | vars, [] => vars
  | vars, a :: l => comVarTypes (if (vars.lookup a.func.var).isSome then vars else vars ++ [(a.func.var, a.typename)]) l

/-- A generator. `header` is `self.header_file`; `send` and `receive` are the functions with their bodies.
/repo/apx/generator.py:733-754. -/
structure ComGen where
  node : Node
  vars : List (Str × Str)
  defs : List ComDef
  header : Option Str

/-- The constructor, for the component `swc` with these functions. /repo/apx/generator.py:733-754. -/
def ComGen.new (c : Nat → Nat) (ws : Workspace) (swc : AComponent) (send receive : List ComApi) : Py ComGen := do
  let n ← comNode c ws swc
  let s ← mapPy (sendBody n.name) send
  let r ← mapPy (receiveBody n.name) receive
  .ok ⟨n, comVarTypes [] send, s ++ r, none⟩

/-- The header file. -/
structure ComHeader where
  includes : List Str
  protos : List CProto
  deriving DecidableEq

/-- The source file. -/
structure ComSource where
  includes : List Str
  vars : List (Str × Str)
  defs : List ComDef
  deriving DecidableEq

/-- `generateHeader(file_name=name)`: the generator afterwards and the file. /repo/apx/generator.py:834-850. -/
def ComGen.generateHeader (g : ComGen) (name : Str) : ComGen × ComHeader :=
  ({ g with header := some name }, ⟨["Rte_Type.h".toList], g.defs.map ComDef.proto⟩)

/-- `generateSource()`: the file. /repo/apx/generator.py:852-891. -/
def ComGen.generateSource (g : ComGen) : ComSource :=
  ⟨["string.h".toList, g.header.getD "None".toList, "ApxNode_".toList ++ g.node.name ++ ".h".toList],
    sortedByName Prod.fst g.vars, g.defs⟩

end Apx
