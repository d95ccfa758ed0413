import Verif.Model.GenCode
import Verif.Model.Import

/-!
The communication layer emitted by `ComGenerator` (apx/generator.py:723-891): functions that send a
value when it has changed, and functions that receive one.

The component comes from the package `autosar`, which is not part of /repo. Of a function of its upper
layer only what py-apx reads is represented.
Simplifications.
* The emitted text is represented by what it does when it is executed; the calls of the functions of the
  node are those of `Model/GenCode`.
* `memcmp` compares values (objects without padding).
* Two functions that share a variable (see `ComFunc.var`) are taken to have values of the same C type.
* The header and source files are in `Model/ComFile`.
-/

namespace Apx

/-- A function of the upper layer: `com_func.port.name`, `com_func.data_element.name`,
`com_func.data_element.dataType.isComplexType`, and the C object that
`initializer_string(com_func.data_element.initValue)` initializes. /repo/apx/generator.py:723-726,756-790. -/
structure ComFunc where
  port : Str
  element : Str
  complex : Bool
  init : CVal
  deriving DecidableEq

/-- `var_name`. /repo/apx/generator.py:784. -/
def ComFunc.var (f : ComFunc) : Str := "m_".toList ++ (f.port ++ ('_' :: f.element))

/-- `self.local_vars`, with the initializers of the declarations. /repo/apx/generator.py:751-752,783-790,874-880. -/
def comVars : List (Str × CVal) → List ComFunc → List (Str × CVal)
  | vars, [] => vars
  | vars, f :: fs => comVars (if (vars.lookup f.var).isSome then vars else vars ++ [(f.var, f.init)]) fs

/-- `self.apx_node`, with `import_autosar_swc(com_component).mirror()`. /repo/apx/generator.py:736. -/
def comNode (c : Nat → Nat) (ws : Workspace) (swc : AComponent) : Py Node := do
  let n ← Node.fromSwc c ws swc none
  n.mirror none

/-- The static variables, the port data buffer of the provide ports, and the notifications of the node. -/
structure ComState where
  vars : List (Str × CVal)
  buf : Bytes
  notes : List (Nat × Nat × Bool)

/-- Assignment to a variable. -/
def setVar (vars : List (Str × CVal)) (name : Str) (v : CVal) : List (Str × CVal) :=
  vars.map fun x => if x.1 = name then (name, v) else x

/-- A call of `ApxNode_Write_<node>_<port>`; there is no result if the function does not exist.
/repo/apx/generator.py:206-212,770. -/
def callWrite (g : Generated) (sfx : Str) (direct : List Str) (port : Str) (buf : Bytes) (arg : CVal) : Option CMach :=
  match g.node.provides.find? (fun p => p.name = port) with
  | none => none
  | some p =>
    match writeFunc g sfx direct p with
    | .error _ => none
    | .ok (w, _) => w.call buf arg

/-- A call of the function emitted by `createSendBody`, with the value `v`: if it is not the value of the
variable, it is stored there and written. /repo/apx/generator.py:756-774. -/
def ComState.send (g : Generated) (sfx : Str) (direct : List Str) (s : ComState) (f : ComFunc) (v : CVal) : Option ComState :=
  match s.vars.lookup f.var with
  | none => none
  | some x =>
    if v = x then some s
    else
      (callWrite g sfx direct f.port s.buf (if f.complex then .ptr v else v)).map fun m =>
        ⟨setVar s.vars f.var v, m.buf, s.notes ++ m.notes⟩

/-- A sequence of calls. -/
def ComState.sends (g : Generated) (sfx : Str) (direct : List Str) : ComState → List (ComFunc × CVal) → Option ComState
  | s, [] => some s
  | s, (f, v) :: l => (s.send g sfx direct f v).bind fun s => ComState.sends g sfx direct s l

/-- The state after start-up: the buffer holds the emitted initial data. /repo/apx/generator.py:495-554. -/
def ComState.start (g : Generated) (fs : List ComFunc) : ComState := ⟨comVars [] fs, g.outInit, []⟩

/-- A call of the function emitted by `createReceiveBody`, whose argument points to `c`: the object
afterwards. /repo/apx/generator.py:776-781. -/
def comReceive (g : Generated) (sfx : Str) (f : ComFunc) (buf : Bytes) (c : CVal) : Option CVal :=
  match g.node.requires.find? (fun p => p.name = f.port) with
  | none => none
  | some p =>
    match readFunc g sfx p with
    | .error _ => none
    | .ok (r, _) =>
      match r.call buf (.ptr c) with
      | some m => (match m.arg with | .ptr c => some c | _ => none)
      | none => none

end Apx
