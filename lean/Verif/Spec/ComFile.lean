import Verif.Model.ComFile
import Verif.Spec.GenFile
import Verif.Spec.Import

/-!
What it means that the files of a communication layer fit together and fit to the files of the node, and what is
asked of the functions of a component.
-/

namespace Apx

/-- Whether values of the type are passed by reference. -/
def AType.Compound : AType → Bool
  | .record _ => true
  | .string _ => true
  | .array => true
  | _ => false

/-- The function has one parameter, of the type of a port of the component in the direction `side`, passed by
reference if `ref` says so for the type. -/
def ComApi.For (ws : Workspace) (swc : AComponent) (side : Side) (ref : AType → Bool) (a : ComApi) : Prop :=
  ∃ p ∈ swc.ports side, ∃ t x, p.name = a.func.port ∧ ws.typeOf p = some (a.typename, t) ∧
    a.func.complex = t.Compound ∧ a.proto.params = [⟨x, ⟨a.typename, ref t⟩⟩]

/-- The type of a parameter. -/
def CProto.paramType (p : CProto) (name : Str) : Option CTy :=
  (p.params.find? fun x => x.name = name).map CParam.type

/-- The function that is called in a body, and the type of the argument. -/
def ComDef.call (vars : List (Str × Str)) (d : ComDef) : Str × Option CTy :=
  match d.body with
  | .send _ x ref f => (f, (vars.lookup x).map fun t => ⟨t, ref⟩)
  | .receive f arg => (f, d.proto.paramType arg)

/-- The parameter that is compared with and stored in a variable fits the variable. -/
def ComDef.Stores (vars : List (Str × Str)) (d : ComDef) : Prop :=
  match d.body with
  | .send arg x ref _ => ∃ t, vars.lookup x = some t ∧ d.proto.paramType arg = some ⟨t, ref⟩
  | .receive _ _ => True

/-- The files fit together. `name` is the name of the header, `f` are the files of the node. -/
structure ComFit (name : Str) (h : ComHeader) (s : ComSource) (f : GenFiles) : Prop where
  /-- the source includes the header and that of the node -/
  includes : name ∈ s.includes ∧ f.headerName ∈ s.includes
  /-- it defines what the header declares -/
  defined : s.defs.map ComDef.proto = h.protos
  /-- no variable is declared twice -/
  once : (s.vars.map Prod.fst).Nodup
  /-- what is stored in a variable has its type -/
  stores : ∀ d ∈ s.defs, d.Stores s.vars
  /-- what is called is declared in the header of the node, and gets an argument of the type of its parameter -/
  calls : ∀ d ∈ s.defs, ∃ p ∈ f.header.protos, p.name = (d.call s.vars).1 ∧ ∃ t, (d.call s.vars).2 = some t ∧ p.type.2 = [t]

end Apx
