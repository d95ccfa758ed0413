import Verif.Model.Import
import Verif.Spec.Autosar
import Verif.Spec.PortAttr
import Verif.Spec.Parser

/-! Specification vocabulary for imported AUTOSAR components (C80-C83). -/

namespace Apx

/-- The ports of a component in one direction. -/
def AComponent.ports (swc : AComponent) : Side → List APort
  | .require => swc.requires
  | .provide => swc.provides

/-- The data type of a port: name and structure of the type of the only data element of its
sender-receiver interface. -/
def Workspace.typeOf (ws : Workspace) (p : APort) : Option (Str × AType) :=
  match ws p.interfaceRef with
  | some (.senderReceiver [ref]) =>
    match ws ref with
    | some (.dataType name t) => some (name, t)
    | _ => none
  | _ => none

/-- The constant a port is initialised with: that of its only communication specification. -/
def Workspace.initOf (ws : Workspace) (p : APort) : Option AConst :=
  match p.comspec with
  | [.dataElement (some ref)] =>
    match ws ref with
    | some (.constant v) => some v
    | some (.value v) => some v
    | _ => none
  | _ => none

/-- The port refers to an init value. -/
def APort.HasInit (p : APort) : Prop := ∃ ref, p.comspec = [.dataElement (some ref)]

mutual
/-- A constant as a value: records and arrays are lists. -/
def AConst.value : AConst → Option InitVal
  | .int i => some (.int i)
  | .str s => some (.str s)
  | .record l => (AConst.values l).map .list
  | .array l => (AConst.values l).map .list
  | .other => none
/-- See `AConst.value`. -/
def AConst.values : List AConst → Option (List InitVal)
  | [] => some []
  | v :: l =>
    match v.value, AConst.values l with
    | some a, some r => some (a :: r)
    | _, _ => none
end

/-- Two data types of the component with the same name are the same. -/
def Workspace.Consistent (ws : Workspace) (swc : AComponent) : Prop :=
  ∀ s s' p p' name t t', p ∈ swc.ports s → p' ∈ swc.ports s' → ws.typeOf p = some (name, t) →
    ws.typeOf p' = some (name, t') → t = t'

/-- A component that can be imported: every port has a single data element with a type of the kind that
C56 covers, no two types share a name, and init values are integers, texts without quotes and braces, and
non-empty records and arrays of such values. -/
structure Importable (ws : Workspace) (swc : AComponent) : Prop where
  types : ∀ side, ∀ p ∈ swc.ports side, ∃ name t, ws.typeOf p = some (name, t) ∧ t.Good
  consistent : ws.Consistent swc
  inits : ∀ side, ∀ p ∈ swc.ports side, p.HasInit → ∃ v w, ws.initOf p = some v ∧ v.value = some w ∧ w.Plain

mutual
/-- The names of the members of the type can be written in a definition text. -/
def AType.Tidy : AType → Prop
  | .record fs => fs.Tidy
  | _ => True
/-- See `AType.Tidy`. -/
def AFields.Tidy : AFields → Prop
  | .cons name t r => (':' ∉ name ∧ '#' ∉ name ∧ '\n' ∉ name) ∧ t.Tidy ∧ r.Tidy
  | _ => True
end

mutual
/-- The texts in the value contain no hash sign and no line feed. -/
def InitVal.Tidy : InitVal → Prop
  | .str s => '#' ∉ s ∧ '\n' ∉ s
  | .list l => InitVal.TidyList l
  | _ => True
/-- See `InitVal.Tidy`. -/
def InitVal.TidyList : List InitVal → Prop
  | [] => True
  | v :: l => v.Tidy ∧ InitVal.TidyList l
end

/-- An enumeration whose texts can be written in a definition text. -/
def TidyTable (es : List CompuElem) : Prop :=
  es.flatMap CompuElem.values ≠ [] ∧ ∀ e ∈ es, PlainText e.text ∧ '#' ∉ e.text ∧ '\n' ∉ e.text

/-- A component whose names and texts can be written in a definition text. -/
structure Legible (ws : Workspace) (swc : AComponent) (name : Option Str) : Prop where
  name : NameOk (name.getD swc.name)
  ports : ∀ side, ∀ p ∈ swc.ports side, NameOk p.name
  types : ∀ side, ∀ p ∈ swc.ports side, ∀ tn t, ws.typeOf p = some (tn, t) →
    NameOk tn ∧ '[' ∉ tn ∧ ']' ∉ tn ∧ ':' ∉ tn ∧ t.Tidy
  tables : ∀ side, ∀ p ∈ swc.ports side, ∀ tn t, ws.typeOf p = some (tn, t) →
    ∀ es, ws ("/DataType/DataTypeSemantics/".toList ++ tn) = some (.compuConst es) → TidyTable es
  inits : ∀ side, ∀ p ∈ swc.ports side, ∀ v w, ws.initOf p = some v → v.value = some w → w.Tidy

/-- What a definition text says about a type. -/
def TypeObj.said (t : TypeObj) : Str × Elem × Option Str := (t.name, t.elem, t.attr.map TypeAttr.str)

end Apx
