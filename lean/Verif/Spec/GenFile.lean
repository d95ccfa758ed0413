import Verif.Model.GenFile

/-!
What it means that generated C files fit together: what a C compiler and linker check of them, apart from
the bodies of the read and write functions.
-/

namespace Apx

/-- The type of the argument of a call: of `data.x`, `&data.x`, `data.x[0]` or `&data.x[0]`, where `data` is a
union with these members. There is none if there is no such member, or if it is an array used without an index
or the reverse. -/
def CDataCall.argType (ms : List CMember) (c : CDataCall) : Option CTy :=
  match ms.find? fun m => m.name = c.member with
  | none => none
  | some m => if m.arrayLen.isSome = c.first then some ⟨m.typename, c.ref⟩ else none

/-- The calls in a case. -/
def CSwitchItem.calls : CSwitchItem → List CDataCall
  | .case _ l => l
  | .comment _ => []

/-- The calls in a body with members of a union as arguments: name of the function and type of the argument. -/
def CBody.calls : CBody → List (Str × Option CTy)
  | .dispatch ms _ items => (items.map CSwitchItem.calls).flatten.map fun c => (c.func, c.argType ms)
  | _ => []

/-- The functions assigned to `inPortDataWritten` of a handler table. -/
def CBody.handlers : CBody → List Str
  | .init l => l.filterMap fun s => match s with
    | .assign f => some f
    | _ => none
  | _ => []

/-- The type `inPortDataWritten` has in the C library: `void (*)(void *, apx_nodeData_t *, uint32_t, uint32_t)`. -/
def handlerType : CTy × List CTy :=
  (⟨"void".toList, false⟩, [⟨"void".toList, true⟩, ⟨"apx_nodeData_t".toList, true⟩, ⟨"uint32_t".toList, false⟩,
    ⟨"uint32_t".toList, false⟩])

/-- The type of a function. -/
def CProto.type (p : CProto) : CTy × List CTy := (p.result, p.params.map CParam.type)

/-- The prototypes of the callbacks. -/
def GenFiles.cbProtos (f : GenFiles) : List CProto := f.callbacks.elim [] fun c => c.2.protos

/-- Everything declared in the headers. -/
def GenFiles.declared (f : GenFiles) : List CProto := f.header.protos ++ f.cbProtos

/-- The files fit together. -/
structure GenFiles.Fit (f : GenFiles) : Prop where
  /-- the source includes both headers -/
  includes : f.headerName ∈ f.source.includes ∧ ∀ c, f.callbacks = some c → c.1 ∈ f.source.includes
  /-- the functions of the source are those of the header, with the same types -/
  defined : f.source.defs.map CDef.proto = f.header.protos
  /-- each is defined once, and callbacks have other names and are declared once -/
  once : (f.declared.map CProto.name).Nodup
  /-- a function used as handler is declared, and has the type of a handler -/
  handlers : ∀ d ∈ f.source.defs, ∀ h ∈ d.body.handlers, ∃ p ∈ f.header.protos, p.name = h ∧ p.type = handlerType
  /-- a function that is called is declared, and gets an argument of the type of its parameter -/
  calls : ∀ d ∈ f.source.defs, ∀ c ∈ d.body.calls, ∃ p ∈ f.declared, p.name = c.1 ∧ ∃ t, c.2 = some t ∧ p.type.2 = [t]

end Apx
