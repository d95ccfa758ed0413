import Verif.Model.Import
import Verif.Model.Tools

/-!
Contexts: apx/context.py.

Simplifications.
* All components of a partition have the same workspace `rootWS()`.
* The warning printed for a port whose interface is not found is left out.
* The path of a file is the directory, a slash and the name: `normpath` and absolute node names are not modelled.
-/

namespace Apx

/-- A component of a partition: its software component, if it has one, and whether that is an
`ApplicationSoftwareComponent`. /repo/apx/context.py:7-8. -/
structure APartComponent where
  swc : Option AComponent
  application : Bool

/-- `createContextfromPartition(autosar_partition)`: the nodes of the context. /repo/apx/context.py:5-20. -/
def contextFromPartition (c : Nat → Nat) (ws : Workspace) : List APartComponent → Py (List Node)
  | [] => .ok []
  | ⟨some swc, true⟩ :: l => do
    let n ← partitionNode c ws swc
    let r ← contextFromPartition c ws l
    .ok (n :: r)
  | _ :: l => contextFromPartition c ws l

/-- The loop of `dumps` over the nodes. /repo/apx/context.py:68-69. -/
def contextLines (normalized : Bool) : List Node → Py (List Str)
  | [] => .ok []
  | n :: l => do
    let a ← n.lines normalized
    let r ← contextLines normalized l
    .ok (a ++ r)

/-- `dumps(normalized)` of the context with these nodes. /repo/apx/context.py:62-71. -/
def contextDumps (nodes : List Node) (normalized : Bool) : Py Str := do
  let ls ← contextLines normalized nodes
  .ok (joinLines (headerText :: ls) ++ ['\n'])

/-- `os.path.join(output_dir, node.name+'.apx')`. /repo/apx/context.py:43. -/
def contextFile (dir : Str) (n : Node) : Str := dir ++ ('/' :: (n.name ++ ".apx".toList))

/-- The loop of `save_apx` over the nodes. /repo/apx/context.py:42-48. -/
def contextWrite (dir : Str) (normalized : Bool) : List Node → ToolRun
  | [] => ⟨[], .ok ()⟩
  | n :: l =>
    (ToolRun.mk [(.file (contextFile dir n), (n.fileText normalized).1)] (n.fileText normalized).2).andThen
      fun _ => contextWrite dir normalized l

/-- The list `save_apx` returns. /repo/apx/context.py:39,48-49. -/
def contextFiles (dir : Str) (nodes : List Node) : List Str := nodes.map (contextFile dir)

/-- `save_apx(output_dir, normalized)`; `isDir` tells whether the directory exists.
/repo/apx/context.py:30-49. -/
def contextSave (dir : Str) (isDir : Bool) (nodes : List Node) (normalized : Bool) : ToolRun × Py (List Str) :=
  if isDir then
    (contextWrite dir normalized nodes, (contextWrite dir normalized nodes).result.map fun _ => contextFiles dir nodes)
  else (⟨[], .ok ()⟩, .error .valueError)

end Apx
