import Verif.Model.ManyNodes
import Verif.Spec.Session

/-! Specification vocabulary for a file manager that serves several nodes (C103). -/

namespace Apx.Manager

variable {H : Type}

/-- A program gives several node data objects to a manager, one after the other, until a call
raises. -/
def attachNodes (s : Mgr H) : List NodeFiles → Result H
  | [] => (s, none)
  | n :: ns =>
    match attachNodeData s n with
    | (s, some e) => (s, some e)
    | (s, none) => attachNodes s ns

/-- The out-port data files, the definition files and the in-port data files, in the order in which the
nodes are given to the manager. -/
def outs (ns : List NodeFiles) : List Nat := ns.filterMap (·.out)
def definitions (ns : List NodeFiles) : List Nat := ns.filterMap (·.definition)
def ins (ns : List NodeFiles) : List Nat := ns.filterMap (·.inp)

/-- A file object as it is when it has just been made: not empty, not open, not given to a manager. -/
structure NewFile (files : List FObj) (i : Nat) (kind : Kind) (suffix : Str) : Prop where
  exists' : ∃ o, files[i]? = some o ∧ o.kind = kind ∧ (∃ name, o.name = name ++ suffix) ∧ 0 < o.length ∧
    o.address = none ∧ o.isOpen = false ∧ o.hasManager = false ∧ o.fileType = 0 ∧ o.digestType = 0 ∧
    o.digestData = List.replicate 32 0

/-- `ns` are the files of several node data objects, all of them new. -/
structure NewNodes (files : List FObj) (ns : List NodeFiles) : Prop where
  out : ∀ i ∈ outs ns, NewFile files i .output ".out".toList
  definition : ∀ i ∈ definitions ns, NewFile files i .output ".apx".toList
  inp : ∀ i ∈ ins ns, NewFile files i .input ".in".toList
  apart : (outs ns ++ definitions ns ++ ins ns).Nodup

/-- The files of the node data of several nodes, as they are made one after the other. -/
def nodeHeap : List (Str × NodeData) → List FObj
  | [] => []
  | (name, nd) :: l => clientFiles name nd ++ nodeHeap l

/-- The node data objects belonging to `nodeHeap`, from object number `k` on. -/
def nodeRefs (k : Nat) : List (Str × NodeData) → List NodeFiles
  | [] => []
  | (_, nd) :: l =>
    ⟨if nd.outFile.isSome then some (k + 1) else none, some (k + 2), if nd.inFile.isSome then some k else none⟩ ::
      nodeRefs (k + 3) l

def fileName (files : List FObj) (i : Nat) : Str := (files[i]?.map (·.name)).getD []

def fileSize (files : List FObj) (i : Nat) : Nat := (files[i]?.map (·.length)).getD 0

/-- The address of a file object, `None` before it has one. -/
def fileAddress (files : List FObj) (i : Nat) : Option Int := files[i]?.bind (·.address)

/-- What a file of `n` bytes takes when files start at multiples of `b`. -/
def slot (b n : Nat) : Nat := (n + (b - 1)) / b * b

/-- Files of the given sizes side by side from `a` on, each at the next multiple of `b`: their addresses. -/
def sideBySide (b : Nat) : Nat → List Nat → List Nat
  | _, [] => []
  | a, n :: ns => a :: sideBySide b (a + slot b n) ns

/-- They end before `stop`. -/
def Room (b stop : Nat) : Nat → List Nat → Prop
  | _, [] => True
  | a, n :: ns => a + n ≤ stop ∧ Room b stop (a + slot b n) ns

/-- There is room for the files of all nodes: port data at multiples of 1K in the first 64M, definitions at
multiples of 1M from there to 512M. -/
def AllFit (files : List FObj) (ns : List NodeFiles) : Prop :=
  Room 1024 67108864 0 ((outs ns).map (fileSize files)) ∧
  Room 1048576 536870912 67108864 ((definitions ns).map (fileSize files))

/-- Where the files of the nodes belong. -/
def addressPlan (files : List FObj) (ns : List NodeFiles) : List Nat :=
  sideBySide 1024 0 ((outs ns).map (fileSize files)) ++
    sideBySide 1048576 67108864 ((definitions ns).map (fileSize files))

/-- No node, or the first node, has provide ports. -/
def FirstProvides : List NodeFiles → Prop
  | [] => True
  | n :: ns => n.out.isSome = true ∨ outs (n :: ns) = []

/-- Calls and messages after the nodes were given to the manager. -/
def Op.later : Op H → Prop
  | .attach _ => False
  | .request _ => False
  | _ => True

end Apx.Manager
