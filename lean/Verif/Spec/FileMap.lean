import Verif.Model.FileMap

/-! Specification vocabulary for file maps (C13-C18). -/

namespace Apx.FileMap

/-- `f` occupies address `x`. -/
def Occupies (f : FileEnt) (x : Int) : Prop :=
  ∃ a, f.address = some a ∧ a ≤ x ∧ x < a + f.length

/-- No address belongs to both files. -/
def Disjoint (f g : FileEnt) : Prop := ∀ x, ¬ (Occupies f x ∧ Occupies g x)

/-- `f` has an address no greater than that of `g`. -/
def AddrLe (f g : FileEnt) : Prop :=
  ∃ a b, f.address = some a ∧ g.address = some b ∧ a ≤ b

/-- Region of the address space documented for a file name: start, end and alignment. -/
structure Region where
  start : Nat
  stop : Nat
  align : Nat
  deriving DecidableEq

/-- .in/.out: 0..64M on 1K; .apx: 64M..512M on 1M; others: 512M..0x3FFFFC00 on 1M. -/
def regionOf (name : Str) : Region :=
  if ".in".toList <:+ name ∨ ".out".toList <:+ name then ⟨0, 67108864, 1024⟩
  else if ".apx".toList <:+ name then ⟨67108864, 536870912, 1048576⟩
  else ⟨536870912, 1073740800, 1048576⟩

/-- `f` lies in the region of its name, aligned. -/
def InRegion (f : FileEnt) : Prop :=
  ∃ a, f.address = some a ∧ (regionOf f.name).start ≤ a ∧ a + f.length ≤ (regionOf f.name).stop ∧
    a % (regionOf f.name).align = 0

/-- A file map together with all file objects of the program (`objs i` is the object with
identity `i`). -/
structure World where
  map : FileMap
  objs : Nat → FileEnt

inductive Op
  | insert (file : Nat)
  | remove (file : Nat)

/-- One call on the file map.  A raising call changes nothing (second component: did it return
normally?). -/
def World.step (w : World) : Op → World × Bool
  | .insert i =>
    match w.map.insert (w.objs i) with
    | .ok (m, f) => (⟨m, fun j => if j = i then f else w.objs j⟩, true)
    | .error _ => (w, false)
  | .remove i =>
    match w.map.remove (w.objs i) with
    | .ok m => ({ w with map := m }, true)
    | .error _ => (w, false)

/-- Contribution of one call to the number of files. -/
def Op.delta (ok : Bool) : Op → Int
  | .insert _ => if ok then 1 else 0
  | .remove _ => if ok then -1 else 0

/-- Run a history; the counter is inserts minus removes that returned normally. -/
def World.run (w : World) : List Op → World × Int
  | [] => (w, 0)
  | op :: ops =>
    let (w1, ok) := w.step op
    let (w2, n) := w1.run ops
    (w2, n + op.delta ok)

end Apx.FileMap
