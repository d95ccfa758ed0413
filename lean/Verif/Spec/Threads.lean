import Verif.Model.Threads
import Verif.Spec.File

/-! Specification vocabulary for calls made by several threads (C90). -/

namespace Apx.Threads

/-- The object when its lock is free. -/
def unlocked (nd : NodeData) : NodeData := { nd with locked := false }

/-- When thread `t` was about to make its call number `k`, the call was `c`, and `P` held. -/
def AtCall (s : Sys) (sch : List Nat) (t k : Nat) (c : Call) (P : Sys → Prop) : Prop :=
  ∃ pre post th, sch = pre ++ t :: post ∧ (s.exec pre).threads[t]? = some th ∧ th.phase = .idle ∧
    th.results.length = k ∧ th.todo.head? = some c ∧ P (s.exec pre)

/-- All threads have made all their calls. -/
def Sys.Done (s : Sys) : Prop := ∀ th ∈ s.threads, th.phase = .idle ∧ th.todo = []

/-- The thread can make a step. -/
def Enabled (s : Sys) (th : Thread) : Prop :=
  (th.phase = .idle → th.todo ≠ []) ∧ ∀ j, th.phase = .waiting j → s.nd.locked = false

/-- Every step of the schedule is made by a thread that can make one. -/
def Sys.Busy (s : Sys) : List Nat → Prop
  | [] => True
  | t :: sch => (∃ th, s.threads[t]? = some th ∧ Enabled s th) ∧ (s.step t).Busy sch

/-- No thread is inside a call. -/
def Sys.Between (s : Sys) : Prop := ∀ th ∈ s.threads, th.phase = .idle

/-- The writes among these calls that did not raise. -/
def written (l : List (Call × Outcome PyVal)) : List (Int × PyVal) :=
  l.filterMap fun x =>
    match x with
    | (.write i v, .ok _) => some (i, v)
    | _ => none

/-- The writes that the threads have made, in some order that keeps the order of each thread. -/
def Interleaving (s : Sys) (ws : List (Nat × Int × PyVal)) : Prop :=
  (∀ w ∈ ws, w.1 < s.threads.length) ∧
  ∀ (t : Nat) (th : Thread), s.threads[t]? = some th → (ws.filter (·.1 == t)).map (·.2) = written th.results

/-- The object after these writes, made one after the other, if none of them raises. -/
def sequential (nd : NodeData) : List (Int × PyVal) → Option NodeData
  | [] => some nd
  | (i, v) :: ws =>
    match nd.writeProvide i v with
    | (nd', .ok _) => sequential nd' ws
    | _ => none

/-- The data stored by these calls. -/
def arrivals (l : List (Call × Outcome PyVal)) : List FileData.WriteReq :=
  l.filterMap fun x =>
    match x with
    | (.arrive off data, _) => some ⟨off, data⟩
    | _ => none

/-- Data are received by one thread. -/
def OneReceiver (t : Nat) (calls : List (List Call)) : Prop :=
  ∀ (u : Nat) (l : List Call) (off : Nat) (data : Bytes), calls[u]? = some l → Call.arrive off data ∈ l → u = t

/-- No port is written by two threads. -/
def OneWriter (calls : List (List Call)) : Prop :=
  ∀ (t t' : Nat) (l l' : List Call) (i : Int) (v v' : PyVal), calls[t]? = some l → calls[t']? = some l' →
    Call.write i v ∈ l → Call.write i v' ∈ l' → t = t'

end Apx.Threads
