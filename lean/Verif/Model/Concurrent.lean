import Verif.Model.FileManager

/-!
Threads writing one open local file: `OutputFile.write` (apx/file.py:85-89) broken into the steps
between which another thread can run.

`File.write` and `File.read` change or copy the content under `dataLock` (apx/file.py:42-44,
56-58), and `queue.Queue.put` is atomic; nothing is held between them.  So a call consists of
three atomic steps: the write (apx/file.py:48-59), the re-read of the range
(remotefile/__init__.py:393) and the `put` (remotefile/__init__.py:394-396).
-/

namespace Apx.Concurrent
open Manager

/-- Where a thread is in its current call. -/
inductive Phase
  /-- between calls -/
  | idle
  /-- has written `len` bytes at `offset`, will read them back -/
  | wrote (offset : Int) (len : Nat)
  /-- has read `data` back, will queue it -/
  | hasRead (offset : Int) (data : Bytes)
  deriving DecidableEq, Repr

/-- A thread: its phase and the calls `write(offset, data)` it still has to make. -/
structure Thread where
  phase : Phase
  todo : List (Int × Bytes)
  deriving DecidableEq, Repr

/-- The shared file (open, attached at `address`), the manager's queue and the threads. -/
structure Sys where
  address : Int
  content : FileData
  queue : List (Msg Unit)
  threads : List Thread
  deriving DecidableEq, Repr

/-- One atomic step of thread `t` (nothing happens if it has finished). -/
def Sys.step (s : Sys) (t : Nat) : Sys :=
  match s.threads[t]? with
  | none => s
  | some th =>
    match th.phase with
    | .idle =>
      match th.todo with
      | [] => s
      | (offset, data) :: rest =>
        -- apx/file.py:48-59; the return value decides whether the manager is notified
        match s.content.write offset data with
        | (c, retval) =>
          { s with
            content := c
            threads := s.threads.set t ⟨if retval ≥ 0 then .wrote offset data.length else .idle, rest⟩ }
    | .wrote offset len =>
      match s.content.read offset len with
      | some bs => { s with threads := s.threads.set t ⟨.hasRead offset bs, th.todo⟩ }
      | none => { s with threads := s.threads.set t ⟨.idle, th.todo⟩ }
    | .hasRead offset data =>
      { s with
        queue := s.queue ++ [.writeData (s.address + offset) data]
        threads := s.threads.set t ⟨.idle, th.todo⟩ }

/-- Execution under a schedule: which thread makes the next step. -/
def Sys.exec (s : Sys) (schedule : List Nat) : Sys := schedule.foldl Sys.step s

/-- All threads have made all their calls. -/
def Sys.Done (s : Sys) : Prop := ∀ t ∈ s.threads, t = ⟨.idle, []⟩

instance (s : Sys) : Decidable s.Done := inferInstanceAs (Decidable (∀ t ∈ s.threads, t = _))

end Apx.Concurrent
