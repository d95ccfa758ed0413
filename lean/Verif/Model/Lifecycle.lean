import Verif.Model.FileManager

/-!
Starting and stopping a file manager: /repo/remotefile/__init__.py:254-307.

The worker thread is a `threading.Thread`: it can be started once, `start` on a thread that has been
started raises `RuntimeError`, and it ends when it takes `None` from the queue. Simplification: the
worker does not end by an exception of its own here (see C41 for when it does).
-/

namespace Apx.Manager

/-- The attribute `worker`. -/
inductive WorkerState
  /-- a thread that has not been started -/
  | fresh
  /-- a thread that has been started -/
  | started
  /-- `None` -/
  | gone
  deriving DecidableEq, Repr

/-- The manager's attributes `worker`, `worker_active` and `msgQueue` (everything put into it so far),
and whether the thread made by the constructor has been started.
/repo/remotefile/__init__.py:254-289. -/
structure Life (H : Type) where
  worker : WorkerState
  active : Bool
  running : Bool
  queue : List (Msg H)
  deriving DecidableEq, Repr

/-- After the constructor. /repo/remotefile/__init__.py:287-289. -/
def Life.new (H : Type) : Life H := ⟨.fresh, false, false, []⟩

/-- Calls: `start()`, `stop()`, and any use that puts a message (other than `None`) into the queue. -/
inductive LifeOp (H : Type)
  | start
  | stop
  | put (msg : Msg H)
  deriving DecidableEq, Repr

/-- `start()`. /repo/remotefile/__init__.py:297-299. -/
def Life.start {H : Type} (s : Life H) : Life H × Option PyErr :=
  let s := { s with active := true }
  match s.worker with
  | .fresh => ({ s with worker := .started, running := true }, none)
  | .started => (s, some .runtimeError)
  | .gone => (s, some .attributeError)

/-- `stop()`. `join` on the started thread returns, since the thread takes the `None` just put into
the queue or an earlier one. /repo/remotefile/__init__.py:301-307. -/
def Life.stop {H : Type} (s : Life H) : Life H × Option PyErr :=
  if s.active then
    let s := { s with queue := s.queue ++ [Msg.stop] }
    match s.worker with
    | .fresh => (s, some .runtimeError)     -- "cannot join thread before it is started"
    | .started => ({ s with worker := .gone, active := false }, none)
    | .gone => (s, some .attributeError)
  else (s, none)

/-- One call. -/
def Life.step {H : Type} (s : Life H) : LifeOp H → Life H × Option PyErr
  | .start => s.start
  | .stop => s.stop
  | .put msg => ({ s with queue := s.queue ++ [msg] }, none)

/-- A sequence of calls, going on after exceptions. -/
def Life.run {H : Type} (s : Life H) (ops : List (LifeOp H)) : Life H :=
  ops.foldl (fun s op => (s.step op).1) s

/-- What the thread has sent, once it has worked through its queue. -/
def Life.sent {H : Type} (s : Life H) : List (H × Bytes) :=
  if s.running then (Manager.worker none s.queue).1 else []

end Apx.Manager
