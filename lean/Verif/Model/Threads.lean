import Verif.Model.NodeData

/-!
Threads using one `NodeData` object: programs calling `write_provide_port` and `read_require_port`, and
the receive thread storing what arrives and calling the client. Each call is broken into the steps between
which another thread can run (apx/node_data.py:101-108,130-175, apx/vm.py:318-386).

`File.read` and `File.write` hold the file's own lock (apx/file.py:42-44,56-58), so each is one step, and
so is the execution of one instruction of the virtual machine; the virtual machine is one object
shared by all threads, protected only by `self.lock`. What the manager does with a write to the out-port
data file is the subject of `Model/Concurrent`.

Simplifications.
* The assignments of `reset` and `init_..._prog` are one step.
* A thread whose call has raised goes on with its next call. A receive thread that ends instead is covered
  by schedules that do not run it any more.
-/

namespace Apx.Threads

/-- What a thread does next. -/
inductive Call
  /-- `write_provide_port(i, v)` -/
  | write (i : Int) (v : PyVal)
  /-- `read_require_port(i)` -/
  | read (i : Int)
  /-- `InputFile.write(off, data)` in the receive thread; a node data client is set -/
  | arrive (off : Nat) (data : Bytes)
  /-- one iteration of the loop of `inPortDataWriteNotify` -/
  | notify (r : PortRange)

/-- The calls made by `inPortDataWriteNotify`. -/
def Call.isNotify : Call → Bool
  | .notify _ => true
  | _ => false

/-- The local variables of `_packProvidePort` and `_unpackRequirePort`: whether the program packs or
unpacks, the port, `program`, `data` as created or read, and `value`. /repo/apx/node_data.py:148-151,166-170. -/
structure Job where
  dir : Dir
  r : PortRange
  prog : Bytes
  start : Bytes
  value : PyVal

/-- Where a thread is in its current call. -/
inductive Phase
  /-- between calls -/
  | idle
  /-- will acquire the lock. /repo/apx/node_data.py:151,171 -/
  | waiting (j : Job)
  /-- will initialize the virtual machine. /repo/apx/vm.py:328-330,360-362 -/
  | acquired (j : Job)
  /-- will execute the rest of the code. /repo/apx/vm.py:331-341,363-373 -/
  | running (j : Job) (code : Bytes)
  /-- will store the value, or fetch it from the virtual machine. /repo/apx/node_data.py:153,173 -/
  | ran (j : Job)
  /-- will release the lock. /repo/apx/node_data.py:154,174 -/
  | releasing (j : Job) (value : PyVal)
  /-- will write the file. /repo/apx/node_data.py:155 -/
  | writing (j : Job)

/-- A thread: where it is, its local `data`, the call it makes now and those after it, and the calls it has
made with their outcomes (the value of a read, the return value of `InputFile.write`, `None` of a write). -/
structure Thread where
  phase : Phase
  data : Bytes
  todo : List Call
  results : List (Call × Outcome PyVal)

/-- The attributes of the virtual machine; `data` is an object of the thread that initialized it.
/repo/apx/vm.py:63-84,330,362. -/
structure SharedVm where
  dir : Dir
  first : Bool
  st : VmState
  off : Nat
  owner : Nat

/-- The node data with its lock (`nd.locked`), its virtual machine and the threads. -/
structure Sys where
  nd : NodeData
  vm : SharedVm
  threads : List Thread

/-- The call returns. -/
def Thread.finish (th : Thread) (o : Outcome PyVal) : Thread :=
  match th.todo with
  | [] => th
  | c :: rest => ⟨.idle, th.data, rest, th.results ++ [(c, o)]⟩

/-- The call raises; an exception ends the loop of `inPortDataWriteNotify`. -/
def Thread.fail (th : Thread) (x : PyErr) : Thread :=
  match th.todo with
  | [] => th
  | c :: rest => ⟨.idle, th.data, rest.dropWhile Call.isNotify, th.results ++ [(c, .raised x)]⟩

/-- The thread goes on to the lock. -/
def Thread.wait (th : Thread) (j : Job) : Thread := ⟨.waiting j, j.start, th.todo, th.results⟩

/-- The start of `_unpackRequirePort`: the data are read. /repo/apx/node_data.py:166-170. -/
def startRead (nd : NodeData) (th : Thread) (r : PortRange) : Thread :=
  match nd.inProgs[r.id]? with
  | none => th.fail .indexError
  | some prog =>
    match nd.inFile with
    | none => th.fail .attributeError
    | some f =>
      match f.read r.offset r.len with
      | none => th.fail .runtimeError
      | some data => th.wait ⟨.unpack, r, prog, data, .null⟩

/-- The start of `write_provide_port`. /repo/apx/node_data.py:130-137,148-150. -/
def startWrite (nd : NodeData) (th : Thread) (i : Int) (v : PyVal) : Thread :=
  match NodeData.lookupRange nd.outRanges i with
  | .error x => th.fail x
  | .ok r =>
    match nd.outProgs[r.id]? with
    | none => th.fail .indexError
    | some prog => th.wait ⟨.pack, r, prog, List.replicate r.len 0, v⟩

/-- The calls of the client that are due after a write that returned. /repo/apx/file.py:70-75,
/repo/apx/node_data.py:101-108. -/
def startNotify (nd : NodeData) (th : Thread) (off len : Nat) (retval : Int)
    (note : Option FileData.Notification) : Thread :=
  match note with
  | none => th.finish (.ok (.int retval))
  | some _ =>
    match nd.byteToPort off len with
    | .error x => th.fail x
    | .ok rs =>
      let th := th.finish (.ok (.int retval))
      { th with todo := rs.map .notify ++ th.todo }

/-- The first step of a call. -/
def begin (nd : NodeData) (th : Thread) : Call → NodeData × Thread
  | .write i v => (nd, startWrite nd th i v)
  | .read i =>
    match NodeData.lookupRange nd.inRanges i with
    | .error x => (nd, th.fail x)
    | .ok r => (nd, startRead nd th r)
  | .notify r => (nd, startRead nd th r)
  | .arrive off data =>
    match nd.inFile with
    | none => (nd, th.fail .attributeError)
    | some f =>
      let w := f.inputWrite off data false true
      (({ nd with inFile := some w.1 } : NodeData), startNotify nd th off data.length w.2.1 w.2.2)

/-- The buffer that the virtual machine works on. -/
def Sys.buffer (s : Sys) : Bytes := (s.threads[s.vm.owner]?).elim [] Thread.data

/-- The buffer is changed. -/
def Sys.setBuffer (s : Sys) (b : Bytes) : Sys :=
  { s with threads := s.threads.modify s.vm.owner fun th => { th with data := b } }

/-- Replacing a thread. -/
def Sys.setThread (s : Sys) (t : Nat) (th : Thread) : Sys := { s with threads := s.threads.set t th }

/-- Changing where a thread is. -/
def Sys.goto (s : Sys) (t : Nat) (p : Phase) : Sys :=
  { s with threads := s.threads.modify t fun th => { th with phase := p } }

/-- One instruction by thread `t`. /repo/apx/vm.py:331-341,363-386. -/
def Sys.instruct (s : Sys) (t : Nat) (th : Thread) (j : Job) (code : Bytes) : Sys :=
  match parseInstr code with
  | .error x => s.setThread t (th.fail x)
  | .ok none => s.goto t (.ran j)
  | .ok (some (i, rest)) =>
    if s.vm.first && !isProgHeader j.dir i then s.setThread t (th.fail .runtimeError)
    else
      match execInstr s.vm.dir i ⟨s.vm.st, s.buffer, s.vm.off⟩ with
      | .error x => s.setThread t (th.fail x)
      | .ok m =>
        let s := s.setBuffer m.data
        let s := s.goto t (.running j rest)
        { s with vm := ⟨s.vm.dir, false, m.st, m.off, s.vm.owner⟩ }

/-- After the program: `self.outPortValues[port_id]=value`, or `value = self.vm.value`.
/repo/apx/node_data.py:153,173. -/
def Sys.settle (s : Sys) (t : Nat) (j : Job) : Sys :=
  match j.dir with
  | .pack =>
    ({ s with nd := { s.nd with outValues := s.nd.outValues.set j.r.id (.val j.value) } } : Sys).goto t (.releasing j .null)
  | .unpack => s.goto t (.releasing j s.vm.st.value)

/-- The lock is released. /repo/apx/node_data.py:154,174-175. -/
def Sys.release (s : Sys) (t : Nat) (th : Thread) (j : Job) (v : PyVal) : Sys :=
  match j.dir with
  | .pack => ({ s with nd := { s.nd with locked := false } } : Sys).goto t (.writing j)
  | .unpack => ({ s with nd := { s.nd with locked := false } } : Sys).setThread t (th.finish (.ok v))

/-- The file is written. /repo/apx/node_data.py:155. -/
def Sys.store (s : Sys) (t : Nat) (th : Thread) (j : Job) : Sys :=
  match s.nd.outFile with
  | none => s.setThread t (th.fail .attributeError)
  | some f =>
    ({ s with nd := { s.nd with outFile := some (f.write j.r.offset th.data).1 } } : Sys).setThread t (th.finish (.ok .null))

/-- One atomic step of thread `t`; nothing happens if it has finished or waits for the lock. -/
def Sys.step (s : Sys) (t : Nat) : Sys :=
  match s.threads[t]? with
  | none => s
  | some th =>
    match th.phase with
    | .idle =>
      match th.todo with
      | [] => s
      | c :: _ => ({ s with nd := (begin s.nd th c).1 } : Sys).setThread t (begin s.nd th c).2
    | .waiting j =>
      if s.nd.locked then s
      else ({ s with nd := { s.nd with locked := true } } : Sys).goto t (.acquired j)
    | .acquired j => ({ s with vm := ⟨j.dir, true, VmState.init j.value, 0, t⟩ } : Sys).goto t (.running j j.prog)
    | .running j code => s.instruct t th j code
    | .ran j => s.settle t j
    | .releasing j v => s.release t th j v
    | .writing j => s.store t th j

/-- Execution under a schedule: which thread makes the next step. -/
def Sys.exec (s : Sys) (schedule : List Nat) : Sys := schedule.foldl Sys.step s

/-- The threads with their calls, before the first step. -/
def Sys.start (nd : NodeData) (calls : List (List Call)) : Sys :=
  ⟨nd, ⟨.pack, true, VmState.init .null, 0, 0⟩, calls.map fun l => ⟨.idle, [], l, []⟩⟩

end Apx.Threads
