import Verif.Model.Lifecycle

/-!
Connecting and stopping a client: /repo/apx/client.py:55-82, /repo/remotefile/socket_adapter.py:9-92,
with the thread of the file manager at work (/repo/remotefile/__init__.py:254-307).

The operating system is represented by the outcome of each `socket.connect` and by two events: the peer
closes a connection (`recv` returns no bytes), the peer resets one (`recv`, `send` and `shutdown` raise
`OSError`). Simplifications: `send` takes everything it is given; the receive thread ends by `recv` only
(for exceptions of the handler see C72); a thread that is joined ends (it is not blocked on a lock, see
C55); `Adapter.sent` holds what is given to `send`, without the length header (for that see C10).
-/

namespace Apx.Connect
open Manager

/-- A `TcpSocketAdapter` and its socket: `isConnected`, `isAlive`, whether the socket is open, whether
the peer has reset the connection, whether the receive thread runs, and what has been sent.
/repo/remotefile/socket_adapter.py:9-52. -/
structure Adapter where
  isConnected : Bool
  isAlive : Bool
  opened : Bool
  reset : Bool
  receiving : Bool
  sent : List Bytes
  deriving DecidableEq, Repr

/-- After the constructor. /repo/remotefile/socket_adapter.py:13-22,52. -/
def Adapter.new : Adapter := ⟨false, false, true, false, false, []⟩

/-- `bytes('RMFP/1.0\nNumHeader-Format:32\n\n', encoding='ascii')`.
/repo/remotefile/socket_adapter.py:63. -/
def greeting : Bytes := ("RMFP/1.0\nNumHeader-Format:32\n\n".toList.map fun c => UInt8.ofNat c.toNat)

/-- How `socket.connect` ends: it returns, raises `ConnectionRefusedError`, or another `OSError` (no
route, time-out, ...). -/
inductive Attempt
  | accepted
  | refused
  | failed
  deriving DecidableEq, Repr

/-- A client, with all adapters it has made (`socketAdapter` is number `current`), its file manager
(`life.queue` is everything put into the queue) and the manager's thread: the number of messages it has
taken, its variable `transmitHandler` and how it ended. -/
structure Sess where
  adapters : List Adapter
  current : Option Nat
  life : Life Nat
  taken : Nat
  handler : Option Nat
  ended : Option (Option PyErr)
  deriving DecidableEq, Repr

/-- After the constructor. /repo/apx/client.py:20-27. -/
def Sess.new : Sess := ⟨[], none, Life.new Nat, 0, none, none⟩

/-- `connect(address, port)` of an adapter. /repo/remotefile/socket_adapter.py:54-65. -/
def Adapter.connect (a : Adapter) : Attempt → Adapter × Py Bool
  | .accepted => ({ a with isConnected := true, sent := a.sent ++ [greeting] }, .ok true)
  | .refused => (a, .ok false)
  | .failed => (a, .error .osError)

/-- `start()` of an adapter that has not been started. /repo/remotefile/socket_adapter.py:67-69. -/
def Adapter.start (a : Adapter) : Adapter := { a with isAlive := true, receiving := true }

/-- `connect_tcp(address, port, nagle)`. /repo/apx/client.py:55-63. -/
def Sess.connectTcp (s : Sess) (o : Attempt) : Sess × Py Bool :=
  match Adapter.new.connect o with
  | (a, .error x) => ({ s with adapters := s.adapters ++ [a], current := some s.adapters.length }, .error x)
  | (a, .ok false) => ({ s with adapters := s.adapters ++ [a], current := some s.adapters.length }, .ok false)
  | (a, .ok true) =>
    match s.life.start with
    | (l, some x) =>
      ({ s with adapters := s.adapters ++ [a], current := some s.adapters.length, life := l }, .error x)
    | (l, none) =>
      ({ s with adapters := s.adapters ++ [a.start], current := some s.adapters.length, life := l }, .ok true)

/-- `stop()` of an adapter. `shutdown` makes the `recv` of the receive thread return no bytes; it raises
`OSError` if the socket is closed or reset. `inside`: the call is made by the receive thread of this
adapter (in the listener of the client), which cannot join itself; it ends when it gets back to `recv`
on the closed socket, or by this exception. /repo/remotefile/socket_adapter.py:71-76. -/
def Adapter.stop (a : Adapter) (inside : Bool) : Adapter × Option PyErr :=
  if a.isConnected ∧ (a.opened = false ∨ a.reset = true) then (a, some .osError)
  else if a.isAlive then
    ({ a with opened := false, receiving := false }, if inside then some .runtimeError else none)
  else (a, none)

/-- What the manager's thread makes of a message it sends. /repo/remotefile/__init__.py:267-283. -/
def frame {H : Type} : Msg H → Py Bytes
  | .fileInfo info => do
    let header ← Rmf.packHeader Rmf.cmdStartAddr
    .ok (header ++ info)
  | .writeData address data => do
    let header ← Rmf.packHeader address
    .ok (header ++ data)
  | .fileOpen address => do
    let data ← Rmf.packFileOpen address
    let header ← Rmf.packHeader Rmf.cmdStartAddr
    .ok (header ++ data)
  | .connect _ => .ok []
  | .stop => .ok []

/-- `transmitHandler.send(data)` if there is one. /repo/remotefile/__init__.py:270-271,
/repo/remotefile/socket_adapter.py:81-86. -/
def Sess.send (s : Sess) (data : Bytes) : Sess :=
  match s.handler with
  | none => s
  | some h =>
    match s.adapters[h]? with
    | none => s
    | some a =>
      if a.opened = false ∨ a.reset = true then { s with ended := some (some .osError) }
      else { s with adapters := s.adapters.set h { a with sent := a.sent ++ [data] } }

/-- The manager's thread, if it runs, takes a message from the queue, if there is one.
/repo/remotefile/__init__.py:260-285. -/
def Sess.work (s : Sess) : Sess :=
  if s.life.running ∧ s.ended = none then
    match s.life.queue[s.taken]? with
    | none => s
    | some .stop => { s with taken := s.taken + 1, ended := some none }
    | some (.connect h) => { s with taken := s.taken + 1, handler := some h }
    | some m =>
      match frame m with
      | .error x => { s with taken := s.taken + 1, ended := some (some x) }
      | .ok data => { s with taken := s.taken + 1 }.send data
  else s

/-- The manager's thread goes on for `n` messages. -/
def Sess.works (s : Sess) : Nat → Sess
  | 0 => s
  | n + 1 => s.work.works n

/-- `fileManager.stop()`: if it joins the thread, the thread first goes through what is in the queue.
/repo/remotefile/__init__.py:301-307. -/
def Sess.stopManager (s : Sess) : Sess × Option PyErr :=
  match s.life.stop with
  | (l, none) =>
    if s.life.active then ({ s with life := l }.works (l.queue.length - s.taken), none) else ({ s with life := l }, none)
  | (l, some x) => ({ s with life := l }, some x)

/-- `stop()`, called by a thread of the application or (`inside`) by the receive thread of an adapter.
/repo/apx/client.py:78-81. -/
def Sess.stop (s : Sess) (inside : Option Nat) : Sess × Option PyErr :=
  match s.current with
  | none => s.stopManager
  | some i =>
    match s.adapters[i]? with
    | none => s.stopManager
    | some a =>
      match a.stop (inside = some i) with
      | (a, some x) => ({ s with adapters := s.adapters.set i a }, some x)
      | (a, none) => { s with adapters := s.adapters.set i a }.stopManager

/-- What can happen: calls of the application, the events of the connections and the steps of the
manager's thread. `acknowledged i` is the call of `onConnected` by the receive thread of adapter `i`,
`put` any other message put into the queue (by writing a port, by a request of the peer, ...). -/
inductive Event
  | connect (o : Attempt)
  | stop (inside : Option Nat)
  | acknowledged (i : Nat)
  | put (m : Msg Nat)
  | closed (i : Nat)
  | resets (i : Nat)
  | work
  deriving DecidableEq, Repr

/-- Messages put by anything else than `stop` and `onConnected`. -/
def plain : Msg Nat → Bool
  | .connect _ => false
  | .stop => false
  | _ => true

/-- One event; those that are not possible change nothing. -/
def Sess.step (s : Sess) : Event → Sess
  | .connect o => (s.connectTcp o).1
  | .stop inside => (s.stop inside).1
  | .acknowledged i =>
    match s.adapters[i]? with
    | some a => if a.receiving then { s with life := (s.life.step (.put (.connect i))).1 } else s
    | none => s
  | .put m => if plain m then { s with life := (s.life.step (.put m)).1 } else s
  | .closed i => { s with adapters := s.adapters.modify i fun a => { a with receiving := false } }
  | .resets i => { s with adapters := s.adapters.modify i fun a =>
      if a.isConnected then { a with receiving := false, reset := true } else a }
  | .work => s.work

/-- A history. -/
def Sess.run (s : Sess) (es : List Event) : Sess := es.foldl Sess.step s

end Apx.Connect
