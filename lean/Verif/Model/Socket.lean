import Verif.Model.NumHeader

/-!
Model of the receiving side and of `send` in /repo/remotefile/socket_adapter.py.

The operating system socket is represented by the byte chunks that `socket.recv` returns (an
empty chunk, or a closed socket, ends the worker) and by the bytes handed to `socket.send`.
-/

namespace Apx.Socket

/-- A `remotefile.ReceiveHandler` (remotefile/__init__.py:180-190): arbitrary state `σ` and
callbacks which may change it and may raise. -/
structure Handler (σ : Type) where
  onConnected : σ → σ × Option PyErr
  onMsgReceived : σ → Bytes → σ × Option PyErr

/-- The adapter's fields that matter to parsing, socket_adapter.py:13-22.
`handlerSet` is `receiveHandler is not None`. -/
structure State (σ : Type) where
  isAcknowledgeSeen : Bool
  handlerSet : Bool
  handler : σ
  deriving DecidableEq

/-- socket_adapter.py:118. -/
def ackMsg : Bytes := [0xbf, 0xff, 0xfc, 0x00, 0x00, 0x00, 0x00, 0x00]

/-- socket_adapter.py:108-129 `_parseMessage(buf, iBegin, iEnd)`.  `bytesParsed < 0` cannot be
expressed: `numheader.decode32` never returns a negative count. -/
def parseMessage {σ : Type} (H : Handler σ) (s : State σ) (buf : Bytes) (iBegin iEnd : Nat) :
    State σ × Py Nat :=
  match NumHeader.decode32 buf iBegin (some iEnd) with
  | .error e => (s, .error e)
  | .ok (0, _) => (s, .ok iBegin)
  | .ok (bytesParsed, value) =>
    let value := value.getD 0
    let iNext := iBegin + bytesParsed
    if iNext + value ≤ iEnd then
      let msg := (buf.drop iNext).take value
      if !s.isAcknowledgeSeen then
        if msg.length = 8 ∧ msg = ackMsg then
          let s := { s with isAcknowledgeSeen := true }
          if s.handlerSet then
            match H.onConnected s.handler with
            | (h, none) => ({ s with handler := h }, .ok (iNext + value))
            | (h, some e) => ({ s with handler := h }, .error e)
          else (s, .error .attributeError)
        else (s, .error .runtimeError)
      else if s.handlerSet then
        match H.onMsgReceived s.handler msg with
        | (h, none) => ({ s with handler := h }, .ok (iNext + value))
        | (h, some e) => ({ s with handler := h }, .error e)
      else (s, .ok (iNext + value))
    else (s, .ok iBegin)

/-- socket_adapter.py:96-106, the loop of `_parseData`. -/
def parseLoop {σ : Type} (H : Handler σ) (s : State σ) (buf : Bytes) (iBegin iEnd : Nat) :
    State σ × Py Int :=
  if iBegin < iEnd then
    match parseMessage H s buf iBegin iEnd with
    | (s', .error e) => (s', .error e)
    | (s', .ok iNext) =>
      if iNext < iBegin then (s', .ok (-1))
      else if iNext = iBegin then (s', .ok iBegin)
      else parseLoop H s' buf iNext iEnd
  else (s, .ok iBegin)
termination_by iEnd - iBegin

/-- socket_adapter.py:88-106 `_parseData(buf)`. -/
def parseData {σ : Type} (H : Handler σ) (s : State σ) (buf : Bytes) : State σ × Py Int :=
  parseLoop H s buf 0 buf.length

/-- What the worker thread is doing: waiting for more data with these unprocessed bytes, or
ended (end of stream, `_parseData` error, or an exception that escapes). -/
inductive Worker
  | waiting (unprocessed : Bytes)
  | ended (why : Option PyErr)
  deriving DecidableEq, Repr

/-- socket_adapter.py:32-47, one pass of the worker's loop.  An `OSError` raised by a callback
is caught by the worker and any other exception escapes from the thread: both end it. -/
def workerStep {σ : Type} (H : Handler σ) (s : State σ) (unprocessed chunk : Bytes) :
    State σ × Worker :=
  if chunk.length = 0 then (s, .ended none)
  else
    let unprocessed := unprocessed ++ chunk
    match parseData H s unprocessed with
    | (s', .error e) => (s', .ended (some e))
    | (s', .ok result) =>
      if result < 0 then (s', .ended none)
      else if result > 0 then (s', .waiting (unprocessed.drop result.toNat))
      else (s', .waiting unprocessed)

/-- socket_adapter.py:24-50, the worker over the chunks received so far. -/
def worker {σ : Type} (H : Handler σ) : State σ × Worker → List Bytes → State σ × Worker
  | sw, [] => sw
  | (s, .ended e), _ :: _ => (s, .ended e)
  | (s, .waiting u), c :: cs => worker H (workerStep H s u c) cs

/-- socket_adapter.py:14-22 and 30: a fresh adapter with its receive handler set. -/
def initial {σ : Type} (h : σ) : State σ × Worker :=
  (⟨false, true, h⟩, .waiting [])

/-- socket_adapter.py:81-86 `send(data)`: the bytes handed to `socket.send`. -/
def send (data : Bytes) : Py Bytes := do
  let header ← NumHeader.encode32 data.length
  .ok (header ++ data)

/-- socket_adapter.py:63-64: the greeting sent by `connect`. -/
def greeting : Py Bytes := do
  let g := "RMFP/1.0\nNumHeader-Format:32\n\n".toList.map (fun c => UInt8.ofNat c.toNat)
  let header ← NumHeader.encode32 g.length
  .ok (header ++ g)

end Apx.Socket
