import Verif.Model.Socket

/-! Specification vocabulary for message reassembly (C10-C12). -/

namespace Apx.Socket

/-- What a receive handler can observe. -/
inductive Event
  | connected
  | msg (m : Bytes)
  deriving DecidableEq, Repr

/-- A handler that records every callback, in order, and never raises. -/
def recorder : Handler (List Event) where
  onConnected := fun l => (l ++ [.connected], none)
  onMsgReceived := fun l m => (l ++ [.msg m], none)

/-- `chunks` is a way the operating system can hand over `stream`: the non-empty pieces of it. -/
def Chunking (stream : Bytes) (chunks : List Bytes) : Prop :=
  chunks.flatten = stream ∧ ∀ c ∈ chunks, c ≠ []

/-- Hand messages to a handler one by one until one raises. -/
def deliverAll {σ : Type} (H : Handler σ) : σ → List Bytes → σ × Option PyErr
  | h, [] => (h, none)
  | h, m :: ms =>
    match H.onMsgReceived h m with
    | (h', none) => deliverAll H h' ms
    | (h', some e) => (h', some e)

/-- The bytes a peer sends for a list of messages: each framed by `send`. -/
def sendAll : List Bytes → Py Bytes
  | [] => .ok []
  | m :: ms => do
    let f ← send m
    let fs ← sendAll ms
    .ok (f ++ fs)

end Apx.Socket
