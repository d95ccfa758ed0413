import Verif.Model.FileManager
import Verif.Spec.FileMap
import Verif.Model.Socket

/-! Specification vocabulary for the file manager (C36-C41). -/

namespace Apx.Manager

/-- `new` is `old` with exactly the bytes `[off, off + len(data))` replaced by `data`. -/
def Overwrites (old : Bytes) (off : Nat) (data new : Bytes) : Prop :=
  new.length = old.length ∧ off + data.length ≤ old.length ∧
  ∀ k, new[k]? = if off ≤ k ∧ k < off + data.length then data[k - off]? else old[k]?

/-- Everything that can happen to a manager: calls by the program and by the transport. -/
inductive Op (H : Type)
  | attach (file : Nat)
  | request (file : Nat)
  | message (msg : Bytes)
  | connected (handler : H)
  | write (file : Nat) (offset : Int) (data : Bytes)
  | stop
  deriving DecidableEq

/-- Effect of one call, whether it returns or raises. -/
def step {H : Type} (s : Mgr H) : Op H → Mgr H
  | .attach i => (attachLocalFile s i).1
  | .request i => (requestRemoteFile s i).1
  | .message msg => (onMsgReceived s msg).1
  | .connected h => (onConnected s h).1
  | .write i off data => (writeLocal s i off data).1
  | .stop => s.put .stop

def run {H : Type} (s : Mgr H) (ops : List (Op H)) : Mgr H := ops.foldl step s

/-- A new manager and the file objects of the program, none of them open or attached. -/
def start {H : Type} (files : List FObj) (byteOrder : Char) : Mgr H :=
  { files := files, localMap := ⟨[], []⟩, remoteMap := ⟨[], []⟩, requested := [],
    byteOrder := byteOrder, queue := [] }

def Fresh (files : List FObj) : Prop := ∀ o ∈ files, o.isOpen = false ∧ o.hasManager = false

/-- The program uses `isLocal` files as local files and the others as requested files, never one
file in both ways. -/
def Op.Respects {H : Type} (isLocal : Nat → Bool) : Op H → Prop
  | .attach i => isLocal i = true
  | .request i => isLocal i = false
  | _ => True

/-- The file a call requests. -/
def Op.requests {H : Type} : Op H → Option Nat
  | .request i => some i
  | _ => none

/-- The bytes `[a, a+n)` a peer holds as its copy of a file, after it received one message: a
data message inside the file overwrites the addressed bytes, everything else is about other
things. -/
def mirror {H : Type} (a : Int) (copy : Bytes) : Msg H → Bytes
  | .writeData addr data =>
    if a ≤ addr ∧ addr + data.length ≤ a + copy.length then
      let off := (addr - a).toNat
      copy.take off ++ data ++ copy.drop (off + data.length)
    else copy
  | _ => copy

def mirrorAll {H : Type} (a : Int) (copy : Bytes) (msgs : List (Msg H)) : Bytes :=
  msgs.foldl (mirror a) copy

/-- A file manager as the receive handler of a socket adapter (remotefile/__init__.py:240), with
`h` the adapter it is given on connection.  What the node data handler does when it is notified
is not included. -/
def receiver {H : Type} (h : H) : Socket.Handler (Mgr H) where
  onConnected s := onConnected s h
  onMsgReceived s msg := ((onMsgReceived s msg).1, (onMsgReceived s msg).2.1)

/-- The frame a queued message stands for on the wire: header with the address, then the
payload; commands go to the command address. -/
inductive FrameOf {H : Type} : Msg H → Bytes → Prop
  | info (data header : Bytes) (h : Rmf.packHeader Rmf.cmdStartAddr = .ok header) :
      FrameOf (.fileInfo data) (header ++ data)
  | data (address : Int) (data header : Bytes) (h : Rmf.packHeader address = .ok header) :
      FrameOf (.writeData address data) (header ++ data)
  | fileOpen (address : Int) (header data : Bytes) (h : Rmf.packHeader Rmf.cmdStartAddr = .ok header)
      (h' : Rmf.packFileOpen address = .ok data) : FrameOf (.fileOpen address) (header ++ data)

/-- Two lists agree element by element. -/
inductive Each {α β : Type} (R : α → β → Prop) : List α → List β → Prop
  | nil : Each R [] []
  | cons {a b as bs} (h : R a b) (t : Each R as bs) : Each R (a :: as) (b :: bs)

/-- A message with something to transmit, addressed inside the RemoteFile address space. -/
def Msg.Sendable {H : Type} : Msg H → Prop
  | .fileInfo _ => True
  | .writeData address _ => address < 1073741824
  | .fileOpen address => 0 ≤ address ∧ address < 4294967296
  | _ => False

end Apx.Manager
