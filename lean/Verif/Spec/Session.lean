import Verif.Model.Session
import Verif.Spec.FileManager
import Verif.Spec.NodeData

/-! Specification vocabulary for a connected client (C73). -/

namespace Apx
open Manager

variable {H : Type}

/-- Everything that can happen to a client after it has been made for a node: the connection is
acknowledged, a message arrives, the program writes a provide port or reads a require port, the
client is stopped. -/
inductive Act (H : Type)
  | connected (h : H)
  | message (msg : Bytes)
  | write (i : Int) (v : PyVal)
  | read (i : Int)
  | stop

/-- The client afterwards, whether the call returned or raised. -/
def Endpoint.act (e : Endpoint H) : Act H → Endpoint H
  | .connected h => { e with mgr := (onConnected e.mgr h).1 }
  | .message msg => (e.receive msg).1
  | .write i v => (e.write i v).1
  | .read i => { e with node := (e.node.readRequire i).1 }
  | .stop => { e with mgr := e.mgr.put .stop }

/-- The client after a history. -/
def Endpoint.history (e : Endpoint H) (as : List (Act H)) : Endpoint H := as.foldl Endpoint.act e

/-- Start addresses of the two local files of a client. -/
def outAddress : Nat := 0
def definitionAddress : Nat := 0x4000000

/-- The file announced and requested for a node's in-port data has been opened by the client. -/
def Endpoint.inOpen (e : Endpoint H) : Bool := (e.mgr.files[e.inFile]?.map (·.isOpen)).getD false

/-- The address of the in-port data file. -/
def Endpoint.inAddress (e : Endpoint H) : Option Int := e.mgr.files[e.inFile]?.bind (·.address)

/-- A command message of the peer: some header that addresses the command area, and the command. -/
def CommandFrame (body frame : Bytes) : Prop :=
  ∃ hdr more, Rmf.packHeader Rmf.cmdStartAddr more = .ok hdr ∧ frame = hdr ++ body

/-- A FILE_INFO message for `f`. -/
def InfoFrame (f : Rmf.FileInfo) (frame : Bytes) : Prop :=
  ∃ body, Rmf.packFileInfo f '<' = .ok body ∧ CommandFrame body frame

/-- A FILE_OPEN message for the file at address `x`. -/
def OpenFrame (x : Nat) (frame : Bytes) : Prop :=
  ∃ body, Rmf.packFileOpen x '<' = .ok body ∧ CommandFrame body frame

/-- A data message for address `x`. -/
def DataFrame (x : Nat) (data frame : Bytes) : Prop :=
  ∃ hdr, Rmf.packHeader (x : Int) false = .ok hdr ∧ frame = hdr ++ data

def isOpenRequest : Msg H → Bool
  | .fileOpen _ => true
  | _ => false

end Apx
