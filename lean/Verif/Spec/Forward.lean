import Verif.Model.NodeBuild
import Verif.Props.RmfCmd
import Verif.Spec.Session

/-! Specification vocabulary for a value on its way from one client to another (C94). -/

namespace Apx
open Manager

variable {H : Type}

/-- Port number `k` of one side of node `n` has type `de`, all references followed. -/
def Node.PortType (n : Node) (side : Side) (k : Nat) (de : Elem) : Prop :=
  ∃ p, (n.ports side)[k]? = some p ∧ p.toNPort.type n.named = .ok de

/-- The data of port number `k` begins after the data of the ports before it, at byte `off`. -/
def Node.PortStart (n : Node) (side : Side) (k off : Nat) : Prop :=
  ∃ lens : List Nat, ((n.ports side).take k).map (fun p => p.toNPort.packLen n.named) = lens.map .ok ∧
    off = lens.sum

/-- In the history `as` of `e` no call that writes provide port `i` returned. -/
def Endpoint.NoWrite (e : Endpoint H) (as : List (Act H)) (i : Nat) : Prop :=
  ∀ xs u ys, as = xs ++ .write i u :: ys → ((e.history xs).write i u).2 ≠ .ok ()

/-- In the history `as` of `e`, the last call to write provide port `i` that returned was given `v`. -/
def Endpoint.LastWrite (e : Endpoint H) (as : List (Act H)) (i : Nat) (v : PyVal) : Prop :=
  ∃ xs ys, as = xs ++ .write i v :: ys ∧ ((e.history xs).write i v).2 = .ok () ∧
    (e.history (xs ++ [.write i v])).NoWrite ys i

/-- At some time in the history the server opened the client's out-port data file. -/
def Endpoint.Opened (e : Endpoint H) (as : List (Act H)) : Prop :=
  ∃ xs frame ys, as = xs ++ .message frame :: ys ∧ OpenFrame outAddress frame ∧ (e.history xs).stuck = false

/-- At some time in the history the server announced the in-port data of node `n` at address `a`, for the
first time. -/
def Endpoint.Announced (e : Endpoint H) (n : Node) (as : List (Act H)) (a : Nat) : Prop :=
  ∃ xs f frame ys, as = xs ++ .message frame :: ys ∧ InfoFrame f frame ∧ Rmf.WireFile f ∧
    f.name = n.name ++ ".in".toList ∧ f.address = some (a : Int) ∧
    f.length = (fileBytes (e.history xs).node.inFile).length ∧
    (e.history xs).stuck = false ∧ (e.history xs).inOpen = false

/-- `len` bytes from `off` of the server's copy of the provider's out-port data: whatever the copy held at
first, updated with the data messages the provider has queued. -/
def serverCopy (copy : Bytes) (P : Endpoint H) (off len : Nat) : Bytes :=
  ((mirrorAll outAddress copy P.mgr.queue).drop off).take len

/-- The writes of a history that returned, in order: number of the provide port and value. -/
def Endpoint.written (e : Endpoint H) : List (Act H) → List (Nat × PyVal)
  | [] => []
  | .write i v :: as =>
    match (e.write i v).2 with
    | .ok () => (i.toNat, v) :: (e.act (.write i v)).written as
    | _ => (e.act (.write i v)).written as
  | a :: as => (e.act a).written as

/-- What can happen to a client while a connection lasts, apart from commands of the server: the program
writes and reads ports, and data arrive. -/
def Act.Plain : Act H → Prop
  | .write _ _ => True
  | .read _ => True
  | .message msg => ∃ x data, x < Rmf.cmdStartAddr ∧ data ≠ [] ∧ DataFrame x data msg
  | _ => False

/-- A server that relays data messages: data for address `x` of the provider are sent to address `wire x`
of the reader, or nowhere. -/
inductive Relayed (wire : Int → Option Nat) : List (Msg H) → List Bytes → Prop
  | nil : Relayed wire [] []
  | sent {x data y frame ms fs} (h : wire x = some y) (hf : DataFrame y data frame) (t : Relayed wire ms fs) :
      Relayed wire (.writeData x data :: ms) (frame :: fs)
  | dropped {x data ms fs} (h : wire x = none) (t : Relayed wire ms fs) : Relayed wire (.writeData x data :: ms) fs
  | other {m ms fs} (h : ∀ x data, m ≠ .writeData x data) (t : Relayed wire ms fs) : Relayed wire (m :: ms) fs

/-- The server's wiring is that of the connected ports: where provide port `i` begins is wired to where
require port `conn i` begins in the file at address `a`, and to nothing if the port is not connected. -/
def Wired (nP nR : Node) (a : Nat) (conn : Nat → Option Nat) (wire : Int → Option Nat) : Prop :=
  ∀ i off, i < nP.provides.length → nP.PortStart .provide i off →
    match conn i with
    | none => wire off = none
    | some k => ∃ to, nR.PortStart .require k to ∧ wire off = some (a + to)

/-- Connected ports have the same type, which has no nested records and is not empty. -/
def SameType (nP nR : Node) (i k : Nat) (de : Elem) : Prop :=
  nP.PortType .provide i de ∧ nR.PortType .require k de ∧ de.LensOk ∧ de.NamesOk ∧ de.NoNested ∧
    ∃ len, de.packLen = .ok len ∧ 0 < len

end Apx
