import Verif.Model.Connect

/-! What C74 and C75 speak about. -/

namespace Apx.Connect
open Manager

/-- The manager's thread runs. -/
def Sess.Working (s : Sess) : Prop := s.life.running = true ∧ s.ended = none

instance (s : Sess) : Decidable s.Working := inferInstanceAs (Decidable (_ ∧ _))

/-- Nothing of the client is left: no thread runs and no connection is open. -/
def Sess.Quiet (s : Sess) : Prop :=
  ¬s.Working ∧ ∀ a ∈ s.adapters, a.receiving = false ∧ (a.isConnected = true → a.opened = false)

instance (s : Sess) : Decidable s.Quiet := inferInstanceAs (Decidable (_ ∧ _))

/-- No connection was established. -/
def Unconnected (es : List Event) : Prop := Event.connect .accepted ∉ es

/-- What happens while a connection is used: anything but another attempt to connect, a call of
`stop`, and a reset of the connection. -/
def InUse (i : Nat) (es : List Event) : Prop :=
  (∀ o, Event.connect o ∉ es) ∧ (∀ j, Event.stop j ∉ es) ∧ Event.resets i ∉ es

/-- The frames sent on connection `i` after the greeting. -/
def Sess.frames (s : Sess) (i : Nat) : List Bytes :=
  match s.adapters[i]? with
  | some a => a.sent.drop 1
  | none => []

end Apx.Connect
