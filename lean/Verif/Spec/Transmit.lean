import Verif.Model.Transmit
import Verif.Spec.Stream

/-! Specification vocabulary for connections that break (C93). -/

namespace Apx.Socket

/-- What the handler is told when these messages, the first of them the acknowledge, have arrived. -/
def told : List Bytes → List Event
  | [] => []
  | _ :: ms => .connected :: ms.map .msg

/-- The peer has received exactly the first of the messages, completely, and the beginning `u` of the next. -/
def Received (messages : List Bytes) (bytes : Bytes) (record : List Event) (u : Bytes) : Prop :=
  ∃ done rest d, messages = done ++ rest ∧ sendAll done = .ok d ∧ bytes = d ++ u ∧ record = told done ∧
    match rest with
    | [] => u = []
    | m :: _ => ∃ f, send m = .ok f ∧ u <+: f ∧ u ≠ f

/-- The operating system took all of the message. -/
def Whole (x : Bytes × Nat) : Prop := ∀ f, send x.1 = .ok f → f.length ≤ x.2

end Apx.Socket
