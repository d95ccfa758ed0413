import Verif.Model.Socket

/-!
Sending when the operating system takes less than it is given: /repo/remotefile/socket_adapter.py:81-86.
`socket.send` returns how many bytes it has taken; the result is not looked at.
-/

namespace Apx.Socket

/-- `send(data)`: the bytes that go out if `socket.send` takes at most `taken` bytes of what it is given.
/repo/remotefile/socket_adapter.py:81-86. -/
def transmit (data : Bytes) (taken : Nat) : Py Bytes := do
  let frame ← send data
  .ok (frame.take taken)

/-- One call after the other: what goes out. -/
def transmitAll : List (Bytes × Nat) → Py Bytes
  | [] => .ok []
  | (data, taken) :: rest => do
    let f ← transmit data taken
    let fs ← transmitAll rest
    .ok (f ++ fs)

end Apx.Socket
