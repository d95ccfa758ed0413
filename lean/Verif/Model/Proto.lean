import Verif.Model.Py

/-! The function of remotefile/proto.py. -/

namespace Apx

/-- The loop of `readLine`: `i` is the next position, the last argument the number of positions left.
/repo/remotefile/proto.py:3-6. -/
def readLineLoop (buf : Bytes) (start : Nat) : Nat → Nat → Py Nat
  | _, 0 => .ok start
  | i, n + 1 =>
    match buf[i]? with
    | none => .error .indexError
    | some c => if c = 10 then .ok i else readLineLoop buf start (i + 1) n

/-- `readLine(buf, iBegin, iEnd)` for positions that are not negative. /repo/remotefile/proto.py:2-6. -/
def readLine (buf : Bytes) (iBegin iEnd : Nat) : Py Nat := readLineLoop buf iBegin iBegin (iEnd - iBegin)

end Apx
