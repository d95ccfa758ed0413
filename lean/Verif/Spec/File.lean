import Verif.Model.File

/-! Specification of file contents, byte by byte (C19-C21). -/

namespace Apx.FileData

/-- A write request. -/
structure WriteReq where
  offset : Int
  data : Bytes
  deriving DecidableEq

/-- The request lies inside a file of `n` bytes. -/
def WriteReq.Fits (w : WriteReq) (n : Nat) : Prop := 0 ≤ w.offset ∧ w.offset + w.data.length ≤ n

instance (w : WriteReq) (n : Nat) : Decidable (w.Fits n) :=
  inferInstanceAs (Decidable (_ ∧ _))

/-- The request addresses byte `i`. -/
def WriteReq.Covers (w : WriteReq) (i : Nat) : Prop := w.offset ≤ i ∧ (i : Int) < w.offset + w.data.length

instance (w : WriteReq) (i : Nat) : Decidable (w.Covers i) :=
  inferInstanceAs (Decidable (_ ∧ _))

/-- Byte `i` of a file of `n` bytes after the requests `ws` (oldest first): the last accepted
request covering it decides, else its initial value `b`. -/
def expectedByte (n : Nat) (i : Nat) : List WriteReq → UInt8 → UInt8
  | [], b => b
  | w :: ws, b =>
    expectedByte n i ws
      (if w.Fits n ∧ w.Covers i then w.data.getD (i - w.offset.toNat) 0 else b)

/-- Execute requests in order with `File.write`. -/
def writeAll (f : FileData) : List WriteReq → FileData
  | [] => f
  | w :: ws => writeAll (f.write w.offset w.data).1 ws

/-- Execute requests with `InputFile.write`, each with its more bit; collect notifications. -/
def inputWriteAll (f : FileData) (hasHandler : Bool) : List (WriteReq × Bool) → FileData × List Notification
  | [] => (f, [])
  | (w, more) :: ws =>
    let r := f.inputWrite w.offset w.data more hasHandler
    let (f', ns) := inputWriteAll r.1 hasHandler ws
    (f', r.2.2.toList ++ ns)

/-- The fragments `ds` of one write starting at `offset`, with the more bit set on all but the
last. -/
def fragments (offset : Int) : List Bytes → List (WriteReq × Bool)
  | [] => []
  | [d] => [(⟨offset, d⟩, false)]
  | d :: ds => (⟨offset, d⟩, true) :: fragments (offset + d.length) ds

/-- Byte `i` is inside the range of some notification. -/
def Notified (ns : List Notification) (i : Int) : Prop := ∃ n ∈ ns, n.offset ≤ i ∧ i < n.offset + n.len

end Apx.FileData
