import Verif.Model.Py

/-! Model of /repo/apx/file.py. -/

namespace Apx

/-- apx/file.py:25-33: the content of an `apx.File`.  (Name, address and identity are in
`FileEnt`; `dataLock` is held only around one slice access and is always released, so each
read and write of the content is atomic.) -/
structure FileData where
  data : Bytes
  deriving DecidableEq, Repr

namespace FileData

/-- apx/file.py:25-33 `__init__`: a negative length makes `bytearray(length)` raise. -/
def create (length : Int) (initData : Option Bytes := none) : Py FileData :=
  if length < 0 then .error .valueError
  else
    match initData with
    | none => .ok ⟨List.replicate length.toNat 0⟩
    | some d => if (d.length : Int) ≠ length then .error .valueError else .ok ⟨d⟩

/-- `data[a:b]` on a Python sequence for `0 ≤ a` and any `b` (a negative `b` counts from the
end). -/
def slice (data : Bytes) (a b : Int) : Bytes :=
  let b' := if b < 0 then max 0 (b + data.length) else b
  (data.drop a.toNat).take (b' - a).toNat

/-- apx/file.py:35-45 `read(offset, length)`; `none` is `None`. -/
def read (f : FileData) (offset length : Int) : Option Bytes :=
  if offset < 0 ∨ offset + length > f.data.length then none
  else some (slice f.data offset (offset + length))

/-- apx/file.py:48-59 `write(offset, data)`: the new content and the return value.  The slice
assignment replaces `len(data)` bytes by as many. -/
def write (f : FileData) (offset : Int) (data : Bytes) : FileData × Int :=
  if offset < 0 ∨ offset + data.length > f.data.length then (f, -1)
  else
    let o := offset.toNat
    (⟨f.data.take o ++ data ++ f.data.drop (o + data.length)⟩, data.length)

/-- A call of `nodeDataHandler.inPortDataWriteNotify(file, offset, len)`: the file content the
handler sees when it is called, and the arguments. -/
structure Notification where
  content : FileData
  offset : Int
  len : Nat
  deriving DecidableEq, Repr

/-- apx/file.py:70-75 `InputFile.write(offset, data, more_bit)`: content, return value, and the
notification if one is made (`hasHandler`: `nodeDataHandler is not None`). -/
def inputWrite (f : FileData) (offset : Int) (data : Bytes) (moreBit : Bool := false)
    (hasHandler : Bool := true) : FileData × Int × Option Notification :=
  let (f', retval) := f.write offset data
  (f', retval,
    if retval ≥ 0 ∧ moreBit = false then
      if hasHandler then some ⟨f', offset, data.length⟩ else none
    else none)

/-- apx/file.py:85-89 `OutputFile.write(offset, data)`: content, return value, and the call
`outPortDataWriteNotify(self, offset, len(data))` if one is made. -/
def outputWrite (f : FileData) (offset : Int) (data : Bytes) (hasManager isOpen : Bool) :
    FileData × Int × Option (Int × Nat) :=
  let (f', retval) := f.write offset data
  (f', retval, if retval ≥ 0 ∧ hasManager = true ∧ isOpen = true then some (offset, data.length) else none)

end FileData
end Apx
