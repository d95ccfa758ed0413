import Verif.Model.Py

/-! Model of /repo/numheader.py. -/

namespace Apx.NumHeader

/-- numheader.py:1-34 `_decode(data, mode, offset, end)`.
`offset` and `end` are non-negative (Python's negative indices are not
modelled; every caller in /repo passes non-negative values).  An `end` beyond the
buffer makes the subscript raise `IndexError` (1 byte) or the unpacking of a short
slice raise `ValueError` (3 bytes), as in Python. -/
def decode (data : Bytes) (mode : Nat) (offset : Nat) (end? : Option Nat) :
    Py (Nat × Option Nat) :=
  let e := end?.getD data.length
  if offset + 1 ≤ e then
    match data[offset]? with
    | none => .error .indexError
    | some b1 =>
      if b1.toNat &&& 0x80 ≠ 0 then
        let b1 := b1.toNat &&& 0x7F
        if mode = 16 then
          if offset + 2 ≤ e then
            match data[offset + 1]? with
            | none => .error .indexError
            | some b2 =>
              let value := (b1 <<< 8) ||| b2.toNat
              if value < 128 then .ok (2, some (value + 32768)) else .ok (2, some value)
          else .ok (0, none)
        else if mode = 32 then
          if offset + 4 ≤ e then
            match data[offset + 1]?, data[offset + 2]?, data[offset + 3]? with
            | some b2, some b3, some b4 =>
              .ok (4, some ((b1 <<< 24) ||| (b2.toNat <<< 16) ||| (b3.toNat <<< 8) ||| b4.toNat))
            | _, _, _ => .error .valueError
          else .ok (0, none)
        else .error .valueError
      else .ok (1, some b1.toNat)
  else .ok (0, none)

/-- numheader.py:36-42 `decode16`. -/
def decode16 (data : Bytes) (offset : Nat := 0) (end? : Option Nat := none) :=
  decode data 16 offset end?

/-- numheader.py:44-50 `decode32`. -/
def decode32 (data : Bytes) (offset : Nat := 0) (end? : Option Nat := none) :=
  decode data 32 offset end?

/-- numheader.py:53-78 `_encode(value, mode)`.  `value.toNat` is only used in
branches where the value is already known to be at least 128. -/
def encode (value : Int) (mode : Nat) : Py Bytes :=
  if value < 128 then mkBytes [value]
  else
    let v := value.toNat
    if mode = 16 then
      if value < 32768 then
        mkBytes [((0x80 ||| (v >>> 8) : Nat) : Int), ((v &&& 0xFF : Nat) : Int)]
      else if value < 32896 then
        mkBytes [0x80, (((v - 32768) &&& 0xFF : Nat) : Int)]
      else .error .valueError
    else if mode = 32 then
      if value < 2147483648 then
        mkBytes [((0x80 ||| ((v >>> 24) &&& 0xFF) : Nat) : Int), (((v >>> 16) &&& 0xFF : Nat) : Int),
          (((v >>> 8) &&& 0xFF : Nat) : Int), ((v &&& 0xFF : Nat) : Int)]
      else .error .valueError
    else .error .valueError

/-- numheader.py:81-87 `encode16`. -/
def encode16 (value : Int) : Py Bytes := encode value 16

/-- numheader.py:89-95 `encode32`. -/
def encode32 (value : Int) : Py Bytes := encode value 32

end Apx.NumHeader
