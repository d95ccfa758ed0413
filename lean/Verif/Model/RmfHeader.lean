import Verif.Model.Py

/-! Model of the message header codec in /repo/remotefile/__init__.py. -/

namespace Apx.Rmf

/-- remotefile/__init__.py:10 `RMF_CMD_START_ADDR`. -/
def cmdStartAddr : Nat := 0x3FFFFC00

/-- remotefile/__init__.py:38-64 `unpackHeader(data)`: `(bytes_parsed, address, more_bit)`.
`(i+1) < len(data)` with `i = 0` means at least 2 bytes; `(i+2) < len(data)` with `i = 2`
means at least 5 bytes.  Pattern matching on the list replaces the slices. -/
def unpackHeader (data : Bytes) : Nat × Option Nat × Bool :=
  match data with
  | b1 :: b2 :: rest =>
    let moreBit := b1.toNat &&& 0x40 ≠ 0
    if b1.toNat &&& 0x80 ≠ 0 then
      if 2 + 2 < data.length then
        match rest with
        | b3 :: b4 :: _ =>
          (4, some (((b1.toNat &&& 0x3F) <<< 24) ||| (b2.toNat <<< 16) ||| (b3.toNat <<< 8)
            ||| b4.toNat), moreBit)
        | _ => (0, none, moreBit)  -- unreachable: the length test above
      else (0, none, moreBit)
    else (2, some (((b1.toNat &&& 0x3F) <<< 8) ||| b2.toNat), moreBit)
  | _ => (0, none, false)

/-- remotefile/__init__.py:67-86 `packHeader(address, more_bit)`.  `address` is any Python
integer; `x & 0x3F` and `x & 0xFF` on Python's (two's complement, unbounded) integers are
written `x % 64` and `x % 256`. -/
def packHeader (address : Int) (moreBit : Bool := false) : Py Bytes :=
  if address < 16384 then
    let b1 := ((address >>> 8) % 64).toNat
    let b2 := (address % 256).toNat
    let b1 := if moreBit then b1 ||| 0x40 else b1
    mkBytes [(b1 : Int), (b2 : Int)]
  else if address < 1073741824 then
    let b1 := ((address >>> 24) % 64).toNat
    let b2 := ((address >>> 16) % 256).toNat
    let b3 := ((address >>> 8) % 256).toNat
    let b4 := (address % 256).toNat
    let b1 := if moreBit then b1 ||| 0x40 else b1
    mkBytes [((b1 ||| 0x80 : Nat) : Int), (b2 : Int), (b3 : Int), (b4 : Int)]
  else .error .valueError

end Apx.Rmf
