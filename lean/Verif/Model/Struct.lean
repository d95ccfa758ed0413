import Verif.Model.Py

/-!
CPython library behaviour: the parts of the `struct` module and of the text codecs used by /repo.
No code of /repo is modelled here.
-/

namespace Apx

/-- `n` little-endian bytes of `v` (reduced modulo `256^n`). -/
def leBytes : Nat → Nat → Bytes
  | 0, _ => []
  | n + 1, v => UInt8.ofNat (v % 256) :: leBytes n (v / 256)

/-- Value of little-endian bytes. -/
def leNat : Bytes → Nat
  | [] => 0
  | b :: bs => b.toNat + 256 * leNat bs

/-- Bytes in the order selected by the format character `'<'` or `'>'`.
(Any character other than `'>'` is little-endian here; callers check first.) -/
def ordered (bo : Char) (bs : Bytes) : Bytes := if bo = '>' then bs.reverse else bs

/-- `struct.pack` of one unsigned integer of `n` bytes (`B`, `H`, `I`): `struct.error` when the
value does not fit. -/
def packUInt (bo : Char) (n : Nat) (v : Int) : Py Bytes :=
  if 0 ≤ v ∧ v < (256 ^ n : Nat) then .ok (ordered bo (leBytes n v.toNat)) else .error .structError

/-- `struct.unpack` of one unsigned integer from exactly its bytes. -/
def unpackUInt (bo : Char) (bs : Bytes) : Nat := leNat (ordered bo bs)

/-- `struct.pack` of `<n>s`: truncated or padded with zero bytes to `n`. -/
def packS (n : Nat) (bs : Bytes) : Bytes := bs.take n ++ List.replicate (n - bs.length) 0

/-- `bytes(s, encoding='ascii')`. -/
def asciiEncode : Str → Py Bytes
  | [] => .ok []
  | c :: cs =>
    if c.toNat < 128 then do
      let bs ← asciiEncode cs
      .ok (UInt8.ofNat c.toNat :: bs)
    else .error .unicodeError

/-- `s.encode('utf-8')`. -/
def utf8Encode (s : Str) : Bytes := s.flatMap String.utf8EncodeChar

/-- `b.decode('utf-8')`. -/
def utf8Decode (b : Bytes) : Py Str :=
  match b.toByteArray.utf8Decode? with
  | some cs => .ok cs.toList
  | none => .error .unicodeError

end Apx
