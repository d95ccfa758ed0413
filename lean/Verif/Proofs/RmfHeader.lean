import Verif.Model.RmfHeader
import Verif.Proofs.NumHeader

namespace Apx.Rmf
open NumHeader (mkBytes2 mkBytes4)

/-- First header byte flag for the more bit. -/
def moreFlag (m : Bool) : Nat := if m then 64 else 0

theorem moreFlag_le (m : Bool) : moreFlag m ≤ 64 := by cases m <;> decide

theorem orMore (b : Nat) (m : Bool) (h : b < 64) :
    (if m = true then b ||| 0x40 else b) = moreFlag m + b := by
  cases m
  · simp [moreFlag]
  · simp [moreFlag, or_0x40 b h]

theorem shr_int (a : Int) (k : Nat) : a >>> k = a / (2 ^ k : Nat) := Int.shiftRight_eq_div_pow a k

theorem packHeader_short (a : Int) (m : Bool) (h : a < 16384) :
    packHeader a m = .ok [UInt8.ofNat (moreFlag m + ((a / 256) % 64).toNat),
      UInt8.ofNat (a % 256).toNat] := by
  unfold packHeader
  rw [if_pos h]
  simp only [shr_int]
  rw [orMore _ _ (by omega)]
  have := moreFlag_le m
  have h1 : ((a / (2 ^ 8 : Nat)) % 64).toNat < 64 := by omega
  exact mkBytes2 _ _ (by omega) (by omega)

theorem packHeader_long (a : Nat) (m : Bool) (h : 16384 ≤ a) (h2 : a < 1073741824) :
    packHeader (a : Int) m = .ok [UInt8.ofNat (128 + (moreFlag m + a / 16777216)),
      UInt8.ofNat (a / 65536 % 256), UInt8.ofNat (a / 256 % 256), UInt8.ofNat (a % 256)] := by
  unfold packHeader
  rw [if_neg (by omega), if_pos (by omega)]
  simp only [shr_int]
  rw [orMore _ _ (by omega)]
  have hm := moreFlag_le m
  have e1 : ((a : Int) / (2 ^ 24 : Nat) % 64).toNat = a / 16777216 := by omega
  have e2 : ((a : Int) / (2 ^ 16 : Nat) % 256).toNat = a / 65536 % 256 := by omega
  have e3 : ((a : Int) / (2 ^ 8 : Nat) % 256).toNat = a / 256 % 256 := by omega
  have e4 : ((a : Int) % 256).toNat = a % 256 := by omega
  rw [e1, e2, e3, e4, or_0x80' _ (by omega)]
  exact mkBytes4 _ _ _ _ (by omega) (by omega) (by omega) (by omega)

theorem packHeader_reject (a : Int) (m : Bool) (h : 1073741824 ≤ a) :
    packHeader a m = .error .valueError := by
  unfold packHeader
  rw [if_neg (by omega), if_neg (by omega)]

theorem unpackHeader_short (b1 b2 : UInt8) (rest : Bytes) (h : b1.toNat < 128) :
    unpackHeader (b1 :: b2 :: rest)
      = (2, some (b1.toNat % 64 * 256 + b2.toNat), decide (64 ≤ b1.toNat)) := by
  unfold unpackHeader
  simp only
  rw [if_neg (by
    have := (and_0x80 b1.toNat).mpr (by omega)
    simpa using this)]
  rw [and_0x3F, shl8_or _ _ (u8_lt b2)]
  have h3 := and_0x40 b1.toNat
  have : (b1.toNat &&& 0x40 ≠ 0) ↔ 64 ≤ b1.toNat := by
    rw [ne_eq, h3]; omega
  simp only [this]

theorem unpackHeader_long (b1 b2 b3 b4 : UInt8) (rest : Bytes) (h : 128 ≤ b1.toNat)
    (hr : rest ≠ []) :
    unpackHeader (b1 :: b2 :: b3 :: b4 :: rest)
      = (4, some (b1.toNat % 64 * 16777216 + b2.toNat * 65536 + b3.toNat * 256 + b4.toNat),
          decide (192 ≤ b1.toNat)) := by
  unfold unpackHeader
  simp only
  have hb := u8_lt b1
  rw [if_pos (by
    intro h'
    have := (and_0x80 b1.toNat).mp h'
    omega)]
  have : rest.length ≠ 0 := by simpa using hr
  rw [if_pos (by simp; omega)]
  rw [and_0x3F, be32_or _ _ _ _ (u8_lt _) (u8_lt _) (u8_lt _)]
  have h3 := and_0x40 b1.toNat
  have : (b1.toNat &&& 0x40 ≠ 0) ↔ 192 ≤ b1.toNat := by
    rw [ne_eq, h3]; omega
  simp only [this]

theorem unpackHeader_incomplete (b1 b2 : UInt8) (rest : Bytes) (h : 128 ≤ b1.toNat)
    (hr : rest.length ≤ 2) :
    unpackHeader (b1 :: b2 :: rest) = (0, none, decide (192 ≤ b1.toNat)) := by
  unfold unpackHeader
  simp only
  have hb := u8_lt b1
  rw [if_pos (by
    intro h'
    have := (and_0x80 b1.toNat).mp h'
    omega)]
  rw [if_neg (by simp; omega)]
  have h3 := and_0x40 b1.toNat
  have : (b1.toNat &&& 0x40 ≠ 0) ↔ 192 ≤ b1.toNat := by
    rw [ne_eq, h3]; omega
  simp only [this]

end Apx.Rmf
