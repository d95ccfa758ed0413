import Verif.Model.NumHeader
import Verif.Proofs.Bits

/-! Helper lemmas about numheader: arithmetic normal forms. -/

namespace Apx.NumHeader

theorem encode_small (v : Nat) (mode : Nat) (h : v < 128) :
    encode (v : Int) mode = .ok [UInt8.ofNat v] := by
  unfold encode
  rw [if_pos (by omega)]
  simp [mkBytes, mkByte_ofNat (show v < 256 by omega), bind, Except.bind]

theorem encode_neg (v : Int) (mode : Nat) (h : v < 0) : encode v mode = .error .valueError := by
  unfold encode
  rw [if_pos (by omega)]
  have : mkByte v = .error .valueError := by
    unfold mkByte; rw [if_neg (by omega)]
  simp [mkBytes, this, bind, Except.bind]

theorem mkBytes2 (a b : Nat) (ha : a < 256) (hb : b < 256) :
    mkBytes [(a : Int), (b : Int)] = .ok [UInt8.ofNat a, UInt8.ofNat b] := by
  simp [mkBytes, mkByte_ofNat ha, mkByte_ofNat hb, bind, Except.bind]

theorem mkBytes4 (a b c d : Nat) (ha : a < 256) (hb : b < 256) (hc : c < 256) (hd : d < 256) :
    mkBytes [(a : Int), (b : Int), (c : Int), (d : Int)]
      = .ok [UInt8.ofNat a, UInt8.ofNat b, UInt8.ofNat c, UInt8.ofNat d] := by
  simp [mkBytes, mkByte_ofNat ha, mkByte_ofNat hb, mkByte_ofNat hc, mkByte_ofNat hd, bind,
    Except.bind]

theorem encode16_mid (v : Nat) (h : 128 ≤ v) (h2 : v < 32768) :
    encode (v : Int) 16 = .ok [UInt8.ofNat (128 + v / 256), UInt8.ofNat (v % 256)] := by
  unfold encode
  rw [if_neg (by omega)]
  simp only [Int.toNat_natCast, if_true]
  rw [if_pos (by omega)]
  rw [and_0xFF, Nat.shiftRight_eq_div_pow, or_0x80 _ (by omega)]
  exact mkBytes2 _ _ (by omega) (by omega)

theorem encode16_high (v : Nat) (h : 32768 ≤ v) (h2 : v < 32896) :
    encode (v : Int) 16 = .ok [UInt8.ofNat 128, UInt8.ofNat (v - 32768)] := by
  unfold encode
  rw [if_neg (by omega)]
  simp only [Int.toNat_natCast, if_true]
  rw [if_neg (by omega), if_pos (by omega), and_0xFF, Nat.mod_eq_of_lt (by omega)]
  exact mkBytes2 128 _ (by omega) (by omega)

theorem encode16_reject (v : Int) (h : 32896 ≤ v) : encode v 16 = .error .valueError := by
  unfold encode
  rw [if_neg (by omega)]
  simp only [if_true]
  rw [if_neg (by omega), if_neg (by omega)]

theorem encode32_long (v : Nat) (h : 128 ≤ v) (h2 : v < 2147483648) :
    encode (v : Int) 32 = .ok [UInt8.ofNat (128 + v / 16777216), UInt8.ofNat (v / 65536 % 256),
      UInt8.ofNat (v / 256 % 256), UInt8.ofNat (v % 256)] := by
  unfold encode
  rw [if_neg (by omega)]
  simp only [Int.toNat_natCast]
  rw [if_neg (by omega), if_pos trivial, if_pos (by omega)]
  simp only [and_0xFF, Nat.shiftRight_eq_div_pow]
  rw [Nat.mod_eq_of_lt (show v / 2 ^ 24 < 256 by omega), or_0x80 _ (by omega)]
  exact mkBytes4 _ _ _ _ (by omega) (by omega) (by omega) (by omega)

theorem encode32_reject (v : Int) (h : 2147483648 ≤ v) : encode v 32 = .error .valueError := by
  unfold encode
  rw [if_neg (by omega)]
  simp only
  rw [if_neg (by omega), if_pos trivial, if_neg (by omega)]

/-- `decode` in arithmetic form. -/
theorem decode_short (data : Bytes) (mode o e : Nat) (b : UInt8) (he : o + 1 ≤ e)
    (hb : data[o]? = some b) (hlt : b.toNat < 128) :
    decode data mode o (some e) = .ok (1, some b.toNat) := by
  unfold decode
  simp only [Option.getD_some]
  rw [if_pos he, hb]
  simp only
  rw [if_neg]
  have := and_0x80 b.toNat
  have h2 : b.toNat / 128 % 2 = 0 := by omega
  simp [this.mpr h2]

theorem and80_ne (b : UInt8) (h : 128 ≤ b.toNat) : b.toNat &&& 0x80 ≠ 0 := by
  intro h'
  have := (and_0x80 b.toNat).mp h'
  have := u8_lt b
  omega

theorem decode_none (data : Bytes) (mode o e : Nat) (he : ¬ o + 1 ≤ e) :
    decode data mode o (some e) = .ok (0, none) := by
  unfold decode
  simp only [Option.getD_some]
  rw [if_neg he]

theorem decode16_wait (data : Bytes) (o e : Nat) (b : UInt8) (he : o + 1 ≤ e)
    (hb : data[o]? = some b) (hge : 128 ≤ b.toNat) (he2 : ¬ o + 2 ≤ e) :
    decode data 16 o (some e) = .ok (0, none) := by
  unfold decode
  simp only [Option.getD_some]
  rw [if_pos he, hb]
  simp only
  rw [if_pos (and80_ne b hge), if_pos trivial, if_neg he2]

theorem decode16_long (data : Bytes) (o e : Nat) (b b2 : UInt8) (he : o + 2 ≤ e)
    (hb : data[o]? = some b) (hge : 128 ≤ b.toNat) (hb2 : data[o + 1]? = some b2) :
    decode data 16 o (some e) = .ok (2, some
      (if (b.toNat - 128) * 256 + b2.toNat < 128
       then (b.toNat - 128) * 256 + b2.toNat + 32768 else (b.toNat - 128) * 256 + b2.toNat)) := by
  unfold decode
  simp only [Option.getD_some]
  rw [if_pos (by omega), hb]
  simp only
  rw [if_pos (and80_ne b hge), if_pos trivial, if_pos he, hb2]
  simp only
  rw [and_0x7F, shl8_or _ _ (u8_lt b2)]
  have := u8_lt b
  have h3 : b.toNat % 128 = b.toNat - 128 := by omega
  rw [h3]
  split <;> rfl

theorem decode32_wait (data : Bytes) (o e : Nat) (b : UInt8) (he : o + 1 ≤ e)
    (hb : data[o]? = some b) (hge : 128 ≤ b.toNat) (he2 : ¬ o + 4 ≤ e) :
    decode data 32 o (some e) = .ok (0, none) := by
  unfold decode
  simp only [Option.getD_some]
  rw [if_pos he, hb]
  simp only
  rw [if_pos (and80_ne b hge), if_neg (by omega), if_pos trivial, if_neg he2]

theorem decode32_long (data : Bytes) (o e : Nat) (b b2 b3 b4 : UInt8) (he : o + 4 ≤ e)
    (hb : data[o]? = some b) (hge : 128 ≤ b.toNat) (hb2 : data[o + 1]? = some b2)
    (hb3 : data[o + 2]? = some b3) (hb4 : data[o + 3]? = some b4) :
    decode data 32 o (some e) = .ok (4, some
      ((b.toNat - 128) * 16777216 + b2.toNat * 65536 + b3.toNat * 256 + b4.toNat)) := by
  unfold decode
  simp only [Option.getD_some]
  rw [if_pos (by omega), hb]
  simp only
  rw [if_pos (and80_ne b hge), if_neg (by omega), if_pos trivial, if_pos he, hb2, hb3, hb4]
  simp only
  rw [and_0x7F, be32_or _ _ _ _ (u8_lt _) (u8_lt _) (u8_lt _)]
  have := u8_lt b
  have h3 : b.toNat % 128 = b.toNat - 128 := by omega
  rw [h3]

theorem decode_end_none (data : Bytes) (mode o : Nat) :
    decode data mode o none = decode data mode o (some data.length) := rfl

theorem getElem?_mid (pre bs rest : Bytes) (i : Nat) (h : i < bs.length) :
    (pre ++ bs ++ rest)[pre.length + i]? = bs[i]? := by
  rw [List.append_assoc, List.getElem?_append_right (by omega), Nat.add_sub_cancel_left,
    List.getElem?_append_left h]

end Apx.NumHeader
