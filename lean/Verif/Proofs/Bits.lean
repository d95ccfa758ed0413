import Verif.Model.Py

/-! Helper lemmas: bit operations on small naturals, turned into arithmetic. -/

namespace Apx

theorem and_0xFF (n : Nat) : n &&& 0xFF = n % 256 := Nat.and_two_pow_sub_one_eq_mod n 8
theorem and_0x7F (n : Nat) : n &&& 0x7F = n % 128 := Nat.and_two_pow_sub_one_eq_mod n 7
theorem and_0x3F (n : Nat) : n &&& 0x3F = n % 64 := Nat.and_two_pow_sub_one_eq_mod n 6

theorem and_two_pow_eq_zero (n i : Nat) : (n &&& 2 ^ i = 0) ↔ n / 2 ^ i % 2 = 0 := by
  constructor
  · intro h
    have h1 : (n &&& 2 ^ i).testBit i = false := by rw [h]; simp
    rw [Nat.testBit_and, Nat.testBit_two_pow_self, Bool.and_true] at h1
    have := Nat.testBit_eq_decide_div_mod_eq (x := n) (i := i)
    rw [h1] at this
    have h2 : ¬ (n / 2 ^ i % 2 = 1) := by simpa using this
    omega
  · intro h
    apply Nat.eq_of_testBit_eq
    intro j
    rw [Nat.testBit_and, Nat.testBit_two_pow, Nat.zero_testBit]
    by_cases hj : i = j
    · subst hj
      have := Nat.testBit_eq_decide_div_mod_eq (x := n) (i := i)
      rw [this]; simp; omega
    · simp [hj]

theorem and_0x80 (n : Nat) : (n &&& 0x80 = 0) ↔ n / 128 % 2 = 0 := and_two_pow_eq_zero n 7
theorem and_0x40 (n : Nat) : (n &&& 0x40 = 0) ↔ n / 64 % 2 = 0 := and_two_pow_eq_zero n 6

theorem or_0x80 (n : Nat) (h : n < 128) : 0x80 ||| n = 128 + n := by
  have := Nat.two_pow_add_eq_or_of_lt (i := 7) h 1
  simpa using this.symm

theorem or_0x80' (n : Nat) (h : n < 128) : n ||| 0x80 = 128 + n := by
  rw [Nat.or_comm]; exact or_0x80 n h

theorem or_0x40 (n : Nat) (h : n < 64) : n ||| 0x40 = 64 + n := by
  have := Nat.two_pow_add_eq_or_of_lt (i := 6) h 1
  rw [Nat.or_comm]; simpa using this.symm

theorem shl8_or (a b : Nat) (h : b < 256) : (a <<< 8) ||| b = a * 256 + b := by
  have := Nat.shiftLeft_add_eq_or_of_lt (i := 8) h a
  rw [← this, Nat.shiftLeft_eq]

theorem shl16_or (a b : Nat) (h : b < 65536) : (a <<< 16) ||| b = a * 65536 + b := by
  have := Nat.shiftLeft_add_eq_or_of_lt (i := 16) h a
  rw [← this, Nat.shiftLeft_eq]

theorem shl24_or (a b : Nat) (h : b < 16777216) : (a <<< 24) ||| b = a * 16777216 + b := by
  have := Nat.shiftLeft_add_eq_or_of_lt (i := 24) h a
  rw [← this, Nat.shiftLeft_eq]

theorem be32_or (a b c d : Nat) (hb : b < 256) (hc : c < 256) (hd : d < 256) :
    ((a <<< 24) ||| (b <<< 16) ||| (c <<< 8) ||| d)
      = a * 16777216 + b * 65536 + c * 256 + d := by
  rw [Nat.or_assoc, Nat.or_assoc, shl8_or c d hd, shl16_or b _ (by omega), shl24_or a _ (by omega)]
  omega

theorem le32_or (a b c d : Nat) (ha : a < 256) (hb : b < 256) (hc : c < 256) :
    (a ||| (b <<< 8) ||| (c <<< 16) ||| (d <<< 24))
      = a + b * 256 + c * 65536 + d * 16777216 := by
  rw [Nat.or_comm a, shl8_or b a ha, Nat.or_comm _ (c <<< 16), shl16_or c _ (by omega),
    Nat.or_comm _ (d <<< 24), shl24_or d _ (by omega)]
  omega

theorem le16_or (a b : Nat) (ha : a < 256) : (a ||| (b <<< 8)) = a + b * 256 := by
  rw [Nat.or_comm a, shl8_or b a ha]; omega

theorem mkByte_ofNat {n : Nat} (h : n < 256) : mkByte (n : Int) = .ok (UInt8.ofNat n) := by
  unfold mkByte
  rw [if_pos (by omega)]; simp

theorem UInt8.toNat_ofNat_lt {n : Nat} (h : n < 256) : (UInt8.ofNat n).toNat = n := by
  simp; omega

theorem u8_lt (b : UInt8) : b.toNat < 256 := b.toNat_lt

theorem u8_ext {a b : UInt8} (h : a.toNat = b.toNat) : a = b := UInt8.toNat_inj.mp h

theorem u8_ofNat_eq {n : Nat} {b : UInt8} (h : b.toNat = n) : UInt8.ofNat n = b := by
  subst h; simp

end Apx
