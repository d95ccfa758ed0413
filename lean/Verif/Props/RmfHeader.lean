import Verif.Proofs.RmfHeader

/-! C05, C06: the RemoteFile message header. -/

namespace Apx.Rmf

/-- C05 (exact behaviour): the header of every valid address is read back together with the more
bit from any message, *except* that a four-byte header directly followed by the end of the
message is not recognised. -/
theorem C05_header_roundtrip_exact (a : Nat) (m : Bool) (ha : a < 1073741824) :
    ∃ hdr : Bytes, packHeader a m = .ok hdr ∧ ∀ payload : Bytes,
      unpackHeader (hdr ++ payload) =
        if 16384 ≤ a ∧ payload = [] then (0, none, m) else (hdr.length, some a, m) := by
  have hm := moreFlag_le m
  by_cases hs : a < 16384
  · refine ⟨_, packHeader_short a m (by omega), fun payload => ?_⟩
    rw [if_neg (by omega)]
    have e1 : ((a : Int) / 256 % 64).toNat = a / 256 := by omega
    have e2 : ((a : Int) % 256).toNat = a % 256 := by omega
    rw [e1, e2]
    have t1 := UInt8.toNat_ofNat_lt (n := moreFlag m + a / 256) (by omega)
    have t2 := UInt8.toNat_ofNat_lt (n := a % 256) (by omega)
    simp only [List.cons_append, List.nil_append]
    rw [unpackHeader_short _ _ _ (by
      rw [t1]
      have : moreFlag m + a / 256 < 128 := by
        have : a / 256 < 64 := by omega
        omega
      exact this), t1, t2]
    cases m
    · simp only [moreFlag] at *
      simp; omega
    · simp only [moreFlag] at *
      simp; omega
  · refine ⟨_, packHeader_long a m (by omega) ha, fun payload => ?_⟩
    have t1 := UInt8.toNat_ofNat_lt (n := 128 + (moreFlag m + a / 16777216)) (by omega)
    have t2 := UInt8.toNat_ofNat_lt (n := a / 65536 % 256) (by omega)
    have t3 := UInt8.toNat_ofNat_lt (n := a / 256 % 256) (by omega)
    have t4 := UInt8.toNat_ofNat_lt (n := a % 256) (by omega)
    simp only [List.cons_append, List.nil_append]
    have hmore : decide (192 ≤ 128 + (moreFlag m + a / 16777216)) = m := by
      cases m <;> simp [moreFlag] <;> omega
    by_cases hp : payload = []
    · subst hp
      rw [if_pos ⟨by omega, rfl⟩, unpackHeader_incomplete _ _ _ (by omega) (by simp), t1, hmore]
    · rw [if_neg (by simp [hp]), unpackHeader_long _ _ _ _ _ (by omega) hp, t1, t2, t3, t4, hmore]
      simp only [List.length_cons, List.length_nil, Prod.mk.injEq, and_true, true_and,
        Option.some.injEq]
      cases m <;> simp only [moreFlag] <;> simp <;> omega

/-- C05, the part that holds: for every valid address, more bit and *non-empty* payload the header
is read back exactly.  Missing from the full property: empty payloads after four-byte headers. -/
theorem C05_header_roundtrip_partial (a : Nat) (m : Bool) (ha : a < 1073741824)
    (payload : Bytes) (hp : payload ≠ [] ∨ a < 16384) :
    ∃ hdr : Bytes, packHeader a m = .ok hdr ∧
      unpackHeader (hdr ++ payload) = (hdr.length, some a, m) := by
  obtain ⟨hdr, h1, h2⟩ := C05_header_roundtrip_exact a m ha
  refine ⟨hdr, h1, ?_⟩
  rw [h2, if_neg]
  rcases hp with hp | hp
  · simp [hp]
  · omega

example : packHeader 20000 true = .ok [0xC0, 0, 78, 32] ∧
    unpackHeader ([0xC0, 0, 78, 32] ++ [1]) = (4, some 20000, true) := by decide

/-- C05, violation: the full round-trip claim is false of the code, for *every* address from
16384 on: with an empty payload nothing is parsed. -/
theorem C05_header_roundtrip_violated (a : Nat) (m : Bool) (h : 16384 ≤ a) (ha : a < 1073741824) :
    ∃ hdr : Bytes, packHeader a m = .ok hdr ∧ unpackHeader (hdr ++ []) = (0, none, m) := by
  obtain ⟨hdr, h1, h2⟩ := C05_header_roundtrip_exact a m ha
  exact ⟨hdr, h1, by rw [h2, if_pos ⟨h, rfl⟩]⟩

example : packHeader 16384 false = .ok [0x80, 0, 64, 0] ∧
    unpackHeader [0x80, 0, 64, 0] = (0, none, false) := by decide

/-- C06: an error is raised exactly for addresses of 2^30 and above, and it is `ValueError`; the
header is 2 bytes below 16384 and 4 bytes from there on. -/
theorem C06_header_length (a : Int) (m : Bool) :
    (a < 16384 → ∃ b1 b2, packHeader a m = .ok [b1, b2]) ∧
    (16384 ≤ a → a < 1073741824 → ∃ b1 b2 b3 b4, packHeader a m = .ok [b1, b2, b3, b4]) ∧
    (1073741824 ≤ a → packHeader a m = .error .valueError) := by
  refine ⟨fun h => ⟨_, _, packHeader_short a m h⟩, fun h h2 => ?_, packHeader_reject a m⟩
  obtain ⟨n, rfl⟩ := Int.eq_ofNat_of_zero_le (by omega : 0 ≤ a)
  exact ⟨_, _, _, _, packHeader_long n m (by omega) (by omega)⟩

/-- C06: a header determines address and more bit, even when followed by different data
(no header is a prefix of another one). -/
theorem C06_header_unambiguous (a b : Nat) (m k : Bool) (ha : a < 1073741824)
    (hb : b < 1073741824) (hdr hdr' p q : Bytes)
    (h1 : packHeader a m = .ok hdr) (h2 : packHeader b k = .ok hdr')
    (heq : hdr ++ p = hdr' ++ q) : a = b ∧ m = k ∧ p = q := by
  obtain ⟨d1, e1, f1⟩ := C05_header_roundtrip_exact a m ha
  obtain ⟨d2, e2, f2⟩ := C05_header_roundtrip_exact b k hb
  rw [h1] at e1; injection e1 with e1; subst e1
  rw [h2] at e2; injection e2 with e2; subst e2
  have g1 := f1 (p ++ [0])
  have g2 := f2 (q ++ [0])
  rw [if_neg (by simp)] at g1 g2
  rw [← List.append_assoc, heq, List.append_assoc, g2] at g1
  simp only [Prod.mk.injEq, Option.some.injEq] at g1
  refine ⟨g1.2.1.symm, g1.2.2.symm, ?_⟩
  exact (List.append_inj heq g1.1.symm).2

/-- Outside the domain the property quantifies over: a negative address is silently wrapped
instead of being rejected. -/
example : packHeader (-1) false = .ok [0x3F, 0xFF] := by decide

end Apx.Rmf
