import Verif.Proofs.NumHeader

/-! C01-C04: the NumHeader integer encoding. -/

namespace Apx.NumHeader

/-- C01: every integer in 0..32895 encodes, and decoding the encoding embedded anywhere in a
buffer returns the integer and the exact number of bytes. -/
theorem C01_numheader16_roundtrip (v : Int) (h0 : 0 ≤ v) (h1 : v < 32896) :
    ∃ bs : Bytes, encode16 v = .ok bs ∧ ∀ pre rest : Bytes,
      decode16 (pre ++ bs ++ rest) pre.length none = .ok (bs.length, some v.toNat) := by
  obtain ⟨n, rfl⟩ := Int.eq_ofNat_of_zero_le h0
  simp only [Int.toNat_natCast]
  by_cases hs : n < 128
  · refine ⟨_, encode_small n 16 hs, fun pre rest => ?_⟩
    have h := decode_short (pre ++ [UInt8.ofNat n] ++ rest) 16 pre.length
      (pre ++ [UInt8.ofNat n] ++ rest).length (UInt8.ofNat n) (by simp <;> omega)
      (by simp) (by rw [UInt8.toNat_ofNat_lt] <;> omega)
    rw [UInt8.toNat_ofNat_lt (by omega)] at h
    exact h
  · by_cases hm : n < 32768
    · refine ⟨_, encode16_mid n (by omega) hm, fun pre rest => ?_⟩
      have h := decode16_long
        (pre ++ [UInt8.ofNat (128 + n / 256), UInt8.ofNat (n % 256)] ++ rest) pre.length
        (pre ++ [UInt8.ofNat (128 + n / 256), UInt8.ofNat (n % 256)] ++ rest).length
        (UInt8.ofNat (128 + n / 256)) (UInt8.ofNat (n % 256)) (by simp <;> omega) (by simp)
        (by rw [UInt8.toNat_ofNat_lt] <;> omega) (getElem?_mid _ _ _ 1 (by simp))
      rw [UInt8.toNat_ofNat_lt (by omega), UInt8.toNat_ofNat_lt (by omega)] at h
      rw [show (128 + n / 256 - 128) * 256 + n % 256 = n by omega, if_neg (by omega)] at h
      exact h
    · refine ⟨_, encode16_high n (by omega) (by omega), fun pre rest => ?_⟩
      have h := decode16_long
        (pre ++ [UInt8.ofNat 128, UInt8.ofNat (n - 32768)] ++ rest) pre.length
        (pre ++ [UInt8.ofNat 128, UInt8.ofNat (n - 32768)] ++ rest).length
        (UInt8.ofNat 128) (UInt8.ofNat (n - 32768)) (by simp <;> omega) (by simp)
        (by decide) (getElem?_mid _ _ _ 1 (by simp))
      rw [UInt8.toNat_ofNat_lt (by omega), UInt8.toNat_ofNat_lt (by omega)] at h
      rw [if_pos (by omega), show (128 - 128) * 256 + (n - 32768) + 32768 = n by omega] at h
      exact h

/-- C01: every other integer is rejected with `ValueError`. -/
theorem C01_numheader16_rejects (v : Int) (h : v < 0 ∨ 32896 ≤ v) :
    encode16 v = .error .valueError := by
  rcases h with h | h
  · exact encode_neg v 16 h
  · exact encode16_reject v h

example : encode16 32800 = .ok [0x80, 32] ∧ decode16 [7, 0x80, 32, 9] 1 = .ok (2, some 32800) := by
  decide

/-- C02: every integer in 0..2^31-1 encodes, and decoding the encoding embedded anywhere in a
buffer returns the integer and the exact number of bytes. -/
theorem C02_numheader32_roundtrip (v : Int) (h0 : 0 ≤ v) (h1 : v < 2147483648) :
    ∃ bs : Bytes, encode32 v = .ok bs ∧ ∀ pre rest : Bytes,
      decode32 (pre ++ bs ++ rest) pre.length none = .ok (bs.length, some v.toNat) := by
  obtain ⟨n, rfl⟩ := Int.eq_ofNat_of_zero_le h0
  simp only [Int.toNat_natCast]
  by_cases hs : n < 128
  · refine ⟨_, encode_small n 32 hs, fun pre rest => ?_⟩
    have h := decode_short (pre ++ [UInt8.ofNat n] ++ rest) 32 pre.length
      (pre ++ [UInt8.ofNat n] ++ rest).length (UInt8.ofNat n) (by simp <;> omega)
      (by simp) (by rw [UInt8.toNat_ofNat_lt] <;> omega)
    rw [UInt8.toNat_ofNat_lt (by omega)] at h
    exact h
  · refine ⟨_, encode32_long n (by omega) (by omega), fun pre rest => ?_⟩
    have h := decode32_long
      (pre ++ [UInt8.ofNat (128 + n / 16777216), UInt8.ofNat (n / 65536 % 256),
        UInt8.ofNat (n / 256 % 256), UInt8.ofNat (n % 256)] ++ rest) pre.length
      (UInt8.ofNat (128 + n / 16777216)) (UInt8.ofNat (n / 65536 % 256))
      (UInt8.ofNat (n / 256 % 256)) (UInt8.ofNat (n % 256))
      (e := (pre ++ [UInt8.ofNat (128 + n / 16777216), UInt8.ofNat (n / 65536 % 256),
        UInt8.ofNat (n / 256 % 256), UInt8.ofNat (n % 256)] ++ rest).length)
      (by simp <;> omega) (by simp)
      (by rw [UInt8.toNat_ofNat_lt] <;> omega) (getElem?_mid _ _ _ 1 (by simp))
      (getElem?_mid _ _ _ 2 (by simp)) (getElem?_mid _ _ _ 3 (by simp))
    rw [UInt8.toNat_ofNat_lt (by omega), UInt8.toNat_ofNat_lt (by omega),
      UInt8.toNat_ofNat_lt (by omega), UInt8.toNat_ofNat_lt (by omega)] at h
    rw [show (128 + n / 16777216 - 128) * 16777216 + n / 65536 % 256 * 65536
      + n / 256 % 256 * 256 + n % 256 = n by omega] at h
    exact h

/-- C02: every other integer is rejected with `ValueError`. -/
theorem C02_numheader32_rejects (v : Int) (h : v < 0 ∨ 2147483648 ≤ v) :
    encode32 v = .error .valueError := by
  rcases h with h | h
  · exact encode_neg v 32 h
  · exact encode32_reject v h

example : encode32 300 = .ok [0x80, 0, 1, 44] ∧ decode32 [1, 0x80, 0, 1, 44] 1 = .ok (4, some 300) := by
  decide

/-- Characterisation used below: on a buffer that really contains `[o, e)`, decoding is total and
its result is a function of the bytes in `[o, e)`. -/
theorem decode_total (data : Bytes) (o e mode : Nat) (hm : mode = 16 ∨ mode = 32)
    (he : e ≤ data.length) :
    ∃ k r, decode data mode o (some e) = .ok (k, r) ∧ (k = 0 ∨ o + k ≤ e) ∧
      (k = 0 ↔ r = none) := by
  by_cases h1 : o + 1 ≤ e
  · have hb : data[o]? = some data[o] := List.getElem?_eq_getElem (by omega)
    by_cases hlt : data[o].toNat < 128
    · exact ⟨1, _, decode_short data mode o e _ h1 hb hlt, by omega, by simp⟩
    · rcases hm with rfl | rfl
      · by_cases h2 : o + 2 ≤ e
        · exact ⟨2, _, decode16_long data o e _ data[o+1] h2 hb (by omega)
            (List.getElem?_eq_getElem (by omega)), by omega, by simp⟩
        · exact ⟨0, _, decode16_wait data o e _ h1 hb (by omega) h2, by omega, by simp⟩
      · by_cases h2 : o + 4 ≤ e
        · exact ⟨4, _, decode32_long data o e _ data[o+1] data[o+2] data[o+3] h2 hb (by omega)
            (List.getElem?_eq_getElem (by omega)) (List.getElem?_eq_getElem (by omega))
            (List.getElem?_eq_getElem (by omega)), by omega, by simp⟩
        · exact ⟨0, _, decode32_wait data o e _ h1 hb (by omega) h2, by omega, by simp⟩
  · exact ⟨0, _, decode_none data mode o e h1, by omega, by simp⟩

/-- C03: in both modes, for any window that lies inside the buffer, decoding never raises, never
consumes bytes beyond the window, and reports "nothing parsed" exactly when it has no value. -/
theorem C03_decode_within_window (data : Bytes) (o e mode : Nat) (hm : mode = 16 ∨ mode = 32)
    (he : e ≤ data.length) :
    ∃ k r, decode data mode o (some e) = .ok (k, r) ∧ (k = 0 ∨ o + k ≤ e) ∧
      (k = 0 ↔ r = none) :=
  decode_total data o e mode hm he

/-- C03: the result depends only on the bytes in the window `[offset, end)`. -/
theorem C03_decode_ignores_rest (d1 d2 : Bytes) (o e mode : Nat) (hm : mode = 16 ∨ mode = 32)
    (h1 : e ≤ d1.length) (_h2 : e ≤ d2.length)
    (heq : ∀ i, o ≤ i → i < e → d1[i]? = d2[i]?) :
    decode d1 mode o (some e) = decode d2 mode o (some e) := by
  by_cases h : o + 1 ≤ e
  · have hb : d1[o]? = some d1[o] := List.getElem?_eq_getElem (by omega)
    have hb' : d2[o]? = some d1[o] := by rw [← heq o (by omega) (by omega)]; exact hb
    by_cases hlt : d1[o].toNat < 128
    · rw [decode_short d1 mode o e _ h hb hlt, decode_short d2 mode o e _ h hb' hlt]
    · rcases hm with rfl | rfl
      · by_cases h3 : o + 2 ≤ e
        · have hc : d1[o+1]? = some d1[o+1] := List.getElem?_eq_getElem (by omega)
          rw [decode16_long d1 o e _ _ h3 hb (by omega) hc,
            decode16_long d2 o e _ d1[o+1] h3 hb' (by omega)
              (by rw [← heq (o+1) (by omega) (by omega)]; exact hc)]
        · rw [decode16_wait d1 o e _ h hb (by omega) h3, decode16_wait d2 o e _ h hb' (by omega) h3]
      · by_cases h3 : o + 4 ≤ e
        · have hc : d1[o+1]? = some d1[o+1] := List.getElem?_eq_getElem (by omega)
          have hd : d1[o+2]? = some d1[o+2] := List.getElem?_eq_getElem (by omega)
          have hf : d1[o+3]? = some d1[o+3] := List.getElem?_eq_getElem (by omega)
          rw [decode32_long d1 o e _ _ _ _ h3 hb (by omega) hc hd hf,
            decode32_long d2 o e _ d1[o+1] d1[o+2] d1[o+3] h3 hb' (by omega)
              (by rw [← heq (o+1) (by omega) (by omega)]; exact hc)
              (by rw [← heq (o+2) (by omega) (by omega)]; exact hd)
              (by rw [← heq (o+3) (by omega) (by omega)]; exact hf)]
        · rw [decode32_wait d1 o e _ h hb (by omega) h3, decode32_wait d2 o e _ h hb' (by omega) h3]
  · rw [decode_none d1 mode o e h, decode_none d2 mode o e h]

example : decode [5, 0x81, 2, 99] 16 1 (some 3) = .ok (2, some 258) ∧
    decode [5, 0x81, 2, 77, 78] 16 1 (some 3) = .ok (2, some 258) := by decide

/-- A value that encodes is in the encodable range and its encoding has the expected form. -/
theorem encode_shape (v : Int) (mode : Nat) (hm : mode = 16 ∨ mode = 32) (bs : Bytes)
    (h : encode v mode = .ok bs) :
    0 ≤ v ∧ (v < 32896 ∨ mode = 32) ∧ (v < 2147483648) ∧
    ((v < 128 ∧ ∃ b : UInt8, bs = [b] ∧ b.toNat < 128) ∨
     (128 ≤ v ∧ mode = 16 ∧ ∃ b c : UInt8, bs = [b, c] ∧ 128 ≤ b.toNat) ∨
     (128 ≤ v ∧ mode = 32 ∧ ∃ b c d e : UInt8, bs = [b, c, d, e] ∧ 128 ≤ b.toNat)) := by
  by_cases hneg : v < 0
  · rw [encode_neg v mode hneg] at h; exact absurd h (by simp)
  obtain ⟨n, rfl⟩ := Int.eq_ofNat_of_zero_le (by omega : 0 ≤ v)
  by_cases hs : n < 128
  · rw [encode_small n mode hs] at h
    injection h with h
    refine ⟨by omega, by omega, by omega, .inl ⟨by omega, _, h.symm, ?_⟩⟩
    rw [UInt8.toNat_ofNat_lt] <;> omega
  · rcases hm with rfl | rfl
    · by_cases h2 : n < 32768
      · rw [encode16_mid n (by omega) h2] at h
        injection h with h
        refine ⟨by omega, by omega, by omega, .inr (.inl ⟨by omega, rfl, _, _, h.symm, ?_⟩)⟩
        rw [UInt8.toNat_ofNat_lt] <;> omega
      · by_cases h3 : n < 32896
        · rw [encode16_high n (by omega) h3] at h
          injection h with h
          refine ⟨by omega, by omega, by omega, .inr (.inl ⟨by omega, rfl, _, _, h.symm, ?_⟩)⟩
          decide
        · rw [encode16_reject _ (by omega)] at h; exact absurd h (by simp)
    · by_cases h3 : n < 2147483648
      · rw [encode32_long n (by omega) h3] at h
        injection h with h
        refine ⟨by omega, by omega, by omega, .inr (.inr ⟨by omega, rfl, _, _, _, _, h.symm, ?_⟩)⟩
        rw [UInt8.toNat_ofNat_lt] <;> omega
      · rw [encode32_reject _ (by omega)] at h; exact absurd h (by simp)

/-- C03: a proper prefix of an encoded header decodes to `(0, None)`: the reader waits. -/
theorem C03_incomplete_header_waits (v : Int) (mode : Nat) (hm : mode = 16 ∨ mode = 32)
    (p q : Bytes) (hq : q ≠ []) (h : encode v mode = .ok (p ++ q)) :
    decode p mode 0 none = .ok (0, none) := by
  rw [decode_end_none]
  cases p with
  | nil => exact decode_none _ _ _ _ (by simp)
  | cons b p =>
    obtain ⟨_, _, _, h | h | h⟩ := encode_shape v mode hm _ h
    · obtain ⟨_, b', hb, _⟩ := h
      simp at hb; exact absurd hb.2.2 hq
    · obtain ⟨_, rfl, b', c, hb, hge⟩ := h
      have hl : p.length = 0 := by
        have := congrArg List.length hb
        simp at this
        have : q.length ≠ 0 := by simpa using hq
        omega
      simp only [List.cons_append, List.cons.injEq] at hb
      exact decode16_wait _ _ _ b (by simp) (by simp) (by rw [hb.1]; exact hge)
        (by rw [List.length_cons]; omega)
    · obtain ⟨_, rfl, b', c, d, e, hb, hge⟩ := h
      have hl : p.length < 3 := by
        have := congrArg List.length hb
        simp at this
        have : q.length ≠ 0 := by simpa using hq
        omega
      simp only [List.cons_append, List.cons.injEq] at hb
      exact decode32_wait _ _ _ b (by simp) (by simp) (by rw [hb.1]; exact hge) (by simp <;> omega)

example : encode 1000 32 = .ok ([0x80, 0] ++ [3, 232]) ∧ decode [0x80, 0] 32 0 none = .ok (0, none) := by
  decide

/-- C04: distinct values have distinct encodings, and no encoding is a proper prefix of another
(both modes). -/
theorem C04_prefix_free (v w : Int) (mode : Nat) (hm : mode = 16 ∨ mode = 32)
    (bs bs' tail : Bytes) (h1 : encode v mode = .ok bs) (h2 : encode w mode = .ok bs')
    (hp : bs' = bs ++ tail) : v = w ∧ tail = [] := by
  have s1 := encode_shape v mode hm _ h1
  have s2 := encode_shape w mode hm _ h2
  have key : ∀ k x, decode (bs ++ tail) mode 0 none = .ok (k, some x) → k = bs.length →
      k = bs'.length → tail = [] := by
    intro k x _ h3 h4
    rw [hp, List.length_append] at h4
    exact List.length_eq_zero_iff.mp (by omega)
  have r1 : decode (bs ++ tail) mode 0 none = .ok (bs.length, some v.toNat) := by
    rcases hm with rfl | rfl
    · obtain ⟨b, hb, hd⟩ := C01_numheader16_roundtrip v s1.1 (s1.2.1.resolve_right (by simp))
      rw [show encode16 v = encode v 16 from rfl, h1] at hb
      injection hb with hb; subst hb
      simpa [decode16, decode32] using hd [] tail
    · obtain ⟨b, hb, hd⟩ := C02_numheader32_roundtrip v s1.1 s1.2.2.1
      rw [show encode32 v = encode v 32 from rfl, h1] at hb
      injection hb with hb; subst hb
      simpa [decode16, decode32] using hd [] tail
  have r2 : decode bs' mode 0 none = .ok (bs'.length, some w.toNat) := by
    rcases hm with rfl | rfl
    · obtain ⟨b, hb, hd⟩ := C01_numheader16_roundtrip w s2.1 (s2.2.1.resolve_right (by simp))
      rw [show encode16 w = encode w 16 from rfl, h2] at hb
      injection hb with hb; subst hb
      simpa [decode16, decode32] using hd [] []
    · obtain ⟨b, hb, hd⟩ := C02_numheader32_roundtrip w s2.1 s2.2.2.1
      rw [show encode32 w = encode w 32 from rfl, h2] at hb
      injection hb with hb; subst hb
      simpa [decode16, decode32] using hd [] []
  have r3 := r1
  rw [← hp, r2] at r3
  simp only [Except.ok.injEq, Prod.mk.injEq, Option.some.injEq] at r3
  refine ⟨by omega, key _ _ r1 rfl r3.1.symm⟩

/-- C04: NumHeader16 is canonical: re-encoding a decoded value gives back the bytes consumed. -/
theorem C04_numheader16_canonical (data : Bytes) (k n : Nat)
    (h : decode16 data = .ok (k, some n)) : encode16 n = .ok (data.take k) := by
  change decode data 16 0 none = _ at h
  rw [decode_end_none] at h
  match data with
  | [] => rw [decode_none _ _ _ _ (by simp)] at h; simp at h
  | [b] =>
    by_cases hb : b.toNat < 128
    · rw [decode_short _ _ _ _ b (by simp) (by simp) hb] at h
      simp at h; obtain ⟨rfl, rfl⟩ := h
      exact (encode_small _ _ hb).trans (by simp)
    · rw [decode16_wait _ _ _ b (by simp) (by simp) (by omega) (by simp)] at h; simp at h
  | b :: c :: rest =>
    by_cases hb : b.toNat < 128
    · rw [decode_short _ _ _ _ b (by simp) (by simp) hb] at h
      simp at h; obtain ⟨rfl, rfl⟩ := h
      exact (encode_small _ _ hb).trans (by simp)
    · rw [decode16_long _ _ _ b c (by simp) (by simp) (by omega) (by simp)] at h
      have hb' := u8_lt b
      have hc' := u8_lt c
      simp only [Except.ok.injEq, Prod.mk.injEq, Option.some.injEq] at h
      obtain ⟨rfl, rfl⟩ := h
      split
      · rename_i hlt
        refine (encode16_high ((b.toNat - 128) * 256 + c.toNat + 32768)
          (Nat.le_add_left _ _) (Nat.add_lt_add_right hlt 32768)).trans ?_
        simp only [List.take_succ_cons, List.take_zero, Except.ok.injEq, List.cons.injEq, and_true]
        exact ⟨u8_ext (by rw [UInt8.toNat_ofNat_lt (by omega)]; omega), u8_ofNat_eq (by omega)⟩
      · refine (encode16_mid _ (by omega) (by omega)).trans ?_
        simp only [List.take_succ_cons, List.take_zero, Except.ok.injEq, List.cons.injEq, and_true]
        exact ⟨u8_ofNat_eq (by omega), u8_ofNat_eq (by omega)⟩

/-- C04: NumHeader32 re-encodes a decoded value in at most the bytes consumed. -/
theorem C04_numheader32_reencode (data : Bytes) (k n : Nat)
    (h : decode32 data = .ok (k, some n)) :
    ∃ bs, encode32 n = .ok bs ∧ bs.length ≤ k ∧ (128 ≤ n → bs = data.take k) := by
  change decode data 32 0 none = _ at h
  rw [decode_end_none] at h
  match data with
  | [] => rw [decode_none _ _ _ _ (by simp)] at h; simp at h
  | b :: rest =>
    by_cases hb : b.toNat < 128
    · rw [decode_short _ _ _ _ b (by simp) (by simp) hb] at h
      simp at h; obtain ⟨rfl, rfl⟩ := h
      exact ⟨_, encode_small _ _ hb, by simp, by omega⟩
    · match rest with
      | c :: d :: e :: rest =>
        rw [decode32_long _ _ _ b c d e (by simp) (by simp) (by omega) (by simp) (by simp)
          (by simp)] at h
        have hb' := u8_lt b
        have hc' := u8_lt c
        have hd' := u8_lt d
        have he' := u8_lt e
        simp only [Except.ok.injEq, Prod.mk.injEq, Option.some.injEq] at h
        obtain ⟨rfl, rfl⟩ := h
        by_cases hsm : (b.toNat - 128) * 16777216 + c.toNat * 65536 + d.toNat * 256 + e.toNat < 128
        · exact ⟨_, encode_small _ _ hsm, by simp, by omega⟩
        · refine ⟨_, encode32_long _ (by omega) (by omega), by simp, fun _ => ?_⟩
          simp only [List.take_succ_cons, List.take_zero, List.cons.injEq, and_true]
          exact ⟨u8_ofNat_eq (by omega), u8_ofNat_eq (by omega), u8_ofNat_eq (by omega),
            u8_ofNat_eq (by omega)⟩
      | [] | [_] | [_, _] =>
        rw [decode32_wait _ _ _ b (by simp) (by simp) (by omega) (by simp)] at h; simp at h

/-- NumHeader32 really is not canonical: a value below 128 has a four-byte form too. -/
example : decode32 [0x80, 0, 0, 5] = .ok (4, some 5) ∧ encode32 5 = .ok [5] := by decide
example : decode16 [0x80, 5, 1] = .ok (2, some 32773) ∧ encode16 32773 = .ok [0x80, 5] := by decide

end Apx.NumHeader
