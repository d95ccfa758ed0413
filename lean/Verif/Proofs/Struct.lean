import Verif.Model.Struct
import Verif.Proofs.Bits

namespace Apx

@[simp] theorem leBytes_length (n v : Nat) : (leBytes n v).length = n := by
  induction n generalizing v with
  | zero => rfl
  | succ n ih => simp [leBytes, ih]

theorem leNat_leBytes (n v : Nat) (h : v < 256 ^ n) : leNat (leBytes n v) = v := by
  induction n generalizing v with
  | zero => simp [leBytes, leNat] at *; omega
  | succ n ih =>
    rw [Nat.pow_succ] at h
    simp only [leBytes, leNat]
    rw [ih _ (by omega), UInt8.toNat_ofNat_lt (by omega)]
    omega

theorem leNat_lt (bs : Bytes) : leNat bs < 256 ^ bs.length := by
  induction bs with
  | nil => simp [leNat]
  | cons b bs ih =>
    simp only [leNat, List.length_cons, Nat.pow_succ]
    have := u8_lt b
    omega

theorem leBytes_leNat (bs : Bytes) : leBytes bs.length (leNat bs) = bs := by
  induction bs with
  | nil => rfl
  | cons b bs ih =>
    simp only [leNat, List.length_cons, leBytes]
    have := u8_lt b
    rw [show (b.toNat + 256 * leNat bs) / 256 = leNat bs by omega, ih,
      show (b.toNat + 256 * leNat bs) % 256 = b.toNat by omega]
    simp

@[simp] theorem ordered_length (bo : Char) (bs : Bytes) : (ordered bo bs).length = bs.length := by
  unfold ordered; split <;> simp

@[simp] theorem ordered_ordered (bo : Char) (bs : Bytes) : ordered bo (ordered bo bs) = bs := by
  unfold ordered; split <;> simp

theorem packUInt_ok (bo : Char) (n : Nat) (v : Nat) (h : v < 256 ^ n) :
    packUInt bo n (v : Int) = .ok (ordered bo (leBytes n v)) := by
  unfold packUInt
  rw [if_pos ⟨by omega, by exact_mod_cast h⟩]; simp

theorem unpackUInt_ordered (bo : Char) (n v : Nat) (h : v < 256 ^ n) :
    unpackUInt bo (ordered bo (leBytes n v)) = v := by
  unfold unpackUInt; rw [ordered_ordered, leNat_leBytes n v h]

@[simp] theorem packS_length (n : Nat) (bs : Bytes) : (packS n bs).length = n := by
  unfold packS; simp; omega

theorem packS_exact (bs : Bytes) : packS bs.length bs = bs := by
  unfold packS; simp

theorem packS_of_length {n : Nat} {bs : Bytes} (h : bs.length = n) : packS n bs = bs := by
  subst h; exact packS_exact bs

/-! ### Codecs -/

theorem utf8Decode_utf8Encode (s : Str) : utf8Decode (utf8Encode s) = .ok s := by
  unfold utf8Decode utf8Encode
  have h : (s.flatMap String.utf8EncodeChar).toByteArray = s.utf8Encode := by
    simp [List.utf8Encode]
  rw [h, List.utf8Decode?_utf8Encode]

theorem utf8Decode_iff (b : Bytes) (n : Str) : utf8Decode b = .ok n ↔ utf8Encode n = b := by
  constructor
  · intro h
    unfold utf8Decode at h
    cases hd : b.toByteArray.utf8Decode? with
    | none => simp [hd] at h
    | some cs =>
      simp only [hd, Except.ok.injEq] at h
      subst h
      have := ByteArray.utf8Encode_get_utf8Decode? (b := b.toByteArray) (h := by simp [hd])
      simp only [hd, Option.get_some, List.utf8Encode] at this
      have h2 := congrArg (fun x : ByteArray => x.data.toList) this
      simpa [utf8Encode] using h2
  · rintro rfl; exact utf8Decode_utf8Encode n

theorem utf8Encode_nil : utf8Encode [] = [] := rfl

theorem utf8Encode_append (a b : Str) : utf8Encode (a ++ b) = utf8Encode a ++ utf8Encode b := by
  simp [utf8Encode]

theorem utf8Encode_cons (c : Char) (s : Str) :
    utf8Encode (c :: s) = String.utf8EncodeChar c ++ utf8Encode s := by
  simp [utf8Encode]

theorem utf8EncodeChar_ascii (c : Char) (h : c.toNat < 128) :
    String.utf8EncodeChar c = [UInt8.ofNat c.toNat] := by
  unfold String.utf8EncodeChar
  exact if_pos (show c.toNat ≤ 0x7f by omega)

theorem asciiEncode_eq_utf8 (s : Str) (h : ∀ c ∈ s, c.toNat < 128) :
    asciiEncode s = .ok (utf8Encode s) := by
  induction s with
  | nil => rfl
  | cons c cs ih =>
    have hc := h c (by simp)
    have ih := ih (fun d hd => h d (by simp [hd]))
    simp only [asciiEncode]
    rw [if_pos hc, ih, utf8Encode_cons, utf8EncodeChar_ascii c hc]
    rfl

theorem asciiEncode_length (s : Str) (bs : Bytes) (h : asciiEncode s = .ok bs) :
    bs.length = s.length := by
  induction s generalizing bs with
  | nil => simp [asciiEncode] at h; subst h; rfl
  | cons c cs ih =>
    simp only [asciiEncode] at h
    split at h
    · cases hcs : asciiEncode cs with
      | error e => rw [hcs] at h; simp [bind, Except.bind] at h
      | ok b =>
        rw [hcs] at h
        simp only [bind, Except.bind, Except.ok.injEq] at h
        subst h
        simp [ih b hcs]
    · simp at h

theorem asciiEncode_ok_iff (s : Str) (bs : Bytes) (h : asciiEncode s = .ok bs) :
    ∀ c ∈ s, c.toNat < 128 := by
  induction s generalizing bs with
  | nil => simp
  | cons c cs ih =>
    simp only [asciiEncode] at h
    split at h
    · rename_i hc
      cases hcs : asciiEncode cs with
      | error e => rw [hcs] at h; simp [bind, Except.bind] at h
      | ok b =>
        intro d hd
        rcases List.mem_cons.mp hd with rfl | hd
        · exact hc
        · exact ih b hcs d hd
    · simp at h

/-- Bytes of utf-8 text contain a zero byte only where the text contains NUL. -/
theorem utf8EncodeChar_no_zero (c : Char) (h : c ≠ '\x00') :
    ∀ b ∈ String.utf8EncodeChar c, b ≠ 0 := by
  have hn : c.val.toNat ≠ 0 := by
    intro h0
    apply h
    apply Char.ext
    apply UInt32.toNat_inj.mp
    simpa using h0
  have hlt : c.val.toNat < 1114112 := by
    have := c.valid
    rcases this with h | h
    · have : c.val.toNat < 0xd800 := h
      omega
    · exact h.2
  have aux : ∀ n : Nat, n % 256 ≠ 0 → UInt8.ofNat n ≠ 0 := by
    intro n hn h0
    have := congrArg UInt8.toNat h0
    simp at this
    omega
  intro b hb
  unfold String.utf8EncodeChar at hb
  simp only [] at hb
  split at hb
  · simp only [List.mem_singleton] at hb
    subst hb
    exact aux _ (by omega)
  · split at hb
    · simp only [List.mem_cons, List.not_mem_nil, or_false] at hb
      rcases hb with rfl | rfl <;> exact aux _ (by omega)
    · split at hb
      · simp only [List.mem_cons, List.not_mem_nil, or_false] at hb
        rcases hb with rfl | rfl | rfl <;> exact aux _ (by omega)
      · simp only [List.mem_cons, List.not_mem_nil, or_false] at hb
        rcases hb with rfl | rfl | rfl | rfl <;> exact aux _ (by omega)

theorem utf8Encode_no_zero (s : Str) (h : ∀ c ∈ s, c ≠ '\x00') : ∀ b ∈ utf8Encode s, b ≠ 0 := by
  intro b hb
  unfold utf8Encode at hb
  rw [List.mem_flatMap] at hb
  obtain ⟨c, hc, hb⟩ := hb
  exact utf8EncodeChar_no_zero c (h c hc) b hb

end Apx
