import Verif.Model.RmfCmd
import Verif.Proofs.Struct

/-! C07-C09: the RemoteFile command codecs. -/

namespace Apx.Rmf

theorem checkByteOrder_ok {bo : Char} (h : bo = '<' ∨ bo = '>') : checkByteOrder bo = .ok () := by
  rcases h with rfl | rfl <;> rfl

theorem takeWhile_ne_zero (bs tail : Bytes) (h : ∀ b ∈ bs, b ≠ 0) (ht : tail = [] ∨ tail.head? = some 0) :
    (bs ++ tail).takeWhile (· ≠ 0) = bs := by
  induction bs with
  | nil =>
    rcases ht with rfl | ht
    · rfl
    · cases tail with
      | nil => rfl
      | cons b t => simp at ht; subst ht; rfl
  | cons b bs ih =>
    have hb := h b (by simp)
    have ih := ih (fun c hc => h c (by simp [hc]))
    simp only [List.cons_append, List.takeWhile_cons]
    rw [ih]
    simp [hb]

/-- A FILE_INFO record that the wire format can carry. -/
structure WireFile (f : FileInfo) : Prop where
  addr : ∃ a : Nat, f.address = some (a : Int) ∧ a < 2 ^ 32
  len : 0 ≤ f.length ∧ f.length < 2 ^ 32
  ftype : 0 ≤ f.fileType ∧ f.fileType < 2 ^ 16
  dtype : 0 ≤ f.digestType ∧ f.digestType < 2 ^ 16
  digest : f.digestData.length = 32
  name : ∀ c ∈ f.name, c.toNat < 128 ∧ c ≠ '\x00'

theorem length_eq_add {α} {l : List α} : ∀ {a b : Nat}, l.length = a + b →
    ∃ x y, l = x ++ y ∧ x.length = a ∧ y.length = b := by
  intro a b h
  exact ⟨l.take a, l.drop a, (List.take_append_drop a l).symm, by simp; omega, by simp; omega⟩

/-- Decoding of six concatenated parts of the FILE_INFO layout. -/
theorem unpackFileInfo_parts (bo : Char) (hbo : bo = '<' ∨ bo = '>') (p1 p2 p3 p4 p5 dig nm : Bytes)
    (h1 : p1.length = 4) (h2 : p2.length = 4) (h3 : p3.length = 4) (h4 : p4.length = 2)
    (h5 : p5.length = 2) (hd : dig.length = 32) (name : Str)
    (hn : utf8Decode (nm.takeWhile (· ≠ 0)) = .ok name) :
    unpackFileInfo (p1 ++ p2 ++ p3 ++ p4 ++ p5 ++ dig ++ nm) bo = .ok (some
      { name := name, length := (unpackUInt bo p3 : Nat), fileType := (unpackUInt bo p4 : Nat),
        address := some ((unpackUInt bo p2 : Nat) : Int), digestType := (unpackUInt bo p5 : Nat),
        digestData := dig }) := by
  have t48 : (p1 ++ p2 ++ p3 ++ p4 ++ p5 ++ dig ++ nm).take 48
      = p1 ++ p2 ++ p3 ++ p4 ++ p5 ++ dig := by
    rw [List.take_left' (by simp; omega)]
  have d48 : (p1 ++ p2 ++ p3 ++ p4 ++ p5 ++ dig ++ nm).drop 48 = nm := by
    rw [List.drop_left' (by simp; omega)]
  have e2 : ((p1 ++ p2 ++ p3 ++ p4 ++ p5 ++ dig).drop 4).take 4 = p2 := by
    simp only [List.append_assoc]
    rw [List.drop_left' h1, List.take_left' h2]
  have e3 : ((p1 ++ p2 ++ p3 ++ p4 ++ p5 ++ dig).drop 8).take 4 = p3 := by
    rw [show p1 ++ p2 ++ p3 ++ p4 ++ p5 ++ dig = (p1 ++ p2) ++ (p3 ++ (p4 ++ p5 ++ dig)) by simp]
    rw [List.drop_left' (by simp; omega), List.take_left' h3]
  have e4 : ((p1 ++ p2 ++ p3 ++ p4 ++ p5 ++ dig).drop 12).take 2 = p4 := by
    rw [show p1 ++ p2 ++ p3 ++ p4 ++ p5 ++ dig = (p1 ++ p2 ++ p3) ++ (p4 ++ (p5 ++ dig)) by simp]
    rw [List.drop_left' (by simp; omega), List.take_left' h4]
  have e5 : ((p1 ++ p2 ++ p3 ++ p4 ++ p5 ++ dig).drop 14).take 2 = p5 := by
    rw [show p1 ++ p2 ++ p3 ++ p4 ++ p5 ++ dig = (p1 ++ p2 ++ p3 ++ p4) ++ (p5 ++ dig) by simp]
    rw [List.drop_left' (by simp; omega), List.take_left' h5]
  have e6 : (p1 ++ p2 ++ p3 ++ p4 ++ p5 ++ dig).drop 16 = dig := by
    rw [List.drop_left' (by simp; omega)]
  unfold unpackFileInfo
  rw [checkByteOrder_ok hbo]
  simp only [bind, Except.bind]
  rw [if_pos (by simp; omega), t48, d48, e2, e3, e4, e5, e6, hn]

/-- C07: every FILE_INFO record that fits the wire format is reproduced exactly, in both byte
orders, also when the receiver's buffer has zero-terminated trailing data. -/
theorem C07_fileinfo_roundtrip (f : FileInfo) (hf : WireFile f) (bo : Char)
    (hbo : bo = '<' ∨ bo = '>') :
    ∃ bs : Bytes, packFileInfo f bo = .ok bs ∧ bs.length = 48 + f.name.length ∧
      unpackFileInfo bs bo = .ok (some f) ∧
      ∀ junk : Bytes, unpackFileInfo (bs ++ 0 :: junk) bo = .ok (some f) := by
  obtain ⟨⟨a, ha, ha2⟩, hl, hft, hdt, hd, hname⟩ := hf
  obtain ⟨nm, len, ft, ad, dt, dig⟩ := f
  simp only at *
  subst ha
  obtain ⟨l, rfl⟩ := Int.eq_ofNat_of_zero_le hl.1
  obtain ⟨t, rfl⟩ := Int.eq_ofNat_of_zero_le hft.1
  obtain ⟨d, rfl⟩ := Int.eq_ofNat_of_zero_le hdt.1
  have hn := asciiEncode_eq_utf8 nm (fun c hc => (hname c hc).1)
  have hlen := asciiEncode_length nm _ hn
  have k1 : cmdFileInfo < 256 ^ 4 := by decide
  have k2 : a < 256 ^ 4 := by simpa using ha2
  have k3 : l < 256 ^ 4 := by have := hl.2; norm_cast at this
  have k4 : t < 256 ^ 2 := by have := hft.2; norm_cast at this
  have k5 : d < 256 ^ 2 := by have := hdt.2; norm_cast at this
  have hpack : packFileInfo ⟨nm, l, t, some (a : Int), d, dig⟩ bo = .ok (ordered bo (leBytes 4 cmdFileInfo)
      ++ ordered bo (leBytes 4 a) ++ ordered bo (leBytes 4 l) ++ ordered bo (leBytes 2 t)
      ++ ordered bo (leBytes 2 d) ++ dig ++ utf8Encode nm) := by
    unfold packFileInfo
    simp only
    rw [checkByteOrder_ok hbo, hn, packUInt_ok bo 4 _ k1, packUInt_ok bo 4 _ k2,
      packUInt_ok bo 4 _ k3, packUInt_ok bo 2 _ k4, packUInt_ok bo 2 _ k5,
      packS_of_length hd]
    simp only [bind, Except.bind]
    rw [packS_of_length hlen]
  have hz := utf8Encode_no_zero nm (fun c hc => (hname c hc).2)
  refine ⟨_, hpack, by simp <;> omega, ?_, fun junk => ?_⟩
  · rw [unpackFileInfo_parts bo hbo _ _ _ _ _ _ _ (by simp) (by simp) (by simp) (by simp) (by simp)
      hd nm (by
        have := takeWhile_ne_zero (utf8Encode nm) [] hz (.inl rfl)
        rw [List.append_nil] at this
        rw [this, utf8Decode_utf8Encode])]
    rw [unpackUInt_ordered _ _ _ k2, unpackUInt_ordered _ _ _ k3, unpackUInt_ordered _ _ _ k4,
      unpackUInt_ordered _ _ _ k5]
  · rw [List.append_assoc _ (utf8Encode nm)]
    rw [unpackFileInfo_parts bo hbo _ _ _ _ _ _ _ (by simp) (by simp) (by simp) (by simp) (by simp)
      hd nm (by
        rw [takeWhile_ne_zero (utf8Encode nm) (0 :: junk) hz (.inr rfl), utf8Decode_utf8Encode])]
    rw [unpackUInt_ordered _ _ _ k2, unpackUInt_ordered _ _ _ k3, unpackUInt_ordered _ _ _ k4,
      unpackUInt_ordered _ _ _ k5]

/-- A concrete file that meets the hypotheses of `C07_fileinfo_roundtrip`. -/
example : WireFile ⟨"TestNode.out".toList, 17, 0, some 1024, 0, List.replicate 32 0⟩ where
  addr := ⟨1024, rfl, by decide⟩
  len := by decide
  ftype := by decide
  dtype := by decide
  digest := by decide
  name := by decide

/-- C07: a file that has not been given an address is refused. -/
theorem C07_no_address (f : FileInfo) (bo : Char) (h : f.address = none) :
    packFileInfo f bo = .error .valueError := by
  unfold packFileInfo; rw [h]

/-- C07: numbers that do not fit their wire field are refused, never truncated. -/
theorem C07_out_of_range (f : FileInfo) (bo : Char) (a : Int) (ha : f.address = some a)
    (h : a < 0 ∨ 2 ^ 32 ≤ a ∨ f.length < 0 ∨ 2 ^ 32 ≤ f.length ∨ f.fileType < 0 ∨
      2 ^ 16 ≤ f.fileType ∨ f.digestType < 0 ∨ 2 ^ 16 ≤ f.digestType) :
    ∃ e, packFileInfo f bo = .error e := by
  cases hp : packFileInfo f bo with
  | error e => exact ⟨e, rfl⟩
  | ok bs =>
    exfalso
    unfold packFileInfo at hp
    rw [ha] at hp
    simp only [bind, Except.bind] at hp
    have aux : ∀ n v b, packUInt bo n v = .ok b → 0 ≤ v ∧ v < ((256 ^ n : Nat) : Int) := by
      intro n v b hb
      unfold packUInt at hb
      split at hb
      · assumption
      · simp at hb
    split at hp
    · simp at hp
    · split at hp
      · simp at hp
      · split at hp
        · simp at hp
        · split at hp
          · simp at hp
          · rename_i h2
            have h2 := aux _ _ _ h2
            split at hp
            · simp at hp
            · rename_i h3
              have h3 := aux _ _ _ h3
              split at hp
              · simp at hp
              · rename_i h4
                have h4 := aux _ _ _ h4
                split at hp
                · simp at hp
                · rename_i h5
                  have h5 := aux _ _ _ h5
                  simp at h2 h3 h4 h5
                  omega

/-- C07: a FILE_INFO command shorter than its fixed part yields `None`. -/
theorem C07_short (data : Bytes) (bo : Char) (hbo : bo = '<' ∨ bo = '>') (h : data.length < 48) :
    unpackFileInfo data bo = .ok none := by
  unfold unpackFileInfo
  rw [checkByteOrder_ok hbo]
  simp only [bind, Except.bind]
  rw [if_neg (by omega)]

/-- C08: FILE_OPEN round-trips for every 32-bit address and both byte orders. -/
theorem C08_fileopen_roundtrip (a : Nat) (ha : a < 2 ^ 32) (bo : Char) (hbo : bo = '<' ∨ bo = '>') :
    ∃ bs : Bytes, packFileOpen a bo = .ok bs ∧ bs.length = 8 ∧ unpackFileOpen bs bo = .ok a := by
  have k1 : cmdFileOpen < 256 ^ 4 := by decide
  have k2 : a < 256 ^ 4 := by simpa using ha
  refine ⟨ordered bo (leBytes 4 cmdFileOpen) ++ ordered bo (leBytes 4 a), ?_, by simp, ?_⟩
  · unfold packFileOpen
    rw [checkByteOrder_ok hbo, packUInt_ok bo 4 _ k1, packUInt_ok bo 4 _ k2]
    rfl
  · unfold unpackFileOpen
    rw [checkByteOrder_ok hbo]
    simp only [bind, Except.bind]
    rw [if_pos (by simp), List.take_left' (by simp), List.drop_left' (by simp),
      unpackUInt_ordered _ _ _ k1, unpackUInt_ordered _ _ _ k2, if_neg (by simp)]

/-- C08: an address is only ever returned for an 8-byte FILE_OPEN command: any other buffer
raises. Together with the round trip: `unpackFileOpen data` returns `a` exactly when `data` is
what `packFileOpen a` produces. -/
theorem C08_fileopen_only (data : Bytes) (bo : Char) (hbo : bo = '<' ∨ bo = '>') (a : Nat)
    (h : unpackFileOpen data bo = .ok a) : packFileOpen a bo = .ok data ∧ a < 2 ^ 32 := by
  unfold unpackFileOpen at h
  rw [checkByteOrder_ok hbo] at h
  simp only [bind, Except.bind] at h
  split at h
  · rename_i hlen
    split at h
    · simp at h
    · rename_i hcmd
      simp only [ne_eq, Decidable.not_not] at hcmd
      simp only [Except.ok.injEq] at h
      have k1 : cmdFileOpen < 256 ^ 4 := by decide
      have l1 : (ordered bo (data.take 4)).length = 4 := by simp; omega
      have l2 : (ordered bo (data.drop 4)).length = 4 := by simp; omega
      have k2 : a < 256 ^ 4 := by
        rw [← h]; unfold unpackUInt
        have := leNat_lt (ordered bo (data.drop 4))
        rwa [l2] at this
      have d1 : ordered bo (leBytes 4 cmdFileOpen) = data.take 4 := by
        have := leBytes_leNat (ordered bo (data.take 4))
        rw [l1, show leNat (ordered bo (data.take 4)) = cmdFileOpen from hcmd] at this
        rw [this, ordered_ordered]
      have d2 : ordered bo (leBytes 4 a) = data.drop 4 := by
        have := leBytes_leNat (ordered bo (data.drop 4))
        rw [l2, show leNat (ordered bo (data.drop 4)) = a from h] at this
        rw [this, ordered_ordered]
      refine ⟨?_, by simpa using k2⟩
      unfold packFileOpen
      rw [checkByteOrder_ok hbo, packUInt_ok bo 4 _ k1, packUInt_ok bo 4 _ k2, d1, d2]
      simp [bind, Except.bind]
  · simp at h

example : packFileOpen 1024 '>' = .ok [0, 0, 0, 10, 0, 0, 4, 0] ∧
    unpackFileOpen [0, 0, 0, 10, 0, 0, 4, 0] '>' = .ok 1024 ∧
    unpackFileOpen [0, 0, 0, 11, 0, 0, 4, 0] '>' = .error .valueError := by decide

/-- C09, violation: no FILE_CLOSE command can be unpacked: every input of every length, in every
byte order, raises; in particular each well-formed command raises `NameError`. -/
theorem C09_fileclose_violated :
    (∀ (data : Bytes) (bo : Char) (a : Nat), unpackFileClose data bo ≠ .ok a) ∧
    (∀ (a : Nat) (bo : Char), a < 2 ^ 32 → bo = '<' ∨ bo = '>' →
      ∃ bs, packFileClose a bo = .ok bs ∧ unpackFileClose bs bo = .error .nameError) := by
  constructor
  · intro data bo a h
    unfold unpackFileClose at h
    cases hc : checkByteOrder bo with
    | error e => rw [hc] at h; simp [bind, Except.bind] at h
    | ok u =>
      rw [hc] at h
      simp only [bind, Except.bind] at h
      split at h <;> simp at h
  · intro a bo ha hbo
    have k1 : cmdFileClose < 256 ^ 4 := by decide
    have k2 : a < 256 ^ 4 := by simpa using ha
    refine ⟨ordered bo (leBytes 4 cmdFileClose) ++ ordered bo (leBytes 4 a), ?_, ?_⟩
    · unfold packFileClose
      rw [checkByteOrder_ok hbo, packUInt_ok bo 4 _ k1, packUInt_ok bo 4 _ k2]
      rfl
    · unfold unpackFileClose
      rw [checkByteOrder_ok hbo]
      simp only [bind, Except.bind]
      rw [if_pos (by simp)]

/-- C09, the part that holds: the *sending* side produces the documented 8 bytes (command code 11
and the address, little endian by default). -/
theorem C09_fileclose_partial (a : Nat) (ha : a < 2 ^ 32) :
    packFileClose a '<' = .ok ([11, 0, 0, 0] ++ leBytes 4 a) := by
  have k2 : a < 256 ^ 4 := by simpa using ha
  unfold packFileClose
  rw [checkByteOrder_ok (.inl rfl), packUInt_ok '<' 4 cmdFileClose (by decide),
    packUInt_ok '<' 4 _ k2]
  rfl

example : packFileClose 5 '<' = .ok [11, 0, 0, 0, 5, 0, 0, 0] := by decide

end Apx.Rmf
