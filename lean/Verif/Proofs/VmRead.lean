import Verif.Proofs.VmProg
import Verif.Spec.Reading

/-! What unpack programs read from any bytes. -/

namespace Apx

theorem intsLayout_inj (t : IntT) (l l' : List PyVal) (b : Bytes) (h : intsLayout t l = some b)
    (h' : intsLayout t l' = some b) (hl : l.length = l'.length) : l = l' := by
  have hd : Holds b 0 b := ⟨by simp, by simp⟩
  have h1 := unpackItems_ok t l b b 0 h hd
  have h2 := unpackItems_ok t l' b b 0 h' hd
  rw [hl, h2] at h1
  exact (Except.ok.inj h1).symm

theorem intLayout_inj (t : IntT) (v v' : PyVal) (b : Bytes) (h : intLayout t v = some b)
    (h' : intLayout t v' = some b) : v = v' := by
  have := intsLayout_inj t [v] [v'] (b ++ []) (by simp [intsLayout, h]) (by simp [intsLayout, h']) rfl
  simpa using this

theorem holds_part (data : Bytes) (off n : Nat) (hd : off + n ≤ data.length) :
    Holds data off ((data.drop off).take n) := by
  have h : ((data.drop off).take n).length = n := by simp; omega
  exact ⟨by rw [h]; exact hd, by rw [h]⟩

/-- An unpack program for what is no record: it stores the value the bytes stand for, or fails. -/
theorem leaf_read (e : Elem) (code : Bytes) (n : Nat) (hc : compileElem .unpack e = .ok (code, n)) (hf : e.IsFlat)
    (hl : e.LensOk) (data : Bytes) (off : Nat) (hd : off + n ≤ data.length) :
    ∃ R : Py PyVal, (∀ v, R = .ok v ↔ e.ReadsAs ((data.drop off).take n) v) ∧ ∀ st rest,
      runVm .unpack false (code ++ rest) ⟨st, data, off⟩ =
        (R >>= fun v => st.store v >>= fun s => runVm .unpack false rest ⟨s, data, off + n⟩) := by
  have hlen : ((data.drop off).take n).length = n := by simp; omega
  have hh := holds_part data off n hd
  have hscalar : ∀ t : IntT, n = t.size → ∃ R : Py PyVal,
      (∀ v, R = .ok v ↔ intLayout t v = some ((data.drop off).take n)) ∧ ∀ st rest,
      runVm .unpack false ([opScalar .unpack t] ++ rest) ⟨st, data, off⟩ =
        (R >>= fun v => st.store v >>= fun s => runVm .unpack false rest ⟨s, data, off + n⟩) := by
    intro t hn
    obtain ⟨i, -, hi⟩ := int_surj t _ (hlen.trans hn)
    refine ⟨.ok (.int i), fun v => ⟨fun h => ?_, fun h => ?_⟩, fun st rest => ?_⟩
    · cases h; exact hi
    · rw [intLayout_inj t _ _ _ hi h]
    · have := unpack_scalar_sim t _ _ data off st rest hi hh
      rw [hlen] at this
      exact this
  have hcomp := comp_of_compile hc
  cases hcomp with
  | scalar tc mn mx t ht =>
    obtain ⟨R, h1, h2⟩ := hscalar t rfl
    refine ⟨R, fun v => (h1 v).trans ?_, h2⟩
    simp [Elem.ReadsAs, integer_eq, ht]
  | scalarRef m tc mn mx t ht =>
    obtain ⟨R, h1, h2⟩ := hscalar t rfl
    refine ⟨R, fun v => (h1 v).trans ?_, h2⟩
    simp [Elem.ReadsAs, integer_eq, ht]
  | array tc mn mx k t ht =>
    obtain ⟨l, l1, l2, l3⟩ := ints_surj t k _ hlen
    have htc : tc ≠ .str := by rintro rfl; simp [TypeCode.intT] at ht
    refine ⟨.ok (.list l), fun v => ⟨fun h => ?_, fun h => ?_⟩, fun st rest => ?_⟩
    · cases h
      exact Or.inl ⟨t, l, by simp [integer_eq, ht], rfl, l1, l3⟩
    · rcases h with ⟨t', l', h1, rfl, h2, h3⟩ | ⟨s, h, _⟩
      · rw [integer_eq, ht] at h1
        cases h1
        rw [intsLayout_inj t l l' _ l3 h3 (l1.trans h2.symm)]
      · exact absurd h htc
    · have := unpack_array_sim t k (by simpa [Elem.LensOk] using hl) l _ data off st rest l1 l3 hh
      rw [hlen] at this
      exact this
  | str mn mx k =>
    have hk := (show 1 ≤ n ∧ n ≤ 65535 by simpa [Elem.LensOk] using hl)
    refine ⟨utf8Decode (((data.drop off).take n).takeWhile (· ≠ 0)) >>= fun s => .ok (.str s),
      fun v => ?_, fun st rest => ?_⟩
    · rw [bind_ok_iff]
      constructor
      · rintro ⟨s, h1, h2⟩
        cases h2
        exact Or.inr ⟨s, rfl, rfl, hlen, (utf8Decode_iff _ _).mp h1⟩
      · rintro (⟨t, l, h, _⟩ | ⟨s, _, rfl, _, h⟩)
        · simp [TypeCode.integer] at h
        · exact ⟨s, (utf8Decode_iff _ _).mpr h, rfl⟩
    · have hm : n % 65536 = n := by omega
      have key := run_unpack_step (m := ⟨st, data, off⟩) (rest := rest)
        (α := utf8Decode (((data.drop off).take n).takeWhile (· ≠ 0)) >>= fun s => st.store (.str s))
        (off := off + n) (parse_str .unpack n rest) (by
          simp only [strInstr, execUnpack, VmState.unpackStr, hm]
          rw [if_neg (by omega)]
          cases utf8Decode (((data.drop off).take n).takeWhile (· ≠ 0)) with
          | error x => rfl
          | ok s =>
            simp only [ok_bind]
            cases st.store (.str s) <;> rfl)
      rw [key]
      cases utf8Decode (((data.drop off).take n).takeWhile (· ≠ 0)) <;> rfl
  | record fs code n hcf => simp [Elem.IsFlat] at hf
  | recordRef m fs code n hcf => simp [Elem.IsFlat] at hf

theorem drop_take_split (data : Bytes) (off m m' : Nat) :
    (data.drop off).take (m + m') = (data.drop off).take m ++ (data.drop (off + m)).take m' := by
  rw [List.take_add, List.drop_drop]

theorem Elem.readsAs_length {d : Dir} (e : Elem) (code : Bytes) (n : Nat) (hc : compileElem d e = .ok (code, n))
    (hf : e.IsFlat) (b : Bytes) (v : PyVal) (h : e.ReadsAs b v) : b.length = n := by
  have hcomp := comp_of_compile hc
  cases hcomp with
  | scalar tc mn mx t ht =>
    obtain ⟨t', h1, h2⟩ := h
    rw [integer_eq, ht] at h1
    cases h1
    exact intLayout_length t v b h2
  | scalarRef m tc mn mx t ht =>
    simp only [Elem.ReadsAs] at h
    obtain ⟨t', h1, h2⟩ := h
    rw [integer_eq, ht] at h1
    cases h1
    exact intLayout_length t v b h2
  | array tc mn mx k t ht =>
    rcases h with ⟨t', l, h1, rfl, h2, h3⟩ | ⟨s, h, _⟩
    · rw [integer_eq, ht] at h1
      cases h1
      rw [intsLayout_length _ _ _ h3, h2]
    · subst h; simp [TypeCode.intT] at ht
  | str mn mx k =>
    rcases h with ⟨t, l, h, _⟩ | ⟨s, _, _, h, _⟩
    · simp [TypeCode.integer] at h
    · exact h
  | record fs code n hcf => simp [Elem.IsFlat] at hf
  | recordRef m fs code n hcf => simp [Elem.IsFlat] at hf

/-- The same for the fields of a record. -/
theorem fields_read (fs : Fields) (code : Bytes) (n : Nat) (hc : compileFields .unpack fs = .ok (code, n)) (hf : fs.AllFlat)
    (hl : fs.LensOk) (hn : fs.NamesOk) (data : Bytes) (off : Nat) (hd : off + n ≤ data.length)
    (acc : List (Str × PyVal)) (key : Option Str) (stack : List (PyVal × Option Str × Option Nat)) (rest : Bytes) :
    ∃ R : Py (List (Str × PyVal) × Option Str),
      (∀ d, (∃ key', R = .ok (d, key')) ↔ fs.ReadsAs ((data.drop off).take n) acc d) ∧
      runVm .unpack false (code ++ rest) ⟨⟨.dict acc, key, none, stack⟩, data, off⟩ =
        (R >>= fun r => runVm .unpack false rest ⟨⟨.dict r.1, r.2, none, stack⟩, data, off + n⟩) := by
  match fs with
  | .nil =>
    simp only [compileFields, Except.ok.injEq, Prod.mk.injEq] at hc
    obtain ⟨rfl, rfl⟩ := hc
    refine ⟨.ok (acc, key), fun d => ⟨?_, ?_⟩, rfl⟩
    · rintro ⟨key', h⟩
      cases h
      exact ⟨by simp, rfl⟩
    · rintro ⟨-, rfl⟩
      exact ⟨key, rfl⟩
  | .cons name e r =>
    obtain ⟨k, s, c, m, c', m', rfl, hs, hce, hcr, rfl, rfl⟩ := compileFields_cons hc
    simp only [Fields.LensOk] at hl
    simp only [Fields.NamesOk] at hn
    simp only [Fields.AllFlat] at hf
    obtain ⟨R, h1, h2⟩ := leaf_read e c m hce hf.1 hl.1 data off (by omega)
    rw [List.append_assoc, List.append_assoc, runVm_step _ (parse_select k (hn.1 k rfl) s _ hs)]
    simp only [execInstr, execUnpack, VmState.recordSelect, PyVal.isDict, if_true, ok_bind]
    rw [h2]
    simp only [VmState.store, ok_bind]
    have hsp := drop_take_split data off m m'
    have hl1 : ((data.drop off).take m).length = m := by simp; omega
    have hsplit : ∀ b1 b2 v, (data.drop off).take (m + m') = b1 ++ b2 → e.ReadsAs b1 v →
        b1 = (data.drop off).take m ∧ b2 = (data.drop (off + m)).take m' := by
      intro b1 b2 v hb hr
      have := e.readsAs_length c m hce hf.1 b1 v hr
      rw [hsp] at hb
      have := List.append_inj hb (by rw [hl1, this])
      exact ⟨this.1.symm, this.2.symm⟩
    cases R with
    | error x =>
      refine ⟨.error x, fun d => ⟨?_, ?_⟩, rfl⟩
      · rintro ⟨_, h⟩; cases h
      · rintro ⟨-, b1, b2, v, hb, hr, -⟩
        obtain ⟨rfl, rfl⟩ := hsplit b1 b2 v hb hr
        have := (h1 v).mpr hr
        cases this
    | ok v =>
      obtain ⟨R', h3, h4⟩ := fields_read r c' m' hcr hf.2 hl.2 hn.2.2 data (off + m) (by omega) (dictSet acc k v)
        (some k) stack rest
      refine ⟨R', fun d => (h3 d).trans ⟨fun h => ?_, ?_⟩, ?_⟩
      · exact ⟨hf.1, _, _, v, hsp, (h1 v).mp rfl, h⟩
      · rintro ⟨-, b1, b2, v', hb, hr, h⟩
        obtain ⟨rfl, rfl⟩ := hsplit b1 b2 v' hb hr
        have := (h1 v').mpr hr
        cases this
        exact h
      · simp only [ok_bind]
        rw [h4]
        simp only [Nat.add_assoc]

theorem record_read (fs : Fields) (code : Bytes) (n : Nat) (hc : compileFields .unpack fs = .ok (code, n)) (hf : fs.AllFlat)
    (hl : fs.LensOk) (hn : fs.NamesOk) (data : Bytes) (off : Nat) (hd : off + n ≤ data.length) (v : PyVal) :
    ((runVm .unpack false (opEnter :: (code ++ [opLeave])) ⟨VmState.init .null, data, off⟩ >>= fun m => .ok m.st.value) = .ok v) ↔
      ∃ d, v = .dict d ∧ fs.ReadsAs ((data.drop off).take n) [] d := by
  obtain ⟨R, h1, h2⟩ := fields_read fs code n hc hf hl hn data off hd [] none [] [opLeave]
  rw [runVm_step _ (parse_enter _)]
  simp only [execInstr, execUnpack, VmState.unpackRecordEnter, VmState.init, ok_bind]
  rw [h2]
  cases R with
  | error x =>
    constructor
    · intro h; cases h
    · rintro ⟨d, rfl, h⟩
      obtain ⟨_, h⟩ := (h1 d).mpr h
      cases h
  | ok r =>
    rw [ok_bind, runVm_step _ (parse_leave _)]
    simp only [execInstr, execUnpack, VmState.unpackRecordLeave, ok_bind, runVm_nil, Except.ok.injEq]
    constructor
    · rintro rfl
      exact ⟨r.1, rfl, (h1 r.1).mp ⟨r.2, rfl⟩⟩
    · rintro ⟨d, rfl, h⟩
      obtain ⟨_, h⟩ := (h1 d).mpr h
      cases h
      rfl

theorem Fields.readsAs_flat (fs : Fields) : ∀ (b : Bytes) (acc d : List (Str × PyVal)), fs.ReadsAs b acc d → fs.AllFlat := by
  intro b acc d h
  match fs with
  | .nil => trivial
  | .cons none _ _ => exact h.elim
  | .cons (some k) e r =>
    obtain ⟨h1, b1, b2, v, -, -, h2⟩ := h
    exact ⟨h1, Fields.readsAs_flat r _ _ _ h2⟩

/-- A program reads the value its bytes stand for. -/
theorem elem_read (e : Elem) (code : Bytes) (n : Nat) (hc : compileElem .unpack e = .ok (code, n)) (hl : e.LensOk)
    (hn : e.NamesOk) (data : Bytes) (off : Nat) (hd : off + n ≤ data.length) (v : PyVal) :
    ((runVm .unpack false code ⟨VmState.init .null, data, off⟩ >>= fun m => .ok m.st.value) = .ok v) ↔
      e.ReadsAs ((data.drop off).take n) v := by
  have hleaf : e.IsFlat → (((runVm .unpack false code ⟨VmState.init .null, data, off⟩ >>= fun m => .ok m.st.value) = .ok v) ↔
      e.ReadsAs ((data.drop off).take n) v) := by
    intro hf
    obtain ⟨R, h1, h2⟩ := leaf_read e code n hc hf hl data off hd
    have h2 := h2 (VmState.init .null) []
    rw [List.append_nil] at h2
    rw [h2, ← h1]
    cases R with
    | error x => exact ⟨fun h => (by cases h), fun h => (by cases h)⟩
    | ok w =>
      simp only [VmState.store, VmState.init, ok_bind, runVm_nil]
  have hflat : ∀ r, runVm .unpack false code ⟨VmState.init .null, data, off⟩ = .ok r → e.NoNested := fun r h =>
    unpack_noNested e code n hc hn data off r h
  have hrec : ∀ fs : Fields, e.NoNested = fs.AllFlat → (fs.AllFlat →
      (((runVm .unpack false code ⟨VmState.init .null, data, off⟩ >>= fun m => .ok m.st.value) = .ok v) ↔
        ∃ d, v = .dict d ∧ fs.ReadsAs ((data.drop off).take n) [] d)) →
      (((runVm .unpack false code ⟨VmState.init .null, data, off⟩ >>= fun m => .ok m.st.value) = .ok v) ↔
        ∃ d, v = .dict d ∧ fs.ReadsAs ((data.drop off).take n) [] d) := by
    intro fs he h
    constructor
    · intro hr
      obtain ⟨m, hm, _⟩ := bind_ok_iff.mp hr
      exact (h (he ▸ hflat m hm)).mp hr
    · rintro ⟨d, hv, hr⟩
      exact (h (fs.readsAs_flat _ _ _ hr)).mpr ⟨d, hv, hr⟩
  have hcomp := comp_of_compile hc
  cases hcomp with
  | scalar tc mn mx t ht => exact hleaf (by simp [Elem.IsFlat])
  | scalarRef m tc mn mx t ht => exact hleaf (by simp [Elem.IsFlat])
  | array tc mn mx k t ht => exact hleaf (by simp [Elem.IsFlat])
  | str mn mx k => exact hleaf (by simp [Elem.IsFlat])
  | record fs code n hcf =>
    rw [Elem.ReadsAs]
    refine hrec fs (by simp only [Elem.NoNested]) fun hf => ?_
    exact record_read fs code n hcf hf (by simpa [Elem.LensOk] using hl) (by simpa [Elem.NamesOk] using hn) data off hd v
  | recordRef m fs code n hcf =>
    rw [Elem.ReadsAs, Elem.ReadsAs]
    refine hrec fs (by simp only [Elem.NoNested]) fun hf => ?_
    exact record_read fs code n hcf hf (by simpa [Elem.LensOk] using hl) (by simpa [Elem.NamesOk] using hn) data off hd v

end Apx
