import Verif.Proofs.VmArray

/-!
C96: lists described with the array instructions of the virtual machine.
-/

namespace Apx

/-- C96: a program that describes a list of records or of lists (of records …) packs a value exactly if
it fits and there is room; it then writes the items one after the other, each field in the order
of the program, and nothing else. -/
theorem C96_pack (s : Descr) (hok : s.Ok) (v : PyVal) (data r : Bytes) (off : Nat) :
    execPackProg (s.program .pack) data off v = .ok r ↔
      ∃ bs, s.layout v = some bs ∧ off + s.size ≤ data.length ∧ bs.length = s.size ∧
        r = data.take off ++ bs ++ data.drop (off + s.size) := by
  have hfwd : ∀ bs, s.layout v = some bs → off + bs.length ≤ data.length →
      execPackProg (s.program .pack) data off v = .ok (put data off bs) := by
    intro bs hlay hd
    have hlen := s.layout_size v bs hlay
    obtain ⟨st2, hsp, hsim⟩ := s.packs hok v bs (VmState.init v) _ hlay (.inl rfl) (.top v)
    unfold execPackProg
    rw [program_eq, run_header]
    have hv : verifyDataLen (s.size % 4294967296) ⟨VmState.init v, data, off⟩ = .ok ⟨VmState.init v, data, off⟩ := by
      unfold verifyDataLen
      have : s.size % 4294967296 ≤ s.size := Nat.mod_le _ _
      rw [if_neg (show ¬ (data.length : Int) - (off : Nat) < ((s.size % 4294967296 : Nat) : Int) by omega)]
    rw [hv, ok_bind]
    have := hsim data off [] hd
    rw [List.append_nil] at this
    rw [this, runVm_nil]
    rfl
  constructor
  · intro h
    have h0 := h
    unfold execPackProg at h
    rw [program_eq, run_header, bind_ok_iff] at h
    obtain ⟨m, h, hm⟩ := h
    rw [bind_ok_iff] at h
    obtain ⟨m0, hv, h⟩ := h
    unfold verifyDataLen at hv
    split at hv
    · simp at hv
    · rename_i hle
      simp only [Except.ok.injEq] at hv
      subst hv
      have ho : off ≤ data.length := by simp only at hle; omega
      obtain ⟨bs, h1, h2⟩ := s.packed hok v (VmState.init v) data off [] m (.inl rfl) (.top v) ho (by
        rw [List.append_nil]; exact h)
      have hlen := s.layout_size v bs h1
      rw [hfwd bs h1 h2] at h0
      simp only [Except.ok.injEq] at h0
      exact ⟨bs, h1, by omega, hlen, by rw [← h0, ← hlen]; rfl⟩
  · rintro ⟨bs, h1, h2, h3, rfl⟩
    rw [hfwd bs h1 (by omega), ← h3]
    rfl

/-- C96: unpacking gives back every value of the shape from the bytes that were packed. -/
theorem C96_unpack_partial (s : Descr) (hok : s.Ok) (hfl : s.Flat) (v : PyVal) (hf : s.Fits v) (data : Bytes) (off : Nat)
    (hd : off + s.size ≤ data.length) :
    ∃ r, execPackProg (s.program .pack) data off v = .ok r ∧ execUnpackProg (s.program .unpack) r off = .ok v := by
  obtain ⟨bs, hlay⟩ := s.fits_layout hfl v hf
  have hlen := s.layout_size v bs hlay
  refine ⟨_, (C96_pack s hok v data _ off).mpr ⟨bs, hlay, hd, hlen, rfl⟩, ?_⟩
  have hh := put_holds data off bs (by omega)
  unfold put at hh
  rw [hlen] at hh
  obtain ⟨st2, hsl, hsim⟩ := s.unpacks hok hfl v bs (VmState.init .null) _ hf hlay (.inl rfl) (.inl rfl)
    (.top .null v rfl)
  generalize hr : data.take off ++ bs ++ data.drop (off + s.size) = r at hh
  unfold execUnpackProg
  rw [program_eq, run_header]
  have hv : verifyDataLen (s.size % 4294967296) ⟨VmState.init .null, r, off⟩ = .ok ⟨VmState.init .null, r, off⟩ := by
    unfold verifyDataLen
    have : s.size % 4294967296 ≤ s.size := Nat.mod_le _ _
    have := hh.1
    rw [if_neg (show ¬ (r.length : Int) - (off : Nat) < ((s.size % 4294967296 : Nat) : Int) by omega)]
  rw [hv, ok_bind]
  have := hsim r off [] hh
  rw [List.append_nil] at this
  rw [this, runVm_nil, ok_bind]
  cases hsl with
  | top => rfl

/-- C96: a top-level value of the wrong kind is refused before anything else. -/
theorem C96_refused (s : Descr) (hb : s.Bracketed) (v : PyVal) (hl : ∀ l, v ≠ .list l) (hv' : ∀ d, v ≠ .dict d)
    (data : Bytes) (off : Nat) (hd : off + s.size ≤ data.length) :
    execPackProg (s.program .pack) data off v = .error .valueError := by
  unfold execPackProg
  rw [program_eq, run_header]
  have hv : verifyDataLen (s.size % 4294967296) ⟨VmState.init v, data, off⟩ = .ok ⟨VmState.init v, data, off⟩ := by
    unfold verifyDataLen
    have : s.size % 4294967296 ≤ s.size := Nat.mod_le _ _
    rw [if_neg (show ¬ (data.length : Int) - (off : Nat) < ((s.size % 4294967296 : Nat) : Int) by omega)]
  rw [hv, ok_bind]
  cases s with
  | num t => exact hb.elim
  | text n => exact hb.elim
  | record fs =>
    simp only [Descr.code]
    rw [runVm_step _ (parse_29 _)]
    cases v with
    | dict d => exact absurd rfl (hv' d)
    | _ => rfl
  | list n s =>
    simp only [Descr.code]
    rw [runVm_step _ (parse_32 _)]
    cases v with
    | list l => exact absurd rfl (hl l)
    | _ => rfl

/-- C96 fails for lists of numbers: between the array instructions a pack instruction for a number takes
the whole list instead of the item, and raises. -/
theorem C96_numbers_violated (t : IntT) (n : Nat) (hn : 1 ≤ n) (l : List PyVal) (data : Bytes) (off : Nat)
    (hd : off + (Descr.list n (.num t)).size ≤ data.length) :
    execPackProg ((Descr.list n (.num t)).program .pack) data off (.list l) = .error .structError := by
  unfold execPackProg
  rw [program_eq, run_header]
  have hv : verifyDataLen ((Descr.list n (.num t)).size % 4294967296) ⟨VmState.init (.list l), data, off⟩
      = .ok ⟨VmState.init (.list l), data, off⟩ := by
    unfold verifyDataLen
    have : (Descr.list n (.num t)).size % 4294967296 ≤ (Descr.list n (.num t)).size := Nat.mod_le _ _
    rw [if_neg (show ¬ (data.length : Int) - (off : Nat) < (((Descr.list n (.num t)).size % 4294967296 : Nat) : Int) by omega)]
  rw [hv, ok_bind]
  obtain ⟨n, rfl⟩ : ∃ m, n = m + 1 := ⟨n - 1, by omega⟩
  simp only [Descr.code, repeatCode, List.append_assoc]
  rw [runVm_step _ (parse_32 _)]
  simp only [execInstr, execPack, VmState.init, VmState.packArrayEnter, PyVal.isList, if_true, ok_bind]
  rw [numOpcode_eq, runVm_step _ (parse_scalar .pack t _)]
  rfl

/-- C96 fails for records directly inside records: they are packed, but unpacking raises. -/
theorem C96_nested_violated (k : Str) (hk : ∀ c ∈ k, c ≠ '\x00' ∧ c.toNat < 128) (fs fs' : DescrFields) (data : Bytes)
    (off : Nat) (hd : off + (Descr.record (.cons k (.record fs) fs')).size ≤ data.length) :
    execUnpackProg ((Descr.record (.cons k (.record fs) fs')).program .unpack) data off = .error .notImplemented := by
  unfold execUnpackProg
  rw [program_eq, run_header]
  generalize hz : (Descr.record (.cons k (.record fs) fs')).size = z at hd
  have hv : verifyDataLen (z % 4294967296) ⟨VmState.init .null, data, off⟩ = .ok ⟨VmState.init .null, data, off⟩ := by
    unfold verifyDataLen
    have : z % 4294967296 ≤ z := Nat.mod_le _ _
    rw [if_neg (show ¬ (data.length : Int) - (off : Nat) < ((z % 4294967296 : Nat) : Int) by omega)]
  rw [hv, ok_bind]
  simp only [Descr.code, DescrFields.code, List.append_assoc]
  rw [runVm_step _ (parse_29 _)]
  simp only [execInstr, execUnpack, VmState.init, VmState.unpackRecordEnter, ok_bind]
  rw [runVm_step _ (parse_selectCode k hk _)]
  simp only [execInstr, execUnpack, VmState.recordSelect, PyVal.isDict, if_true, ok_bind, List.cons_append]
  rw [runVm_step _ (parse_29 _)]
  rfl

/-! A concrete case: a list of two records, each with a number and a list of lists of records. -/

def vaInner : Descr := .list 2 (.list 1 (.record (.cons ['x'] (.num .s16) .nil)))
def vaShape : Descr := .list 2 (.record (.cons ['a'] (.num .u8) (.cons ['b'] vaInner (.cons ['c'] (.text 3) .nil))))
def vaRec (i j k : Int) (t : Str) : PyVal :=
  .dict [(['a'], .int i), (['b'], .list [.list [.dict [(['x'], .int j)]], .list [.dict [(['x'], .int k)]]]),
    (['c'], .str t)]
def vaVal : PyVal := .list [vaRec 7 (-2) 258 "hi".toList, vaRec 255 0 1 "é".toList]

theorem va_ok : vaShape.Ok := by
  simp [vaShape, vaInner, Descr.Ok, DescrFields.Ok, Descr.Bracketed]
theorem va_flat : vaShape.Flat := by
  simp [vaShape, vaInner, Descr.Flat, DescrFields.Flat, DescrFields.names]
theorem va_fits : vaShape.Fits vaVal := by
  have h : (utf8Encode "hi".toList).length ≤ 3 ∧ (utf8Encode "é".toList).length ≤ 3 := by decide +kernel
  refine ⟨_, rfl, rfl, ?_⟩
  intro x hx
  have hr : ∀ i j k t, IntT.u8.InRange i → IntT.s16.InRange j → IntT.s16.InRange k → (utf8Encode t).length ≤ 3 →
      '\x00' ∉ t → (Descr.record (.cons ['a'] (.num .u8) (.cons ['b'] vaInner (.cons ['c'] (.text 3) .nil)))).Fits
        (vaRec i j k t) := by
    intro i j k t hi hj hk ht hz
    simp only [Descr.Fits, DescrFields.Fits, vaInner, vaRec]
    refine ⟨_, rfl, _, _, rfl, ⟨i, rfl, hi⟩, _, _, rfl, ⟨_, rfl, rfl, ?_⟩, _, _, rfl, ⟨t, rfl, ht, hz⟩, rfl⟩
    intro y hy
    simp only [List.mem_cons, List.not_mem_nil, or_false] at hy
    rcases hy with rfl | rfl
    all_goals
      refine ⟨_, rfl, rfl, ?_⟩
      intro z hz
      simp only [List.mem_cons, List.not_mem_nil, or_false] at hz
      subst hz
      exact ⟨_, rfl, _, _, rfl, ⟨_, rfl, by assumption⟩, rfl⟩
  simp only [List.mem_cons, List.not_mem_nil, or_false] at hx
  rcases hx with rfl | rfl
  · exact hr _ _ _ _ (by decide) (by decide) (by decide) h.1 (by decide +kernel)
  · exact hr _ _ _ _ (by decide) (by decide) (by decide) h.2 (by decide +kernel)

example : execPackProg (vaShape.program .pack) (List.replicate 18 9) 1 vaVal =
    .ok [9, 7, 254, 255, 2, 1, 104, 105, 0, 255, 0, 0, 1, 0, 195, 169, 0, 9] := by decide +kernel
example : execUnpackProg (vaShape.program .unpack)
    [9, 7, 254, 255, 2, 1, 104, 105, 0, 255, 0, 0, 1, 0, 195, 169, 0, 9] 1 = .ok vaVal := by decide +kernel
example : ∃ r, execPackProg (vaShape.program .pack) (List.replicate 18 9) 1 vaVal = .ok r ∧
    execUnpackProg (vaShape.program .unpack) r 1 = .ok vaVal :=
  C96_unpack_partial vaShape va_ok va_flat vaVal va_fits _ 1 (by decide +kernel)
/-- The shape of the violated case packs in principle: the values fit. -/
example : (Descr.list 2 (.num .u8)).layout (.list [.int 1, .int 2]) = some [1, 2] := by decide +kernel
example : execPackProg ((Descr.list 2 (.num .u8)).program .pack) [0, 0] 0 (.list [.int 1, .int 2]) =
    .error .structError := C96_numbers_violated .u8 2 (by decide) _ _ _ (by decide)
/-- Reading a list of numbers gives the last number only. -/
example : execUnpackProg ((Descr.list 2 (.num .u8)).program .unpack) [1, 2] 0 = .ok (.int 2) := by decide +kernel

end Apx
