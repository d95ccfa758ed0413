import Verif.Proofs.VmUnpack

namespace Apx

/-! ### Length of compiled programs' data -/

mutual
theorem Elem.compile_leaves {d : Dir} (e : Elem) (code : Bytes) (n : Nat)
    (hc : compileElem d e = .ok (code, n)) : ∃ ls, e.leaves = some ls ∧ totalSize ls = n := by
  have hcomp := comp_of_compile hc
  match e, hcomp with
  | .prim tc mn mx none, .scalar _ _ _ t ht =>
    refine ⟨_, rfl, ?_⟩
    cases tc <;> simp [TypeCode.intT] at ht <;> subst ht <;> rfl
  | .refType m (.prim tc mn mx none), .scalarRef _ _ _ _ t ht =>
    refine ⟨_, rfl, ?_⟩
    cases tc <;> simp [TypeCode.intT] at ht <;> subst ht <;> rfl
  | .prim tc mn mx (some k), .array _ _ _ _ t ht =>
    refine ⟨_, rfl, ?_⟩
    cases tc <;> simp [TypeCode.intT] at ht <;> subst ht <;> simp [totalSize, IntT.size]
  | .prim .str mn mx (some k), .str _ _ _ =>
    refine ⟨_, rfl, ?_⟩
    simp [totalSize]
  | .record fs none, .record _ c _ h =>
    obtain ⟨ls, h1, h2⟩ := Fields.compile_leaves fs c n h
    exact ⟨ls, by simp [Elem.leaves, h1], h2⟩
  | .refType m (.record fs none), .recordRef _ _ c _ h =>
    obtain ⟨ls, h1, h2⟩ := Fields.compile_leaves fs c n h
    exact ⟨ls, by simp [Elem.leaves, h1], h2⟩

theorem Fields.compile_leaves {d : Dir} (fs : Fields) (code : Bytes) (n : Nat)
    (hc : compileFields d fs = .ok (code, n)) : ∃ ls, fs.leaves = some ls ∧ totalSize ls = n := by
  match fs with
  | .nil =>
    simp only [compileFields, Except.ok.injEq, Prod.mk.injEq] at hc
    exact ⟨[], rfl, by rw [← hc.2]; rfl⟩
  | .cons name e r =>
    obtain ⟨k, s, c, m, c', m', rfl, hs, hce, hcr, rfl, rfl⟩ := compileFields_cons hc
    obtain ⟨l1, h1, h2⟩ := Elem.compile_leaves e c m hce
    obtain ⟨l2, h3, h4⟩ := Fields.compile_leaves r c' m' hcr
    exact ⟨l1 ++ l2, by simp [Fields.leaves, h1, h3], by rw [totalSize_append, h2, h4]⟩
end

theorem compile_packLen {d : Dir} (e : Elem) (code : Bytes) (n : Nat)
    (hc : compileElem d e = .ok (code, n)) : e.packLen = .ok n := by
  obtain ⟨ls, h1, h2⟩ := e.compile_leaves code n hc
  rw [packLen_leaves e ls h1, h2]

/-! ### Whole programs -/

/-- The exact condition under which a pack program succeeds, and its result. -/
theorem pack_forward (e : Elem) (prog : Bytes) (hc : compileProg .pack e = .ok prog) (hl : e.LensOk)
    (hn : e.NamesOk) (v : PyVal) (bs : Bytes) (hlay : e.layout v = some bs) (ha : e.ArraysOk v)
    (data : Bytes) (off : Nat) (hd : off + bs.length ≤ data.length) :
    execPackProg prog data off v = .ok (put data off bs) ∧ e.packLen = .ok bs.length := by
  obtain ⟨code, n, hce, rfl⟩ := compileProg_inv hc
  have hlen := Elem.layout_length' e code n hce v bs hlay
  refine ⟨?_, by rw [compile_packLen e code n hce, hlen]⟩
  obtain ⟨key', _, hsim⟩ := Elem.sim e code n v bs (VmState.init v) hce hl hn hlay ha (.top v) (by
    intro k _ m hm
    simp [dictLen, VmState.init] at hm)
  unfold execPackProg
  rw [run_header]
  have hv : verifyDataLen (n % 4294967296) ⟨VmState.init v, data, off⟩ = .ok ⟨VmState.init v, data, off⟩ := by
    unfold verifyDataLen
    have : n % 4294967296 ≤ n := Nat.mod_le _ _
    rw [if_neg (show ¬ (data.length : Int) - (off : Nat) < ((n % 4294967296 : Nat) : Int) by omega)]
  rw [hv, ok_bind]
  have := hsim data off [] hd
  rw [List.append_nil] at this
  rw [this, runVm_nil]
  rfl

theorem pack_inverse (e : Elem) (prog : Bytes) (hc : compileProg .pack e = .ok prog) (hl : e.LensOk)
    (hn : e.NamesOk) (hne : e.NoEmptyInside) (v : PyVal) (data : Bytes) (off : Nat) (r : Bytes)
    (h : execPackProg prog data off v = .ok r) :
    ∃ bs, e.layout v = some bs ∧ e.ArraysOk v ∧ off + bs.length ≤ data.length := by
  obtain ⟨code, n, hce, rfl⟩ := compileProg_inv hc
  unfold execPackProg at h
  rw [run_header, bind_ok_iff] at h
  obtain ⟨m, h, _⟩ := h
  rw [bind_ok_iff] at h
  obtain ⟨m0, h0, h⟩ := h
  unfold verifyDataLen at h0
  split at h0
  · simp at h0
  · rename_i hle
    simp only [Except.ok.injEq] at h0
    subst h0
    have ho : off ≤ data.length := by
      simp only at hle
      omega
    have h' : runVm .pack false (code ++ []) ⟨VmState.init v, data, off⟩ = .ok m := by
      rw [List.append_nil]; exact h
    obtain ⟨bs, h1, h2, h3, _⟩ := Elem.inv e code n v (VmState.init v) hce hl hn hne (.top v) (by
      intro hk; exact absurd rfl hk) data off [] m ho h'
    exact ⟨bs, h1, h2, h3⟩

theorem unpack_forward (e : Elem) (prog : Bytes) (hc : compileProg .unpack e = .ok prog) (hl : e.LensOk)
    (hn : e.NamesOk) (hf : e.NoNested) (v : PyVal) (bs : Bytes) (hx : e.Exact v) (hlay : e.layout v = some bs)
    (data : Bytes) (off : Nat) (hd : Holds data off bs) :
    ∃ v', execUnpackProg prog data off = .ok v' ∧ v'.Same v := by
  obtain ⟨code, n, hce, rfl⟩ := compileProg_inv hc
  have hlen := Elem.layout_length' e code n hce v bs hlay
  unfold execUnpackProg
  rw [run_header]
  have hv : verifyDataLen (n % 4294967296) ⟨VmState.init .null, data, off⟩ = .ok ⟨VmState.init .null, data, off⟩ := by
    unfold verifyDataLen
    have : n % 4294967296 ≤ n := Nat.mod_le _ _
    have := hd.1
    rw [if_neg (show ¬ (data.length : Int) - (off : Nat) < ((n % 4294967296 : Nat) : Int) by omega)]
  rw [hv, ok_bind]
  obtain ⟨m, h1, h2⟩ := elem_unpack e code n hce hf hl hn v bs hx hlay data off hd
  rw [h1, ok_bind]
  exact ⟨_, rfl, h2⟩

theorem unpack_inverse (e : Elem) (prog : Bytes) (hc : compileProg .unpack e = .ok prog) (hn : e.NamesOk)
    (data : Bytes) (off : Nat) (v : PyVal) (h : execUnpackProg prog data off = .ok v) : e.NoNested := by
  obtain ⟨code, n, hce, rfl⟩ := compileProg_inv hc
  unfold execUnpackProg at h
  rw [run_header, bind_ok_iff] at h
  obtain ⟨m, h, _⟩ := h
  rw [bind_ok_iff] at h
  obtain ⟨m0, h0, h⟩ := h
  unfold verifyDataLen at h0
  split at h0
  · simp at h0
  · simp only [Except.ok.injEq] at h0
    subst h0
    exact unpack_noNested e code n hce hn data off m h

theorem put_holds (data : Bytes) (off : Nat) (bs : Bytes) (h : off + bs.length ≤ data.length) :
    Holds (put data off bs) off bs := by
  refine ⟨by rw [put_length _ _ _ h]; exact h, ?_⟩
  unfold put
  rw [List.append_assoc, List.drop_append_of_le_length (by simp; omega)]
  rw [List.drop_of_length_le (by simp; omega)]
  simp

theorem noNested_noEmpty (e : Elem) (h : e.NoNested) : e.NoEmptyInside := by
  have hflat : ∀ e : Elem, e.IsFlat → e.NoEmptyInside ∧
      ∀ m a, e ≠ .record .nil a ∧ e ≠ .refType m (.record .nil a) := by
    intro e
    induction e using Elem.rec (motive_2 := fun _ => True) with
    | refType m t ih =>
      intro h
      simp only [Elem.IsFlat] at h
      refine ⟨by simp only [Elem.NoEmptyInside]; exact (ih h).1, fun m' a => ⟨by simp, ?_⟩⟩
      intro hx
      simp only [Elem.refType.injEq] at hx
      exact ((ih h).2 m' a).1 hx.2
    | record fs a _ => intro h; simp [Elem.IsFlat] at h
    | nil => trivial
    | cons _ _ _ _ _ => trivial
    | _ => intro _; simp [Elem.NoEmptyInside]
  have hall : ∀ fs : Fields, fs.AllFlat → fs.NoEmptyInside := by
    intro fs
    induction fs using Fields.rec (motive_1 := fun _ => True) with
    | nil => intro _; trivial
    | cons n e r _ ih =>
      intro h
      simp only [Fields.NoEmptyInside]
      exact ⟨(hflat e h.1).2, (hflat e h.1).1, ih h.2⟩
    | _ => trivial
  induction e using Elem.rec (motive_2 := fun _ => True) with
  | refType m t ih => simp only [Elem.NoEmptyInside]; exact ih h
  | record fs a _ => simp only [Elem.NoEmptyInside]; exact hall fs h
  | nil => trivial
  | cons _ _ _ _ _ => trivial
  | _ => simp [Elem.NoEmptyInside]

/-! ### Arbitrary programs -/

theorem packInto_frame {data : Bytes} {off : Nat} {bs r : Bytes} (h : packInto data off bs = .ok r) :
    r.length = data.length ∧ r.take off = data.take off := by
  have hd := packInto_inv h
  rw [packInto_put, if_pos hd] at h
  simp only [Except.ok.injEq] at h
  subst h
  refine ⟨put_length _ _ _ hd, ?_⟩
  unfold put
  rw [List.append_assoc, List.take_append_of_le_length (by simp; omega), List.take_take, Nat.min_self]

theorem take_mono {a b : Bytes} {n m : Nat} (h : a.take n = b.take n) (hm : m ≤ n) : a.take m = b.take m := by
  have : (a.take n).take m = (b.take n).take m := by rw [h]
  simpa [List.take_take, Nat.min_eq_left hm] using this

theorem packItems_frame (t : IntT) (l : List PyVal) (n i : Nat) (data : Bytes) (off : Nat) (r : Bytes × Nat)
    (h : VmState.packItems t data off l i n = .ok r) :
    r.1.length = data.length ∧ r.1.take off = data.take off ∧ off ≤ r.2 := by
  induction n generalizing i data off with
  | zero =>
    simp only [VmState.packItems, Except.ok.injEq] at h
    subst h
    simp
  | succ n ih =>
    simp only [VmState.packItems, bind_ok_iff] at h
    obtain ⟨v, hv, b, hb, data', hd, h⟩ := h
    obtain ⟨h1, h2, h3⟩ := ih _ _ _ h
    obtain ⟨h4, h5⟩ := packInto_frame hd
    exact ⟨by rw [h1, h4], by rw [take_mono h2 (by omega), h5], by omega⟩

theorem execPack_frame (i : Instr) (m m' : Vm) (h : execPack i m = .ok m') :
    m'.data.length = m.data.length ∧ m'.data.take m.off = m.data.take m.off ∧ m.off ≤ m'.off := by
  cases i with
  | packProg n =>
    simp only [execPack, verifyDataLen] at h
    split at h
    · simp at h
    · simp only [Except.ok.injEq] at h; subst h; simp
  | unpackProg n => simp [execPack] at h
  | pack t n =>
    simp only [execPack, bind_ok_iff] at h
    obtain ⟨⟨d, o⟩, h, hm⟩ := h
    simp only [Except.ok.injEq] at hm
    subst hm
    simp only [VmState.packStruct, bind_ok_iff] at h
    obtain ⟨v, _, h⟩ := h
    split at h
    · cases v with
      | list l =>
        simp only [bind_ok_iff] at h
        obtain ⟨k, _, h⟩ := h
        split at h
        · simp at h
        · exact packItems_frame _ _ _ _ _ _ _ h
      | _ => simp at h
    · simp only [bind_ok_iff] at h
      obtain ⟨b, _, d', hd, h⟩ := h
      simp only [Except.ok.injEq, Prod.mk.injEq] at h
      obtain ⟨rfl, rfl⟩ := h
      obtain ⟨h1, h2⟩ := packInto_frame hd
      exact ⟨h1, h2, by simp⟩
  | packStr n =>
    simp only [execPack, bind_ok_iff] at h
    obtain ⟨⟨d, o⟩, h, hm⟩ := h
    simp only [Except.ok.injEq] at hm
    subst hm
    simp only [VmState.packStr, bind_ok_iff] at h
    obtain ⟨v, _, h⟩ := h
    cases v with
    | str s =>
      simp only [bind_ok_iff] at h
      obtain ⟨d', hd, h⟩ := h
      simp only [Except.ok.injEq, Prod.mk.injEq] at h
      obtain ⟨rfl, rfl⟩ := h
      obtain ⟨h1, h2⟩ := packInto_frame hd
      exact ⟨h1, h2, by simp⟩
    | _ => simp at h
  | unpack t n => simp [execPack] at h
  | unpackStr n => simp [execPack] at h
  | recordLeave => simp only [execPack, Except.ok.injEq] at h; subst h; simp
  | arrayLeave => simp only [execPack, Except.ok.injEq] at h; subst h; simp
  | recordEnter =>
    simp only [execPack, bind_ok_iff] at h
    obtain ⟨s, _, h⟩ := h
    simp only [Except.ok.injEq] at h; subst h; simp
  | recordSelect n =>
    simp only [execPack, bind_ok_iff] at h
    obtain ⟨s, _, h⟩ := h
    simp only [Except.ok.injEq] at h; subst h; simp
  | arrayEnter =>
    simp only [execPack, bind_ok_iff] at h
    obtain ⟨s, _, h⟩ := h
    simp only [Except.ok.injEq] at h; subst h; simp

theorem runPack_frame (first : Bool) (code : Bytes) (m r : Vm) (h : runVm .pack first code m = .ok r) :
    r.data.length = m.data.length ∧ r.data.take m.off = m.data.take m.off ∧ m.off ≤ r.off := by
  rw [runVm] at h
  split at h
  · simp at h
  · simp only [Except.ok.injEq] at h; subst h; simp
  · rename_i i rest hp
    split at h
    · simp at h
    · split at h
      · simp at h
      · rename_i m' hx
        obtain ⟨h1, h2, h3⟩ := execPack_frame i m m' hx
        have hlen := parseInstr_length hp
        obtain ⟨h4, h5, h6⟩ := runPack_frame false rest m' r h
        exact ⟨by rw [h4, h1], by rw [take_mono h5 h3, h2], by omega⟩
termination_by code.length

end Apx
