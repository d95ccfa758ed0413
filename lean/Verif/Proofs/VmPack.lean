import Verif.Proofs.Vm

namespace Apx

/-! ### What the compiler accepts -/

/-- The shapes of elements for which compilation succeeds, with code and length. -/
inductive Comp (d : Dir) : Elem → Bytes → Nat → Prop
  | scalar (tc : TypeCode) (mn mx : Option Int) (t : IntT) (h : tc.intT = some t) :
      Comp d (.prim tc mn mx none) [opScalar d t] t.size
  | scalarRef (m : Str) (tc : TypeCode) (mn mx : Option Int) (t : IntT) (h : tc.intT = some t) :
      Comp d (.refType m (.prim tc mn mx none)) [opScalar d t] t.size
  | array (tc : TypeCode) (mn mx : Option Int) (k : Nat) (t : IntT) (h : tc.intT = some t) :
      Comp d (.prim tc mn mx (some k)) (opArray d t :: leBytes 2 k) (t.size * k)
  | str (mn mx : Option Int) (k : Nat) :
      Comp d (.prim .str mn mx (some k)) (opStr d :: leBytes 2 k) k
  | record (fs : Fields) (code : Bytes) (n : Nat) (h : compileFields d fs = .ok (code, n)) :
      Comp d (.record fs none) (opEnter :: (code ++ [opLeave])) n
  | recordRef (m : Str) (fs : Fields) (code : Bytes) (n : Nat) (h : compileFields d fs = .ok (code, n)) :
      Comp d (.refType m (.record fs none)) (opEnter :: (code ++ [opLeave])) n

theorem compileScalar_inv {d : Dir} {tc : TypeCode} {r : Bytes × Nat} (h : compileScalar d tc = .ok r) :
    ∃ t, tc.intT = some t ∧ r = ([opScalar d t], t.size) := by
  unfold compileScalar at h
  split at h
  · rename_i t ht
    simp only [Except.ok.injEq] at h
    exact ⟨t, ht, h.symm⟩
  · simp at h

theorem isArray_prim (tc : TypeCode) (mn mx : Option Int) (a : Option Nat) :
    (Elem.prim tc mn mx a).isArray = .ok a.isSome := rfl
theorem isArray_record (fs : Fields) (a : Option Nat) : (Elem.record fs a).isArray = .ok a.isSome := rfl
theorem isArray_refPrim (m : Str) (tc : TypeCode) (mn mx : Option Int) (a : Option Nat) :
    (Elem.refType m (.prim tc mn mx a)).isArray = .ok a.isSome := rfl
theorem isArray_refRecord (m : Str) (fs : Fields) (a : Option Nat) :
    (Elem.refType m (.record fs a)).isArray = .ok a.isSome := rfl

theorem comp_of_compile {d : Dir} {e : Elem} {code : Bytes} {n : Nat}
    (h : compileElem d e = .ok (code, n)) : Comp d e code n := by
  match e with
  | .prim tc mn mx none =>
    rw [compileElem, isArray_prim] at h
    simp only [Option.isSome_none] at h
    obtain ⟨t, ht, hr⟩ := compileScalar_inv h
    simp only [Prod.mk.injEq] at hr
    obtain ⟨rfl, rfl⟩ := hr
    exact .scalar tc mn mx t ht
  | .prim tc mn mx (some k) =>
    rw [compileElem, isArray_prim] at h
    simp only [Option.isSome_some, compileArray] at h
    split at h
    · rename_i t ht
      simp only [arrayCode, Except.ok.injEq, Prod.mk.injEq] at h
      obtain ⟨rfl, rfl⟩ := h
      exact .array tc mn mx k t ht
    · split at h
      · rename_i hs
        subst hs
        simp only [strCode, Except.ok.injEq, Prod.mk.injEq] at h
        obtain ⟨rfl, rfl⟩ := h
        exact .str mn mx k
      · simp at h
  | .record fs none =>
    rw [compileElem, isArray_record] at h
    simp only [Option.isSome_none, bind_ok_iff] at h
    obtain ⟨⟨c, n'⟩, hc, h⟩ := h
    simp only [Except.ok.injEq, Prod.mk.injEq] at h
    obtain ⟨rfl, rfl⟩ := h
    exact .record fs c n' hc
  | .record fs (some k) =>
    rw [compileElem, isArray_record] at h
    simp [compileArray] at h
  | .refId i => rw [compileElem] at h; simp [Elem.isArray, Elem.resolveDataElement, maxRecurseDepth, Elem.resolveLoop] at h
  | .refName i => rw [compileElem] at h; simp [Elem.isArray, Elem.resolveDataElement, maxRecurseDepth, Elem.resolveLoop] at h
  | .refType m (.prim tc mn mx none) =>
    rw [compileElem, isArray_refPrim] at h
    simp only [Option.isSome_none] at h
    obtain ⟨t, ht, hr⟩ := compileScalar_inv h
    simp only [Prod.mk.injEq] at hr
    obtain ⟨rfl, rfl⟩ := hr
    exact .scalarRef m tc mn mx t ht
  | .refType m (.prim tc mn mx (some k)) =>
    rw [compileElem, isArray_refPrim] at h
    simp [compileArray] at h
  | .refType m (.record fs none) =>
    rw [compileElem, isArray_refRecord] at h
    simp only [Option.isSome_none, bind_ok_iff] at h
    obtain ⟨⟨c, n'⟩, hc, h⟩ := h
    simp only [Except.ok.injEq, Prod.mk.injEq] at h
    obtain ⟨rfl, rfl⟩ := h
    exact .recordRef m fs c n' hc
  | .refType m (.record fs (some k)) =>
    rw [compileElem, isArray_refRecord] at h
    simp [compileArray] at h
  | .refType m (.refId i) =>
    rw [compileElem] at h
    · simp [Elem.isArray, Elem.resolveDataElement, maxRecurseDepth, Elem.resolveLoop] at h
    all_goals (intros; simp_all)
  | .refType m (.refName i) =>
    rw [compileElem] at h
    · simp [Elem.isArray, Elem.resolveDataElement, maxRecurseDepth, Elem.resolveLoop] at h
    all_goals (intros; simp_all)
  | .refType m (.refType m' t) =>
    rw [compileElem] at h
    · split at h
      · simp at h
      · simp [compileArray] at h
      · simp at h
    all_goals (intros; simp_all)

theorem compileFields_cons {d : Dir} {name : Option Str} {e : Elem} {r : Fields} {code : Bytes} {n : Nat}
    (h : compileFields d (.cons name e r) = .ok (code, n)) :
    ∃ k s c m c' m', name = some k ∧ recordSelect (some k) = .ok s ∧ compileElem d e = .ok (c, m) ∧
      compileFields d r = .ok (c', m') ∧ code = s ++ (c ++ c') ∧ n = m + m' := by
  simp only [compileFields, bind_ok_iff] at h
  obtain ⟨s, hs, ⟨c, m⟩, hc, ⟨c', m'⟩, hr, h⟩ := h
  simp only [Except.ok.injEq, Prod.mk.injEq] at h
  cases name with
  | none => simp [recordSelect] at hs
  | some k => exact ⟨k, s, c, m, c', m', rfl, hs, hc, hr, h.1.symm, h.2.symm⟩

/-! ### Successful packing -/

/-- Running `code` from state `st` stores `bs` and leaves state `st'`. -/
def PackSim (code bs : Bytes) (st st' : VmState) : Prop :=
  ∀ data off rest, off + bs.length ≤ data.length →
    runVm .pack false (code ++ rest) ⟨st, data, off⟩
      = runVm .pack false rest ⟨st', put data off bs, off + bs.length⟩

theorem PackSim.append {c1 c2 b1 b2 : Bytes} {s s1 s2 : VmState} (h1 : PackSim c1 b1 s s1)
    (h2 : PackSim c2 b2 s1 s2) : PackSim (c1 ++ c2) (b1 ++ b2) s s2 := by
  intro data off rest h
  simp only [List.length_append] at h
  rw [List.append_assoc, h1 data off _ (by omega), h2 _ _ _ (by rw [put_length _ _ _ (by omega)]; omega),
    put_put _ _ _ _ (by omega)]
  simp [Nat.add_assoc]

theorem PackSim.step {c : Bytes} {i : Instr} {s s' : VmState}
    (hp : ∀ rest, parseInstr (c ++ rest) = .ok (some (i, rest)))
    (hx : ∀ data off, execPack i ⟨s, data, off⟩ = .ok ⟨s', data, off⟩) : PackSim c [] s s' := by
  intro data off rest _
  rw [runVm_step _ (hp rest)]
  simp [execInstr, hx, put_nil]

theorem pack_scalar_sim (t : IntT) (st : VmState) (v : PyVal) (bs : Bytes) (p : Place st v)
    (h : intLayout t v = some bs) : PackSim [opScalar .pack t] bs st st := by
  have hv : v.isDict = false := by
    cases v <;> simp [intLayout] at h <;> rfl
  intro data off rest hd
  rw [runVm_step _ (parse_scalar .pack t rest)]
  simp only [scalarInstr, execInstr, execPack, VmState.packStruct, current_place p (Or.inl hv), ok_bind]
  rw [if_neg (by omega), (packInt_layout t v bs).mpr h]
  simp only [ok_bind]
  rw [packInto_put, if_pos hd]
  simp [intLayout_length t v bs h]

theorem pack_array_sim (t : IntT) (k : Nat) (st : VmState) (l : List PyVal) (bs : Bytes)
    (p : Place st (.list l)) (hk : 1 ≤ k ∧ k ≤ 65535) (hl : k ≤ l.length)
    (h : intsLayout t (l.take k) = some bs) (hlen : ∀ m, dictLen st = some m → k ≤ m) :
    PackSim (opArray .pack t :: leBytes 2 k) bs st st := by
  intro data off rest hd
  rw [runVm_step _ (parse_array .pack t k rest)]
  have hm : k % 65536 = k := by omega
  simp only [arrayInstr, execInstr, execPack, VmState.packStruct, current_place p (Or.inl rfl), ok_bind, hm]
  rw [if_pos (by omega)]
  have hlen2 : ∃ m, st.value.len = .ok m ∧ k ≤ m := by
    cases p with
    | top => exact ⟨_, rfl, hl⟩
    | field d key v stack hk' => exact ⟨_, rfl, hlen _ rfl⟩
  obtain ⟨m, hm1, hm2⟩ := hlen2
  simp only [hm1, ok_bind]
  rw [if_neg (by omega), packItems_ok t l k 0 data off bs (by omega) (by simpa using h) hd]
  simp

theorem packS_textLayout_length (k : Nat) (s : Str) : (textLayout k s).length = k := by
  rw [textLayout_eq, packS_length]

theorem pack_str_sim (k : Nat) (st : VmState) (s : Str) (p : Place st (.str s)) (hk : k ≤ 65535) :
    PackSim (opStr .pack :: leBytes 2 k) (textLayout k s) st st := by
  intro data off rest hd
  rw [runVm_step _ (parse_str .pack k rest)]
  have hm : k % 65536 = k := by omega
  simp only [strInstr, execInstr, execPack, VmState.packStr, current_place p (Or.inl rfl), ok_bind, hm]
  rw [packInto_put, ← textLayout_eq, if_pos hd]
  simp [packS_textLayout_length]

theorem layout_length {d : Dir} (e : Elem) (code : Bytes) (n : Nat) (hc : Comp d e code n) (v : PyVal) (bs : Bytes)
    (h : e.layout v = some bs)
    (hf : ∀ fs c m dd b, compileFields d fs = .ok (c, m) → fs.layout dd = some b →
      (e = .record fs none ∨ ∃ nm, e = .refType nm (.record fs none)) → b.length = m) : bs.length = n := by
  cases hc with
  | scalar tc mn mx t ht =>
    simp only [Elem.layout, integer_eq, ht] at h
    exact intLayout_length t v bs h
  | scalarRef m tc mn mx t ht =>
    simp only [Elem.layout, integer_eq, ht] at h
    exact intLayout_length t v bs h
  | array tc mn mx k t ht =>
    simp only [Elem.layout, integer_eq, ht] at h
    split at h
    · rename_i t' l ht' 
      simp only [Option.some.injEq] at ht'
      subst ht'
      split at h
      · rename_i hl
        rw [intsLayout_length _ _ _ h]; simp [Nat.min_eq_left hl]
      · simp at h
    · rename_i hx; simp at hx
    · simp at h
  | str mn mx k =>
    cases v <;> simp [Elem.layout, TypeCode.integer] at h
    subst h
    exact packS_textLayout_length _ _
  | record fs code n hcf =>
    cases v <;> simp [Elem.layout] at h
    exact hf fs code n _ _ hcf h (Or.inl rfl)
  | recordRef m fs code n hcf =>
    cases v <;> simp [Elem.layout] at h
    exact hf fs code n _ _ hcf h (Or.inr ⟨m, rfl⟩)

theorem Fields.layout_cons {k : Str} {e : Elem} {r : Fields} {dd : List (Str × PyVal)} {b : Bytes}
    (h : (Fields.cons (some k) e r).layout dd = some b) :
    ∃ v b1 b2, dd.lookup k = some v ∧ e.layout v = some b1 ∧ r.layout dd = some b2 ∧ b = b1 ++ b2 := by
  simp only [Fields.layout] at h
  split at h
  · simp at h
  · rename_i v hv
    split at h
    · rename_i a c ha hc
      simp only [Option.some.injEq] at h
      exact ⟨v, a, c, hv, ha, hc, h.symm⟩
    · simp at h

mutual
theorem Elem.layout_length' {d : Dir} (e : Elem) (code : Bytes) (n : Nat) (hc : compileElem d e = .ok (code, n))
    (v : PyVal) (bs : Bytes) (h : e.layout v = some bs) : bs.length = n := by
  match e with
  | .prim tc mn mx a =>
    exact layout_length _ code n (comp_of_compile hc) v bs h (by
      intro fs c m dd b _ _ hx; rcases hx with hx | ⟨_, hx⟩ <;> simp at hx)
  | .record fs a =>
    exact layout_length _ code n (comp_of_compile hc) v bs h (by
      intro fs' c m dd b h1 h2 hx
      rcases hx with hx | ⟨_, hx⟩
      · simp only [Elem.record.injEq] at hx
        obtain ⟨rfl, _⟩ := hx
        exact Fields.layout_length' fs c m h1 dd b h2
      · simp at hx)
  | .refId i =>
    exact layout_length _ code n (comp_of_compile hc) v bs h (by
      intro fs c m dd b _ _ hx; rcases hx with hx | ⟨_, hx⟩ <;> simp at hx)
  | .refName i =>
    exact layout_length _ code n (comp_of_compile hc) v bs h (by
      intro fs c m dd b _ _ hx; rcases hx with hx | ⟨_, hx⟩ <;> simp at hx)
  | .refType nm (.record fs a) =>
    exact layout_length _ code n (comp_of_compile hc) v bs h (by
      intro fs' c m dd b h1 h2 hx
      rcases hx with hx | ⟨_, hx⟩
      · simp at hx
      · simp only [Elem.refType.injEq, Elem.record.injEq] at hx
        obtain ⟨_, rfl, _⟩ := hx
        exact Fields.layout_length' fs c m h1 dd b h2)
  | .refType nm (.prim tc mn mx a) =>
    exact layout_length _ code n (comp_of_compile hc) v bs h (by
      intro fs c m dd b _ _ hx; rcases hx with hx | ⟨_, hx⟩ <;> simp at hx)
  | .refType nm (.refId _) =>
    exact layout_length _ code n (comp_of_compile hc) v bs h (by
      intro fs c m dd b _ _ hx; rcases hx with hx | ⟨_, hx⟩ <;> simp at hx)
  | .refType nm (.refName _) =>
    exact layout_length _ code n (comp_of_compile hc) v bs h (by
      intro fs c m dd b _ _ hx; rcases hx with hx | ⟨_, hx⟩ <;> simp at hx)
  | .refType nm (.refType _ _) =>
    exact layout_length _ code n (comp_of_compile hc) v bs h (by
      intro fs c m dd b _ _ hx; rcases hx with hx | ⟨_, hx⟩ <;> simp at hx)

theorem Fields.layout_length' {d : Dir} (fs : Fields) (code : Bytes) (n : Nat)
    (hc : compileFields d fs = .ok (code, n)) (dd : List (Str × PyVal)) (bs : Bytes)
    (h : fs.layout dd = some bs) : bs.length = n := by
  match fs with
  | .nil =>
    simp only [compileFields, Except.ok.injEq, Prod.mk.injEq] at hc
    simp only [Fields.layout, Option.some.injEq] at h
    obtain ⟨_, rfl⟩ := hc
    subst h; rfl
  | .cons name e r =>
    obtain ⟨k, s, c, m, c', m', rfl, hs, he, hr, rfl, rfl⟩ := compileFields_cons hc
    obtain ⟨v, b1, b2, _, h1, h2, rfl⟩ := Fields.layout_cons h
    rw [List.length_append, Elem.layout_length' e c m he v b1 h1, Fields.layout_length' r c' m' hr dd b2 h2]
end

/-- The statement of the simulation for the fields of a record. -/
def FieldsSim (fs : Fields) : Prop :=
  ∀ code n d bs, compileFields .pack fs = .ok (code, n) → fs.LensOk → fs.NamesOk →
    fs.layout d = some bs → fs.ArraysOk d → ∀ key stack,
      ∃ key', PackSim code bs ⟨.dict d, key, none, stack⟩ ⟨.dict d, key', none, stack⟩

/-- The statement of the simulation for an element. -/
def ElemSim (e : Elem) : Prop :=
  ∀ code n v bs st, compileElem .pack e = .ok (code, n) → e.LensOk → e.NamesOk →
    e.layout v = some bs → e.ArraysOk v → Place st v →
    (∀ k, e.IsIntArray k → ∀ m, dictLen st = some m → k ≤ m) →
      ∃ key', (st.key = none → key' = none) ∧ PackSim code bs st { st with key := key' }

theorem record_sim (fs : Fields) (code : Bytes) (n : Nat) (d : List (Str × PyVal)) (bs : Bytes) (st : VmState)
    (hf : FieldsSim fs) (hc : compileFields .pack fs = .ok (code, n)) (hl : fs.LensOk) (hn : fs.NamesOk)
    (hlay : fs.layout d = some bs) (ha : fs.ArraysOk d) (p : Place st (.dict d)) :
    ∃ key', (st.key = none → key' = none) ∧
      PackSim (opEnter :: (code ++ [opLeave])) bs st { st with key := key' } := by
  refine ⟨none, fun _ => rfl, ?_⟩
  cases p with
  | top =>
    obtain ⟨key', h2⟩ := hf code n d bs hc hl hn hlay ha none []
    have h1 : PackSim [opEnter] [] ⟨.dict d, none, none, []⟩ ⟨.dict d, none, none, []⟩ :=
      PackSim.step (i := .recordEnter) (fun rest => parse_enter rest) (by
        intro data off
        simp [execPack, VmState.packRecordEnter, PyVal.isDict])
    have h3 : PackSim [opLeave] [] ⟨.dict d, key', none, []⟩ ⟨.dict d, none, none, []⟩ :=
      PackSim.step (i := .recordLeave) (fun rest => parse_leave rest) (by
        intro data off
        simp [execPack, VmState.packRecordLeave])
    have := (h1.append h2).append h3
    simpa using this
  | field dd k v stack hk =>
    obtain ⟨key', h2⟩ := hf code n d bs hc hl hn hlay ha none ((.dict dd, some k, none) :: stack)
    have h1 : PackSim [opEnter] [] ⟨.dict dd, some k, none, stack⟩
        ⟨.dict d, none, none, (.dict dd, some k, none) :: stack⟩ :=
      PackSim.step (i := .recordEnter) (fun rest => parse_enter rest) (by
        intro data off
        simp [execPack, VmState.packRecordEnter, PyVal.getKey, hk])
    have h3 : PackSim [opLeave] [] ⟨.dict d, key', none, (.dict dd, some k, none) :: stack⟩
        ⟨.dict dd, none, none, stack⟩ :=
      PackSim.step (i := .recordLeave) (fun rest => parse_leave rest) (by
        intro data off
        simp [execPack, VmState.packRecordLeave])
    have := (h1.append h2).append h3
    simpa using this

theorem elem_sim_of_fields (e : Elem)
    (hf : ∀ fs, (e = .record fs none ∨ ∃ nm, e = .refType nm (.record fs none)) → FieldsSim fs) : ElemSim e := by
  intro code n v bs st hc hl hn hlay ha p hk
  have hcomp := comp_of_compile hc
  cases hcomp with
  | scalar tc mn mx t ht =>
    simp only [Elem.layout, integer_eq, ht] at hlay
    exact ⟨st.key, fun h => h, pack_scalar_sim t st v bs p hlay⟩
  | scalarRef m tc mn mx t ht =>
    simp only [Elem.layout, integer_eq, ht] at hlay
    exact ⟨st.key, fun h => h, pack_scalar_sim t st v bs p hlay⟩
  | array tc mn mx k t ht =>
    have htc : tc ≠ .str := by rintro rfl; simp [TypeCode.intT] at ht
    cases v <;> simp [Elem.layout, integer_eq, ht] at hlay
    rename_i l
    exact ⟨st.key, fun h => h, pack_array_sim t k st l bs p (by simpa [Elem.LensOk] using hl) hlay.1 hlay.2
      (hk k ⟨tc, mn, mx, rfl, htc⟩)⟩
  | str mn mx k =>
    cases v <;> simp [Elem.layout, TypeCode.integer] at hlay
    subst hlay
    have := (show 1 ≤ n ∧ n ≤ 65535 by simpa [Elem.LensOk] using hl)
    exact ⟨st.key, fun h => h, pack_str_sim n st _ p this.2⟩
  | record fs code n hcf =>
    cases v <;> simp [Elem.layout] at hlay
    exact record_sim fs code n _ bs st (hf fs (Or.inl rfl)) hcf (by simpa [Elem.LensOk] using hl)
      (by simpa [Elem.NamesOk] using hn) hlay (by simpa [Elem.ArraysOk] using ha) p
  | recordRef m fs code n hcf =>
    cases v <;> simp [Elem.layout] at hlay
    exact record_sim fs code n _ bs st (hf fs (Or.inr ⟨m, rfl⟩)) hcf (by simpa [Elem.LensOk] using hl)
      (by simpa [Elem.NamesOk] using hn) hlay (by simpa [Elem.ArraysOk] using ha) p

theorem fields_sim_cons (name : Option Str) (e : Elem) (r : Fields) (he : ElemSim e) (hr : FieldsSim r) :
    FieldsSim (.cons name e r) := by
  intro code n d bs hc hl hn hlay ha key stack
  obtain ⟨k, s, c, m, c', m', rfl, hs, hce, hcr, rfl, rfl⟩ := compileFields_cons hc
  obtain ⟨v, b1, b2, hv, h1, h2, rfl⟩ := Fields.layout_cons hlay
  simp only [Fields.LensOk] at hl
  simp only [Fields.NamesOk] at hn
  simp only [Fields.ArraysOk] at ha
  obtain ⟨key1, _, hsim1⟩ := he c m v b1 ⟨.dict d, some k, none, stack⟩ hce hl.1 hn.2.1 h1
    (ha.2.1 k v rfl hv) (.field d k v stack hv) (by
      intro j hj m' hm'
      simp only [dictLen, Option.some.injEq] at hm'
      subst hm'
      exact ha.1 j hj)
  obtain ⟨key2, hsim2⟩ := hr c' m' d b2 hcr hl.2 hn.2.2 h2 ha.2.2 key1 stack
  refine ⟨key2, ?_⟩
  have h0 : PackSim s [] ⟨.dict d, key, none, stack⟩ ⟨.dict d, some k, none, stack⟩ :=
    PackSim.step (i := .recordSelect k) (fun rest => parse_select k (hn.1 k rfl) s rest hs) (by
      intro data off
      simp [execPack, VmState.recordSelect, PyVal.isDict])
  have := h0.append (hsim1.append hsim2)
  simpa using this

mutual
theorem Elem.sim (e : Elem) : ElemSim e := by
  match e with
  | .prim tc mn mx a =>
    exact elem_sim_of_fields _ (by intro fs hx; rcases hx with hx | ⟨_, hx⟩ <;> simp at hx)
  | .record fs a =>
    exact elem_sim_of_fields _ (by
      intro fs' hx
      rcases hx with hx | ⟨_, hx⟩
      · simp only [Elem.record.injEq] at hx
        obtain ⟨rfl, _⟩ := hx
        exact Fields.sim fs
      · simp at hx)
  | .refId i => exact elem_sim_of_fields _ (by intro fs hx; rcases hx with hx | ⟨_, hx⟩ <;> simp at hx)
  | .refName i => exact elem_sim_of_fields _ (by intro fs hx; rcases hx with hx | ⟨_, hx⟩ <;> simp at hx)
  | .refType nm (.record fs a) =>
    exact elem_sim_of_fields _ (by
      intro fs' hx
      rcases hx with hx | ⟨_, hx⟩
      · simp at hx
      · simp only [Elem.refType.injEq, Elem.record.injEq] at hx
        obtain ⟨_, rfl, _⟩ := hx
        exact Fields.sim fs)
  | .refType nm (.prim tc mn mx a) =>
    exact elem_sim_of_fields _ (by intro fs hx; rcases hx with hx | ⟨_, hx⟩ <;> simp at hx)
  | .refType nm (.refId _) =>
    exact elem_sim_of_fields _ (by intro fs hx; rcases hx with hx | ⟨_, hx⟩ <;> simp at hx)
  | .refType nm (.refName _) =>
    exact elem_sim_of_fields _ (by intro fs hx; rcases hx with hx | ⟨_, hx⟩ <;> simp at hx)
  | .refType nm (.refType _ _) =>
    exact elem_sim_of_fields _ (by intro fs hx; rcases hx with hx | ⟨_, hx⟩ <;> simp at hx)

theorem Fields.sim (fs : Fields) : FieldsSim fs := by
  match fs with
  | .nil =>
    intro code n d bs hc _ _ hlay _ key stack
    simp only [compileFields, Except.ok.injEq, Prod.mk.injEq] at hc
    simp only [Fields.layout, Option.some.injEq] at hlay
    obtain ⟨rfl, _⟩ := hc
    subst hlay
    refine ⟨key, ?_⟩
    intro data off rest _
    simp [put_nil]
  | .cons name e r => exact fields_sim_cons name e r (Elem.sim e) (Fields.sim r)
end

/-! ### Only values that fit are packed -/

theorem run_ok_step {d : Dir} {code rest : Bytes} {i : Instr} {m r : Vm}
    (hp : parseInstr code = .ok (some (i, rest))) (h : runVm d false code m = .ok r) :
    ∃ m', execInstr d i m = .ok m' ∧ runVm d false rest m' = .ok r := by
  rw [runVm_step _ hp] at h
  cases hx : execInstr d i m with
  | error x => rw [hx] at h; simp at h
  | ok m' => rw [hx] at h; exact ⟨m', rfl, h⟩

theorem packInto_inv {data : Bytes} {off : Nat} {bs r : Bytes} (h : packInto data off bs = .ok r) :
    off + bs.length ≤ data.length := by
  rw [packInto_put] at h
  split at h
  · assumption
  · simp at h

theorem pack_scalar_inv (t : IntT) (st : VmState) (v : PyVal) (p : Place st v) (data : Bytes) (off : Nat)
    (rest : Bytes) (r : Vm) (h : runVm .pack false ([opScalar .pack t] ++ rest) ⟨st, data, off⟩ = .ok r) :
    ∃ bs, intLayout t v = some bs ∧ off + bs.length ≤ data.length := by
  obtain ⟨m', hx, _⟩ := run_ok_step (parse_scalar .pack t rest) h
  simp only [scalarInstr, execInstr, execPack, VmState.packStruct, bind_ok_iff] at hx
  obtain ⟨⟨d', o'⟩, ⟨w, hw, hx⟩, _⟩ := hx
  have := current_place_inv p hw
  subst this
  rw [if_neg (by omega)] at hx
  simp only [bind_ok_iff] at hx
  obtain ⟨b, hb, d2, hd, _⟩ := hx
  exact ⟨b, (packInt_layout t w b).mp hb, packInto_inv hd⟩

theorem packItems_fit (t : IntT) (l : List PyVal) (n i : Nat) (data : Bytes) (off : Nat) (r : Bytes × Nat)
    (h : VmState.packItems t data off l i n = .ok r) (hn : 0 < n) :
    off + t.size * n ≤ data.length := by
  induction n generalizing i data off with
  | zero => omega
  | succ n ih =>
    simp only [VmState.packItems, bind_ok_iff] at h
    obtain ⟨v, hv, b, hb, data', hd, h⟩ := h
    have h1 := packInto_inv hd
    have h2 := intLayout_length t v b ((packInt_layout t v b).mp hb)
    have h3 : data'.length = data.length := by
      rw [packInto_put, if_pos h1] at hd
      simp only [Except.ok.injEq] at hd
      subst hd
      exact put_length _ _ _ h1
    cases n with
    | zero => simp; omega
    | succ n =>
      have := ih _ _ _ h (by omega)
      rw [Nat.mul_add t.size (n + 1) 1]
      omega

theorem pack_array_inv (t : IntT) (k : Nat) (hk : 1 ≤ k ∧ k ≤ 65535) (st : VmState) (v : PyVal) (p : Place st v)
    (data : Bytes) (off : Nat) (rest : Bytes) (r : Vm)
    (h : runVm .pack false ((opArray .pack t :: leBytes 2 k) ++ rest) ⟨st, data, off⟩ = .ok r) :
    ∃ l bs, v = .list l ∧ k ≤ l.length ∧ intsLayout t (l.take k) = some bs ∧
      off + bs.length ≤ data.length ∧ ∀ m, dictLen st = some m → k ≤ m := by
  obtain ⟨m', hx, _⟩ := run_ok_step (parse_array .pack t k rest) h
  have hm : k % 65536 = k := by omega
  simp only [arrayInstr, execInstr, execPack, VmState.packStruct, bind_ok_iff, hm] at hx
  obtain ⟨⟨d', o'⟩, ⟨w, hw, hx⟩, _⟩ := hx
  have := current_place_inv p hw
  subst this
  rw [if_pos (by omega)] at hx
  cases w with
  | list l =>
    simp only [bind_ok_iff] at hx
    obtain ⟨n, hn, hx⟩ := hx
    split at hx
    · simp at hx
    · have h1 := packItems_inv _ _ _ _ _ _ _ hx
      obtain ⟨b, hb⟩ := packItems_layout _ _ _ _ _ _ _ hx
      have h3 := packItems_fit _ _ _ _ _ _ _ hx (by omega)
      simp only [List.drop_zero] at hb
      refine ⟨l, b, rfl, by omega, hb, ?_, ?_⟩
      · rw [intsLayout_length _ _ _ hb, List.length_take, Nat.min_eq_left (by omega)]; exact h3
      · intro m hm'
        cases p with
        | top => simp [dictLen] at hm'
        | field d key v stack hk' =>
          simp only [dictLen, Option.some.injEq] at hm'
          simp only [PyVal.len, Except.ok.injEq] at hn
          omega
  | _ => simp at hx

theorem pack_str_inv (k : Nat) (hk : k ≤ 65535) (st : VmState) (v : PyVal) (p : Place st v) (data : Bytes)
    (off : Nat) (rest : Bytes) (r : Vm)
    (h : runVm .pack false ((opStr .pack :: leBytes 2 k) ++ rest) ⟨st, data, off⟩ = .ok r) :
    ∃ s, v = .str s ∧ off + k ≤ data.length := by
  obtain ⟨m', hx, _⟩ := run_ok_step (parse_str .pack k rest) h
  have hm : k % 65536 = k := by omega
  simp only [strInstr, execInstr, execPack, VmState.packStr, bind_ok_iff, hm] at hx
  obtain ⟨⟨d', o'⟩, ⟨w, hw, hx⟩, _⟩ := hx
  have := current_place_inv p hw
  subst this
  cases w with
  | str s =>
    simp only [bind_ok_iff] at hx
    obtain ⟨d2, hd, _⟩ := hx
    have := packInto_inv hd
    rw [packS_length] at this
    exact ⟨s, rfl, this⟩
  | _ => simp at hx

/-- The converse of `FieldsSim`. -/
def FieldsInv (fs : Fields) : Prop :=
  ∀ code n d, compileFields .pack fs = .ok (code, n) → fs.LensOk → fs.NamesOk → fs.NoEmptyInside →
    ∀ key stack data off rest r, off ≤ data.length →
      runVm .pack false (code ++ rest) ⟨⟨.dict d, key, none, stack⟩, data, off⟩ = .ok r →
      ∃ bs, fs.layout d = some bs ∧ fs.ArraysOk d ∧ off + bs.length ≤ data.length

/-- The converse of `ElemSim`. -/
def ElemInv (e : Elem) : Prop :=
  ∀ code n v st, compileElem .pack e = .ok (code, n) → e.LensOk → e.NamesOk → e.NoEmptyInside → Place st v →
    (st.key ≠ none → ∀ m a, e ≠ .record .nil a ∧ e ≠ .refType m (.record .nil a)) →
    ∀ data off rest r, off ≤ data.length → runVm .pack false (code ++ rest) ⟨st, data, off⟩ = .ok r →
      ∃ bs, e.layout v = some bs ∧ e.ArraysOk v ∧ off + bs.length ≤ data.length ∧
        ∀ k, e.IsIntArray k → ∀ m, dictLen st = some m → k ≤ m

theorem record_inv (fs : Fields) (code : Bytes) (n : Nat) (v : PyVal) (st : VmState)
    (hf : FieldsInv fs) (hc : compileFields .pack fs = .ok (code, n)) (hl : fs.LensOk) (hn : fs.NamesOk)
    (hne : fs.NoEmptyInside) (p : Place st v) (hnil : st.key ≠ none → fs ≠ .nil)
    (data : Bytes) (off : Nat) (rest : Bytes) (r : Vm) (ho : off ≤ data.length)
    (h : runVm .pack false (opEnter :: (code ++ [opLeave]) ++ rest) ⟨st, data, off⟩ = .ok r) :
    ∃ d bs, v = .dict d ∧ fs.layout d = some bs ∧ fs.ArraysOk d ∧ off + bs.length ≤ data.length := by
  rw [List.cons_append, List.append_assoc] at h
  obtain ⟨m', hx, h⟩ := run_ok_step (parse_enter _) h
  simp only [execInstr, execPack, bind_ok_iff] at hx
  obtain ⟨st', hx, hm⟩ := hx
  simp only [Except.ok.injEq] at hm
  subst hm
  cases p with
  | top =>
    simp only [VmState.packRecordEnter] at hx
    split at hx
    · rename_i hd
      simp only [Except.ok.injEq] at hx
      subst hx
      cases v with
      | dict d =>
        obtain ⟨bs, h1, h2, h3⟩ := hf code n d hc hl hn hne _ _ _ _ _ _ ho h
        exact ⟨d, bs, rfl, h1, h2, h3⟩
      | _ => simp [PyVal.isDict] at hd
    · simp at hx
  | field dd k v stack hk =>
    simp only [VmState.packRecordEnter, PyVal.getKey, hk, ok_bind, Except.ok.injEq] at hx
    subst hx
    cases fs with
    | nil => exact absurd rfl (hnil (by simp))
    | cons name e rr =>
      have hd : ∃ d, v = .dict d := by
        obtain ⟨k', s, c, m, c', m'', rfl, hs, hce, hcr, rfl, rfl⟩ := compileFields_cons hc
        simp only [Fields.NamesOk] at hn
        rw [List.append_assoc s] at h
        obtain ⟨m3, hx, _⟩ := run_ok_step (parse_select k' (hn.1 k' rfl) s _ hs) h
        simp only [execInstr, execPack, bind_ok_iff, VmState.recordSelect] at hx
        obtain ⟨st', hx, _⟩ := hx
        split at hx
        · rename_i hd
          cases v with
          | dict d => exact ⟨d, rfl⟩
          | _ => simp [PyVal.isDict] at hd
        · simp at hx
      obtain ⟨d, rfl⟩ := hd
      obtain ⟨bs, h1, h2, h3⟩ := hf code n d hc hl hn hne _ _ _ _ _ _ ho h
      exact ⟨d, bs, rfl, h1, h2, h3⟩

theorem elem_inv_of_fields (e : Elem)
    (hf : ∀ fs, (e = .record fs none ∨ ∃ nm, e = .refType nm (.record fs none)) → FieldsInv fs) : ElemInv e := by
  intro code n v st hc hl hn hne p hnil data off rest r ho h
  have hcomp := comp_of_compile hc
  cases hcomp with
  | scalar tc mn mx t ht =>
    obtain ⟨bs, h1, h2⟩ := pack_scalar_inv t st v p data off rest r h
    refine ⟨bs, by simp [Elem.layout, integer_eq, ht, h1], by simp [Elem.ArraysOk], h2, ?_⟩
    rintro k ⟨_, _, _, hx, _⟩
    simp at hx
  | scalarRef m tc mn mx t ht =>
    obtain ⟨bs, h1, h2⟩ := pack_scalar_inv t st v p data off rest r h
    refine ⟨bs, by simp [Elem.layout, integer_eq, ht, h1], by simp [Elem.ArraysOk], h2, ?_⟩
    rintro k ⟨_, _, _, hx, _⟩
    simp at hx
  | array tc mn mx k t ht =>
    obtain ⟨l, bs, rfl, h1, h2, h3, h4⟩ :=
      pack_array_inv t k (by simpa [Elem.LensOk] using hl) st v p data off rest r h
    refine ⟨bs, by simp [Elem.layout, integer_eq, ht, h1, h2], by simp [Elem.ArraysOk], h3, ?_⟩
    rintro k' ⟨_, _, _, hx, _⟩
    simp only [Elem.prim.injEq, Option.some.injEq] at hx
    obtain ⟨_, _, _, rfl⟩ := hx
    exact h4
  | str mn mx k =>
    have hk := (show 1 ≤ n ∧ n ≤ 65535 by simpa [Elem.LensOk] using hl)
    obtain ⟨s, rfl, h1⟩ := pack_str_inv n hk.2 st v p data off rest r h
    refine ⟨textLayout n s, by simp [Elem.layout, TypeCode.integer], by simp [Elem.ArraysOk],
      by rw [packS_textLayout_length]; exact h1, ?_⟩
    rintro k ⟨_, _, _, hx, hne⟩
    simp only [Elem.prim.injEq] at hx
    exact absurd hx.1.symm hne
  | record fs code n hcf =>
    obtain ⟨d, bs, rfl, h1, h2, h3⟩ := record_inv fs code n v st (hf fs (Or.inl rfl)) hcf
      (by simpa [Elem.LensOk] using hl) (by simpa [Elem.NamesOk] using hn)
      (by simpa [Elem.NoEmptyInside] using hne) p
      (by intro hk hx; subst hx; exact (hnil hk [] none).1 rfl) data off rest r ho h
    refine ⟨bs, by simp [Elem.layout, h1], by simp [Elem.ArraysOk, h2], h3, ?_⟩
    rintro k ⟨_, _, _, hx, _⟩
    simp at hx
  | recordRef m fs code n hcf =>
    obtain ⟨d, bs, rfl, h1, h2, h3⟩ := record_inv fs code n v st (hf fs (Or.inr ⟨m, rfl⟩)) hcf
      (by simpa [Elem.LensOk] using hl) (by simpa [Elem.NamesOk] using hn)
      (by simpa [Elem.NoEmptyInside] using hne) p
      (by intro hk hx; subst hx; exact (hnil hk m none).2 rfl) data off rest r ho h
    refine ⟨bs, by simp [Elem.layout, h1], by simp [Elem.ArraysOk, h2], h3, ?_⟩
    rintro k ⟨_, _, _, hx, _⟩
    simp at hx

theorem fields_inv_cons (name : Option Str) (e : Elem) (rr : Fields) (he : ElemInv e) (hr : FieldsInv rr) :
    FieldsInv (.cons name e rr) := by
  intro code n d hc hl hn hne key stack data off rest r ho h
  obtain ⟨k, s, c, m, c', m', rfl, hs, hce, hcr, rfl, rfl⟩ := compileFields_cons hc
  simp only [Fields.LensOk] at hl
  simp only [Fields.NamesOk] at hn
  simp only [Fields.NoEmptyInside] at hne
  rw [List.append_assoc, List.append_assoc] at h
  obtain ⟨m3, hx, h⟩ := run_ok_step (parse_select k (hn.1 k rfl) s _ hs) h
  simp only [execInstr, execPack, VmState.recordSelect, PyVal.isDict, if_true, ok_bind, Except.ok.injEq] at hx
  subst hx
  -- the selected entry exists
  have hv : ∃ v, d.lookup k = some v := by
    cases hlk : d.lookup k with
    | some v => exact ⟨v, rfl⟩
    | none =>
      exfalso
      have hcomp := comp_of_compile hce
      cases hcomp with
      | scalar tc mn mx t ht =>
        obtain ⟨m', hx, _⟩ := run_ok_step (parse_scalar .pack t _) h
        simp [scalarInstr, execInstr, execPack, VmState.packStruct, VmState.current, PyVal.isDict,
          PyVal.getKey, hlk, error_bind] at hx
      | scalarRef m tc mn mx t ht =>
        obtain ⟨m', hx, _⟩ := run_ok_step (parse_scalar .pack t _) h
        simp [scalarInstr, execInstr, execPack, VmState.packStruct, VmState.current, PyVal.isDict,
          PyVal.getKey, hlk, error_bind] at hx
      | array tc mn mx k t ht =>
        obtain ⟨m', hx, _⟩ := run_ok_step (parse_array .pack t k _) h
        simp [arrayInstr, execInstr, execPack, VmState.packStruct, VmState.current, PyVal.isDict,
          PyVal.getKey, hlk, error_bind] at hx
      | str mn mx k =>
        obtain ⟨m', hx, _⟩ := run_ok_step (parse_str .pack m _) h
        simp [strInstr, execInstr, execPack, VmState.packStr, VmState.current, PyVal.isDict,
          PyVal.getKey, hlk, error_bind] at hx
      | record fs code n hcf =>
        rw [List.cons_append] at h
        obtain ⟨m', hx, _⟩ := run_ok_step (parse_enter _) h
        simp [execInstr, execPack, VmState.packRecordEnter, PyVal.getKey, hlk, error_bind] at hx
      | recordRef m fs code n hcf =>
        rw [List.cons_append] at h
        obtain ⟨m', hx, _⟩ := run_ok_step (parse_enter _) h
        simp [execInstr, execPack, VmState.packRecordEnter, PyVal.getKey, hlk, error_bind] at hx
  obtain ⟨v, hv⟩ := hv
  have p : Place ⟨.dict d, some k, none, stack⟩ v := .field d k v stack hv
  obtain ⟨b1, h1, h2, h3, h4⟩ := he c m v _ hce hl.1 hn.2.1 hne.2.1 p (fun _ => hne.1) data off _ r ho h
  obtain ⟨key1, _, hsim⟩ := Elem.sim e c m v b1 _ hce hl.1 hn.2.1 h1 h2 p h4
  rw [hsim data off _ h3] at h
  obtain ⟨b2, h5, h6, h7⟩ := hr c' m' d hcr hl.2 hn.2.2 hne.2.2 key1 stack _ _ _ r
    (by rw [put_length _ _ _ h3]; exact h3) h
  rw [put_length _ _ _ h3] at h7
  refine ⟨b1 ++ b2, by simp [Fields.layout, hv, h1, h5], ?_, by simp; omega⟩
  simp only [Fields.ArraysOk]
  refine ⟨fun j hj => h4 j hj _ rfl, ?_, h6⟩
  intro k' v' hk' hv'
  simp only [Option.some.injEq] at hk'
  subst hk'
  rw [hv] at hv'
  simp only [Option.some.injEq] at hv'
  subst hv'
  exact h2

mutual
theorem Elem.inv (e : Elem) : ElemInv e := by
  match e with
  | .prim tc mn mx a =>
    exact elem_inv_of_fields _ (by intro fs hx; rcases hx with hx | ⟨_, hx⟩ <;> simp at hx)
  | .record fs a =>
    exact elem_inv_of_fields _ (by
      intro fs' hx
      rcases hx with hx | ⟨_, hx⟩
      · simp only [Elem.record.injEq] at hx
        obtain ⟨rfl, _⟩ := hx
        exact Fields.inv fs
      · simp at hx)
  | .refId i => exact elem_inv_of_fields _ (by intro fs hx; rcases hx with hx | ⟨_, hx⟩ <;> simp at hx)
  | .refName i => exact elem_inv_of_fields _ (by intro fs hx; rcases hx with hx | ⟨_, hx⟩ <;> simp at hx)
  | .refType nm (.record fs a) =>
    exact elem_inv_of_fields _ (by
      intro fs' hx
      rcases hx with hx | ⟨_, hx⟩
      · simp at hx
      · simp only [Elem.refType.injEq, Elem.record.injEq] at hx
        obtain ⟨_, rfl, _⟩ := hx
        exact Fields.inv fs)
  | .refType nm (.prim tc mn mx a) =>
    exact elem_inv_of_fields _ (by intro fs hx; rcases hx with hx | ⟨_, hx⟩ <;> simp at hx)
  | .refType nm (.refId _) =>
    exact elem_inv_of_fields _ (by intro fs hx; rcases hx with hx | ⟨_, hx⟩ <;> simp at hx)
  | .refType nm (.refName _) =>
    exact elem_inv_of_fields _ (by intro fs hx; rcases hx with hx | ⟨_, hx⟩ <;> simp at hx)
  | .refType nm (.refType _ _) =>
    exact elem_inv_of_fields _ (by intro fs hx; rcases hx with hx | ⟨_, hx⟩ <;> simp at hx)

theorem Fields.inv (fs : Fields) : FieldsInv fs := by
  match fs with
  | .nil =>
    intro code n d hc _ _ _ key stack data off rest r ho h
    exact ⟨[], by simp [Fields.layout], by simp [Fields.ArraysOk], by simpa using ho⟩
  | .cons name e r => exact fields_inv_cons name e r (Elem.inv e) (Fields.inv r)
end

end Apx
