import Verif.Proofs.VmProg
import Verif.Spec.LaxLayout

/-! Exactly which values a program packs: records inside records that are empty accept any value. -/

namespace Apx

theorem laxLayout_length {d : Dir} (e : Elem) (code : Bytes) (n : Nat) (hc : Comp d e code n) (v : PyVal) (bs : Bytes)
    (h : e.laxLayout v = some bs)
    (hf : ∀ fs c m dd b, compileFields d fs = .ok (c, m) → fs.laxLayout dd = some b →
      (e = .record fs none ∨ ∃ nm, e = .refType nm (.record fs none)) → b.length = m) : bs.length = n := by
  cases hc with
  | scalar tc mn mx t ht =>
    simp only [Elem.laxLayout, Elem.layout, integer_eq, ht] at h
    exact intLayout_length t v bs h
  | scalarRef m tc mn mx t ht =>
    simp only [Elem.laxLayout, Elem.layout, integer_eq, ht] at h
    exact intLayout_length t v bs h
  | array tc mn mx k t ht =>
    simp only [Elem.laxLayout, Elem.layout, integer_eq, ht] at h
    split at h
    · rename_i t' l ht' 
      simp only [Option.some.injEq] at ht'
      subst ht'
      split at h
      · rename_i hl
        rw [intsLayout_length _ _ _ h]; simp [Nat.min_eq_left hl]
      · simp at h
    · rename_i hx; simp at hx
    · simp at h
  | str mn mx k =>
    cases v <;> simp [Elem.laxLayout, Elem.layout, TypeCode.integer] at h
    subst h
    exact packS_textLayout_length _ _
  | record fs code n hcf =>
    cases v <;> simp [Elem.laxLayout] at h
    exact hf fs code n _ _ hcf h (Or.inl rfl)
  | recordRef m fs code n hcf =>
    cases v <;> simp [Elem.laxLayout] at h
    exact hf fs code n _ _ hcf h (Or.inr ⟨m, rfl⟩)

theorem Fields.laxLayout_cons {k : Str} {e : Elem} {r : Fields} {dd : List (Str × PyVal)} {b : Bytes}
    (h : (Fields.cons (some k) e r).laxLayout dd = some b) :
    ∃ v b1 b2, dd.lookup k = some v ∧ (if e.isEmptyRecord then some [] else e.laxLayout v) = some b1 ∧
      r.laxLayout dd = some b2 ∧ b = b1 ++ b2 := by
  simp only [Fields.laxLayout] at h
  split at h
  · simp at h
  · rename_i v hv
    split at h
    · rename_i a c ha hc
      simp only [Option.some.injEq] at h
      exact ⟨v, a, c, hv, ha, hc, h.symm⟩
    · simp at h

/-- The code for an empty record. -/
theorem emptyRecord_code {d : Dir} {e : Elem} {code : Bytes} {n : Nat} (hc : compileElem d e = .ok (code, n))
    (h : e.isEmptyRecord = true) : code = [opEnter, opLeave] ∧ n = 0 := by
  have hcomp := comp_of_compile hc
  cases hcomp with
  | record fs code n hcf =>
    cases fs with
    | nil =>
      simp only [compileFields, Except.ok.injEq, Prod.mk.injEq] at hcf
      obtain ⟨rfl, rfl⟩ := hcf
      exact ⟨rfl, rfl⟩
    | cons _ _ _ => simp [Elem.isEmptyRecord] at h
  | recordRef m fs code n hcf =>
    cases fs with
    | nil =>
      simp only [compileFields, Except.ok.injEq, Prod.mk.injEq] at hcf
      obtain ⟨rfl, rfl⟩ := hcf
      exact ⟨rfl, rfl⟩
    | cons _ _ _ => simp [Elem.isEmptyRecord] at h
  | _ => simp [Elem.isEmptyRecord] at h

theorem emptyRecord_sim (dd : List (Str × PyVal)) (k : Str) (v : PyVal) (stack : List (PyVal × Option Str × Option Nat))
    (hk : dd.lookup k = some v) :
    PackSim [opEnter, opLeave] [] ⟨.dict dd, some k, none, stack⟩ ⟨.dict dd, none, none, stack⟩ := by
  have h1 : PackSim [opEnter] [] ⟨.dict dd, some k, none, stack⟩ ⟨v, none, none, (.dict dd, some k, none) :: stack⟩ :=
    PackSim.step (i := .recordEnter) (fun rest => parse_enter rest) (by
      intro data off
      simp [execPack, VmState.packRecordEnter, PyVal.getKey, hk])
  have h3 : PackSim [opLeave] [] ⟨v, none, none, (.dict dd, some k, none) :: stack⟩ ⟨.dict dd, none, none, stack⟩ :=
    PackSim.step (i := .recordLeave) (fun rest => parse_leave rest) (by
      intro data off
      simp [execPack, VmState.packRecordLeave])
  have := h1.append h3
  simpa using this

mutual
theorem Elem.laxLayout_length' {d : Dir} (e : Elem) (code : Bytes) (n : Nat) (hc : compileElem d e = .ok (code, n))
    (v : PyVal) (bs : Bytes) (h : e.laxLayout v = some bs) : bs.length = n := by
  match e with
  | .prim tc mn mx a =>
    exact laxLayout_length _ code n (comp_of_compile hc) v bs h (by
      intro fs c m dd b _ _ hx; rcases hx with hx | ⟨_, hx⟩ <;> simp at hx)
  | .record fs a =>
    exact laxLayout_length _ code n (comp_of_compile hc) v bs h (by
      intro fs' c m dd b h1 h2 hx
      rcases hx with hx | ⟨_, hx⟩
      · simp only [Elem.record.injEq] at hx
        obtain ⟨rfl, _⟩ := hx
        exact Fields.laxLayout_length' fs c m h1 dd b h2
      · simp at hx)
  | .refId i =>
    exact laxLayout_length _ code n (comp_of_compile hc) v bs h (by
      intro fs c m dd b _ _ hx; rcases hx with hx | ⟨_, hx⟩ <;> simp at hx)
  | .refName i =>
    exact laxLayout_length _ code n (comp_of_compile hc) v bs h (by
      intro fs c m dd b _ _ hx; rcases hx with hx | ⟨_, hx⟩ <;> simp at hx)
  | .refType nm (.record fs a) =>
    exact laxLayout_length _ code n (comp_of_compile hc) v bs h (by
      intro fs' c m dd b h1 h2 hx
      rcases hx with hx | ⟨_, hx⟩
      · simp at hx
      · simp only [Elem.refType.injEq, Elem.record.injEq] at hx
        obtain ⟨_, rfl, _⟩ := hx
        exact Fields.laxLayout_length' fs c m h1 dd b h2)
  | .refType nm (.prim tc mn mx a) =>
    exact laxLayout_length _ code n (comp_of_compile hc) v bs h (by
      intro fs c m dd b _ _ hx; rcases hx with hx | ⟨_, hx⟩ <;> simp at hx)
  | .refType nm (.refId _) =>
    exact laxLayout_length _ code n (comp_of_compile hc) v bs h (by
      intro fs c m dd b _ _ hx; rcases hx with hx | ⟨_, hx⟩ <;> simp at hx)
  | .refType nm (.refName _) =>
    exact laxLayout_length _ code n (comp_of_compile hc) v bs h (by
      intro fs c m dd b _ _ hx; rcases hx with hx | ⟨_, hx⟩ <;> simp at hx)
  | .refType nm (.refType _ _) =>
    exact laxLayout_length _ code n (comp_of_compile hc) v bs h (by
      intro fs c m dd b _ _ hx; rcases hx with hx | ⟨_, hx⟩ <;> simp at hx)

theorem Fields.laxLayout_length' {d : Dir} (fs : Fields) (code : Bytes) (n : Nat)
    (hc : compileFields d fs = .ok (code, n)) (dd : List (Str × PyVal)) (bs : Bytes)
    (h : fs.laxLayout dd = some bs) : bs.length = n := by
  match fs with
  | .nil =>
    simp only [compileFields, Except.ok.injEq, Prod.mk.injEq] at hc
    simp only [Fields.laxLayout, Option.some.injEq] at h
    obtain ⟨_, rfl⟩ := hc
    subst h; rfl
  | .cons name e r =>
    obtain ⟨k, s, c, m, c', m', rfl, hs, he, hr, rfl, rfl⟩ := compileFields_cons hc
    obtain ⟨v, b1, b2, _, h1, h2, rfl⟩ := Fields.laxLayout_cons h
    rw [List.length_append, Fields.laxLayout_length' r c' m' hr dd b2 h2]
    split at h1
    · rename_i hem
      rw [(emptyRecord_code he hem).2, ← Option.some.inj h1]
      rfl
    · rw [Elem.laxLayout_length' e c m he v b1 h1]
end

/-- The statement of the simulation for the fields of a record. -/
def FieldsSimLax (fs : Fields) : Prop :=
  ∀ code n d bs, compileFields .pack fs = .ok (code, n) → fs.LensOk → fs.NamesOk →
    fs.laxLayout d = some bs → fs.ArraysOk d → ∀ key stack,
      ∃ key', PackSim code bs ⟨.dict d, key, none, stack⟩ ⟨.dict d, key', none, stack⟩

/-- The statement of the simulation for an element. -/
def ElemSimLax (e : Elem) : Prop :=
  ∀ code n v bs st, compileElem .pack e = .ok (code, n) → e.LensOk → e.NamesOk →
    e.laxLayout v = some bs → e.ArraysOk v → Place st v →
    (∀ k, e.IsIntArray k → ∀ m, dictLen st = some m → k ≤ m) →
      ∃ key', (st.key = none → key' = none) ∧ PackSim code bs st { st with key := key' }

theorem record_simLax (fs : Fields) (code : Bytes) (n : Nat) (d : List (Str × PyVal)) (bs : Bytes) (st : VmState)
    (hf : FieldsSimLax fs) (hc : compileFields .pack fs = .ok (code, n)) (hl : fs.LensOk) (hn : fs.NamesOk)
    (hlay : fs.laxLayout d = some bs) (ha : fs.ArraysOk d) (p : Place st (.dict d)) :
    ∃ key', (st.key = none → key' = none) ∧
      PackSim (opEnter :: (code ++ [opLeave])) bs st { st with key := key' } := by
  refine ⟨none, fun _ => rfl, ?_⟩
  cases p with
  | top =>
    obtain ⟨key', h2⟩ := hf code n d bs hc hl hn hlay ha none []
    have h1 : PackSim [opEnter] [] ⟨.dict d, none, none, []⟩ ⟨.dict d, none, none, []⟩ :=
      PackSim.step (i := .recordEnter) (fun rest => parse_enter rest) (by
        intro data off
        simp [execPack, VmState.packRecordEnter, PyVal.isDict])
    have h3 : PackSim [opLeave] [] ⟨.dict d, key', none, []⟩ ⟨.dict d, none, none, []⟩ :=
      PackSim.step (i := .recordLeave) (fun rest => parse_leave rest) (by
        intro data off
        simp [execPack, VmState.packRecordLeave])
    have := (h1.append h2).append h3
    simpa using this
  | field dd k v stack hk =>
    obtain ⟨key', h2⟩ := hf code n d bs hc hl hn hlay ha none ((.dict dd, some k, none) :: stack)
    have h1 : PackSim [opEnter] [] ⟨.dict dd, some k, none, stack⟩
        ⟨.dict d, none, none, (.dict dd, some k, none) :: stack⟩ :=
      PackSim.step (i := .recordEnter) (fun rest => parse_enter rest) (by
        intro data off
        simp [execPack, VmState.packRecordEnter, PyVal.getKey, hk])
    have h3 : PackSim [opLeave] [] ⟨.dict d, key', none, (.dict dd, some k, none) :: stack⟩
        ⟨.dict dd, none, none, stack⟩ :=
      PackSim.step (i := .recordLeave) (fun rest => parse_leave rest) (by
        intro data off
        simp [execPack, VmState.packRecordLeave])
    have := (h1.append h2).append h3
    simpa using this

theorem elem_sim_of_fieldsLax (e : Elem)
    (hf : ∀ fs, (e = .record fs none ∨ ∃ nm, e = .refType nm (.record fs none)) → FieldsSimLax fs) : ElemSimLax e := by
  intro code n v bs st hc hl hn hlay ha p hk
  have hcomp := comp_of_compile hc
  cases hcomp with
  | scalar tc mn mx t ht =>
    simp only [Elem.laxLayout, Elem.layout, integer_eq, ht] at hlay
    exact ⟨st.key, fun h => h, pack_scalar_sim t st v bs p hlay⟩
  | scalarRef m tc mn mx t ht =>
    simp only [Elem.laxLayout, Elem.layout, integer_eq, ht] at hlay
    exact ⟨st.key, fun h => h, pack_scalar_sim t st v bs p hlay⟩
  | array tc mn mx k t ht =>
    have htc : tc ≠ .str := by rintro rfl; simp [TypeCode.intT] at ht
    cases v <;> simp [Elem.laxLayout, Elem.layout, integer_eq, ht] at hlay
    rename_i l
    exact ⟨st.key, fun h => h, pack_array_sim t k st l bs p (by simpa [Elem.LensOk] using hl) hlay.1 hlay.2
      (hk k ⟨tc, mn, mx, rfl, htc⟩)⟩
  | str mn mx k =>
    cases v <;> simp [Elem.laxLayout, Elem.layout, TypeCode.integer] at hlay
    subst hlay
    have := (show 1 ≤ n ∧ n ≤ 65535 by simpa [Elem.LensOk] using hl)
    exact ⟨st.key, fun h => h, pack_str_sim n st _ p this.2⟩
  | record fs code n hcf =>
    cases v <;> simp [Elem.laxLayout] at hlay
    exact record_simLax fs code n _ bs st (hf fs (Or.inl rfl)) hcf (by simpa [Elem.LensOk] using hl)
      (by simpa [Elem.NamesOk] using hn) hlay (by simpa [Elem.ArraysOk] using ha) p
  | recordRef m fs code n hcf =>
    cases v <;> simp [Elem.laxLayout] at hlay
    exact record_simLax fs code n _ bs st (hf fs (Or.inr ⟨m, rfl⟩)) hcf (by simpa [Elem.LensOk] using hl)
      (by simpa [Elem.NamesOk] using hn) hlay (by simpa [Elem.ArraysOk] using ha) p

theorem fields_sim_consLax (name : Option Str) (e : Elem) (r : Fields) (he : ElemSimLax e) (hr : FieldsSimLax r) :
    FieldsSimLax (.cons name e r) := by
  intro code n d bs hc hl hn hlay ha key stack
  obtain ⟨k, s, c, m, c', m', rfl, hs, hce, hcr, rfl, rfl⟩ := compileFields_cons hc
  obtain ⟨v, b1, b2, hv, h1, h2, rfl⟩ := Fields.laxLayout_cons hlay
  simp only [Fields.LensOk] at hl
  simp only [Fields.NamesOk] at hn
  simp only [Fields.ArraysOk] at ha
  have hfield : ∃ key1, PackSim c b1 ⟨.dict d, some k, none, stack⟩ ⟨.dict d, key1, none, stack⟩ := by
    split at h1
    · rename_i hem
      rw [(emptyRecord_code hce hem).1, ← Option.some.inj h1]
      exact ⟨none, emptyRecord_sim d k v stack hv⟩
    · obtain ⟨key1, _, hsim1⟩ := he c m v b1 ⟨.dict d, some k, none, stack⟩ hce hl.1 hn.2.1 h1
        (ha.2.1 k v rfl hv) (.field d k v stack hv) (by
          intro j hj m' hm'
          simp only [dictLen, Option.some.injEq] at hm'
          subst hm'
          exact ha.1 j hj)
      exact ⟨key1, hsim1⟩
  obtain ⟨key1, hsim1⟩ := hfield
  obtain ⟨key2, hsim2⟩ := hr c' m' d b2 hcr hl.2 hn.2.2 h2 ha.2.2 key1 stack
  refine ⟨key2, ?_⟩
  have h0 : PackSim s [] ⟨.dict d, key, none, stack⟩ ⟨.dict d, some k, none, stack⟩ :=
    PackSim.step (i := .recordSelect k) (fun rest => parse_select k (hn.1 k rfl) s rest hs) (by
      intro data off
      simp [execPack, VmState.recordSelect, PyVal.isDict])
  have := h0.append (hsim1.append hsim2)
  simpa using this

mutual
theorem Elem.simLax (e : Elem) : ElemSimLax e := by
  match e with
  | .prim tc mn mx a =>
    exact elem_sim_of_fieldsLax _ (by intro fs hx; rcases hx with hx | ⟨_, hx⟩ <;> simp at hx)
  | .record fs a =>
    exact elem_sim_of_fieldsLax _ (by
      intro fs' hx
      rcases hx with hx | ⟨_, hx⟩
      · simp only [Elem.record.injEq] at hx
        obtain ⟨rfl, _⟩ := hx
        exact Fields.simLax fs
      · simp at hx)
  | .refId i => exact elem_sim_of_fieldsLax _ (by intro fs hx; rcases hx with hx | ⟨_, hx⟩ <;> simp at hx)
  | .refName i => exact elem_sim_of_fieldsLax _ (by intro fs hx; rcases hx with hx | ⟨_, hx⟩ <;> simp at hx)
  | .refType nm (.record fs a) =>
    exact elem_sim_of_fieldsLax _ (by
      intro fs' hx
      rcases hx with hx | ⟨_, hx⟩
      · simp at hx
      · simp only [Elem.refType.injEq, Elem.record.injEq] at hx
        obtain ⟨_, rfl, _⟩ := hx
        exact Fields.simLax fs)
  | .refType nm (.prim tc mn mx a) =>
    exact elem_sim_of_fieldsLax _ (by intro fs hx; rcases hx with hx | ⟨_, hx⟩ <;> simp at hx)
  | .refType nm (.refId _) =>
    exact elem_sim_of_fieldsLax _ (by intro fs hx; rcases hx with hx | ⟨_, hx⟩ <;> simp at hx)
  | .refType nm (.refName _) =>
    exact elem_sim_of_fieldsLax _ (by intro fs hx; rcases hx with hx | ⟨_, hx⟩ <;> simp at hx)
  | .refType nm (.refType _ _) =>
    exact elem_sim_of_fieldsLax _ (by intro fs hx; rcases hx with hx | ⟨_, hx⟩ <;> simp at hx)

theorem Fields.simLax (fs : Fields) : FieldsSimLax fs := by
  match fs with
  | .nil =>
    intro code n d bs hc _ _ hlay _ key stack
    simp only [compileFields, Except.ok.injEq, Prod.mk.injEq] at hc
    simp only [Fields.laxLayout, Option.some.injEq] at hlay
    obtain ⟨rfl, _⟩ := hc
    subst hlay
    refine ⟨key, ?_⟩
    intro data off rest _
    simp [put_nil]
  | .cons name e r => exact fields_sim_consLax name e r (Elem.simLax e) (Fields.simLax r)
end

/-- The converse of `FieldsSimLax`. -/
def FieldsInvLax (fs : Fields) : Prop :=
  ∀ code n d, compileFields .pack fs = .ok (code, n) → fs.LensOk → fs.NamesOk →
    ∀ key stack data off rest r, off ≤ data.length →
      runVm .pack false (code ++ rest) ⟨⟨.dict d, key, none, stack⟩, data, off⟩ = .ok r →
      ∃ bs, fs.laxLayout d = some bs ∧ fs.ArraysOk d ∧ off + bs.length ≤ data.length

/-- The converse of `ElemSimLax`. -/
def ElemInvLax (e : Elem) : Prop :=
  ∀ code n v st, compileElem .pack e = .ok (code, n) → e.LensOk → e.NamesOk → Place st v →
    (st.key ≠ none → ∀ m a, e ≠ .record .nil a ∧ e ≠ .refType m (.record .nil a)) →
    ∀ data off rest r, off ≤ data.length → runVm .pack false (code ++ rest) ⟨st, data, off⟩ = .ok r →
      ∃ bs, e.laxLayout v = some bs ∧ e.ArraysOk v ∧ off + bs.length ≤ data.length ∧
        ∀ k, e.IsIntArray k → ∀ m, dictLen st = some m → k ≤ m

theorem record_invLax (fs : Fields) (code : Bytes) (n : Nat) (v : PyVal) (st : VmState)
    (hf : FieldsInvLax fs) (hc : compileFields .pack fs = .ok (code, n)) (hl : fs.LensOk) (hn : fs.NamesOk)
    (p : Place st v) (hnil : st.key ≠ none → fs ≠ .nil)
    (data : Bytes) (off : Nat) (rest : Bytes) (r : Vm) (ho : off ≤ data.length)
    (h : runVm .pack false (opEnter :: (code ++ [opLeave]) ++ rest) ⟨st, data, off⟩ = .ok r) :
    ∃ d bs, v = .dict d ∧ fs.laxLayout d = some bs ∧ fs.ArraysOk d ∧ off + bs.length ≤ data.length := by
  rw [List.cons_append, List.append_assoc] at h
  obtain ⟨m', hx, h⟩ := run_ok_step (parse_enter _) h
  simp only [execInstr, execPack, bind_ok_iff] at hx
  obtain ⟨st', hx, hm⟩ := hx
  simp only [Except.ok.injEq] at hm
  subst hm
  cases p with
  | top =>
    simp only [VmState.packRecordEnter] at hx
    split at hx
    · rename_i hd
      simp only [Except.ok.injEq] at hx
      subst hx
      cases v with
      | dict d =>
        obtain ⟨bs, h1, h2, h3⟩ := hf code n d hc hl hn _ _ _ _ _ _ ho h
        exact ⟨d, bs, rfl, h1, h2, h3⟩
      | _ => simp [PyVal.isDict] at hd
    · simp at hx
  | field dd k v stack hk =>
    simp only [VmState.packRecordEnter, PyVal.getKey, hk, ok_bind, Except.ok.injEq] at hx
    subst hx
    cases fs with
    | nil => exact absurd rfl (hnil (by simp))
    | cons name e rr =>
      have hd : ∃ d, v = .dict d := by
        obtain ⟨k', s, c, m, c', m'', rfl, hs, hce, hcr, rfl, rfl⟩ := compileFields_cons hc
        simp only [Fields.NamesOk] at hn
        rw [List.append_assoc s] at h
        obtain ⟨m3, hx, _⟩ := run_ok_step (parse_select k' (hn.1 k' rfl) s _ hs) h
        simp only [execInstr, execPack, bind_ok_iff, VmState.recordSelect] at hx
        obtain ⟨st', hx, _⟩ := hx
        split at hx
        · rename_i hd
          cases v with
          | dict d => exact ⟨d, rfl⟩
          | _ => simp [PyVal.isDict] at hd
        · simp at hx
      obtain ⟨d, rfl⟩ := hd
      obtain ⟨bs, h1, h2, h3⟩ := hf code n d hc hl hn _ _ _ _ _ _ ho h
      exact ⟨d, bs, rfl, h1, h2, h3⟩

theorem elem_inv_of_fieldsLax (e : Elem)
    (hf : ∀ fs, (e = .record fs none ∨ ∃ nm, e = .refType nm (.record fs none)) → FieldsInvLax fs) : ElemInvLax e := by
  intro code n v st hc hl hn p hnil data off rest r ho h
  have hcomp := comp_of_compile hc
  cases hcomp with
  | scalar tc mn mx t ht =>
    obtain ⟨bs, h1, h2⟩ := pack_scalar_inv t st v p data off rest r h
    refine ⟨bs, by simp [Elem.laxLayout, Elem.layout, integer_eq, ht, h1], by simp [Elem.ArraysOk], h2, ?_⟩
    rintro k ⟨_, _, _, hx, _⟩
    simp at hx
  | scalarRef m tc mn mx t ht =>
    obtain ⟨bs, h1, h2⟩ := pack_scalar_inv t st v p data off rest r h
    refine ⟨bs, by simp [Elem.laxLayout, Elem.layout, integer_eq, ht, h1], by simp [Elem.ArraysOk], h2, ?_⟩
    rintro k ⟨_, _, _, hx, _⟩
    simp at hx
  | array tc mn mx k t ht =>
    obtain ⟨l, bs, rfl, h1, h2, h3, h4⟩ :=
      pack_array_inv t k (by simpa [Elem.LensOk] using hl) st v p data off rest r h
    refine ⟨bs, by simp [Elem.laxLayout, Elem.layout, integer_eq, ht, h1, h2], by simp [Elem.ArraysOk], h3, ?_⟩
    rintro k' ⟨_, _, _, hx, _⟩
    simp only [Elem.prim.injEq, Option.some.injEq] at hx
    obtain ⟨_, _, _, rfl⟩ := hx
    exact h4
  | str mn mx k =>
    have hk := (show 1 ≤ n ∧ n ≤ 65535 by simpa [Elem.LensOk] using hl)
    obtain ⟨s, rfl, h1⟩ := pack_str_inv n hk.2 st v p data off rest r h
    refine ⟨textLayout n s, by simp [Elem.laxLayout, Elem.layout, TypeCode.integer], by simp [Elem.ArraysOk],
      by rw [packS_textLayout_length]; exact h1, ?_⟩
    rintro k ⟨_, _, _, hx, hne⟩
    simp only [Elem.prim.injEq] at hx
    exact absurd hx.1.symm hne
  | record fs code n hcf =>
    obtain ⟨d, bs, rfl, h1, h2, h3⟩ := record_invLax fs code n v st (hf fs (Or.inl rfl)) hcf
      (by simpa [Elem.LensOk] using hl) (by simpa [Elem.NamesOk] using hn)
      p
      (by intro hk hx; subst hx; exact (hnil hk [] none).1 rfl) data off rest r ho h
    refine ⟨bs, by simp [Elem.laxLayout, h1], by simp [Elem.ArraysOk, h2], h3, ?_⟩
    rintro k ⟨_, _, _, hx, _⟩
    simp at hx
  | recordRef m fs code n hcf =>
    obtain ⟨d, bs, rfl, h1, h2, h3⟩ := record_invLax fs code n v st (hf fs (Or.inr ⟨m, rfl⟩)) hcf
      (by simpa [Elem.LensOk] using hl) (by simpa [Elem.NamesOk] using hn)
      p
      (by intro hk hx; subst hx; exact (hnil hk m none).2 rfl) data off rest r ho h
    refine ⟨bs, by simp [Elem.laxLayout, h1], by simp [Elem.ArraysOk, h2], h3, ?_⟩
    rintro k ⟨_, _, _, hx, _⟩
    simp at hx

theorem fields_inv_consLax (name : Option Str) (e : Elem) (rr : Fields) (he : ElemInvLax e) (hr : FieldsInvLax rr) :
    FieldsInvLax (.cons name e rr) := by
  intro code n d hc hl hn key stack data off rest r ho h
  obtain ⟨k, s, c, m, c', m', rfl, hs, hce, hcr, rfl, rfl⟩ := compileFields_cons hc
  simp only [Fields.LensOk] at hl
  simp only [Fields.NamesOk] at hn
  rw [List.append_assoc, List.append_assoc] at h
  obtain ⟨m3, hx, h⟩ := run_ok_step (parse_select k (hn.1 k rfl) s _ hs) h
  simp only [execInstr, execPack, VmState.recordSelect, PyVal.isDict, if_true, ok_bind, Except.ok.injEq] at hx
  subst hx
  -- the selected entry exists
  have hv : ∃ v, d.lookup k = some v := by
    cases hlk : d.lookup k with
    | some v => exact ⟨v, rfl⟩
    | none =>
      exfalso
      have hcomp := comp_of_compile hce
      cases hcomp with
      | scalar tc mn mx t ht =>
        obtain ⟨m', hx, _⟩ := run_ok_step (parse_scalar .pack t _) h
        simp [scalarInstr, execInstr, execPack, VmState.packStruct, VmState.current, PyVal.isDict,
          PyVal.getKey, hlk, error_bind] at hx
      | scalarRef m tc mn mx t ht =>
        obtain ⟨m', hx, _⟩ := run_ok_step (parse_scalar .pack t _) h
        simp [scalarInstr, execInstr, execPack, VmState.packStruct, VmState.current, PyVal.isDict,
          PyVal.getKey, hlk, error_bind] at hx
      | array tc mn mx k t ht =>
        obtain ⟨m', hx, _⟩ := run_ok_step (parse_array .pack t k _) h
        simp [arrayInstr, execInstr, execPack, VmState.packStruct, VmState.current, PyVal.isDict,
          PyVal.getKey, hlk, error_bind] at hx
      | str mn mx k =>
        obtain ⟨m', hx, _⟩ := run_ok_step (parse_str .pack m _) h
        simp [strInstr, execInstr, execPack, VmState.packStr, VmState.current, PyVal.isDict,
          PyVal.getKey, hlk, error_bind] at hx
      | record fs code n hcf =>
        rw [List.cons_append] at h
        obtain ⟨m', hx, _⟩ := run_ok_step (parse_enter _) h
        simp [execInstr, execPack, VmState.packRecordEnter, PyVal.getKey, hlk, error_bind] at hx
      | recordRef m fs code n hcf =>
        rw [List.cons_append] at h
        obtain ⟨m', hx, _⟩ := run_ok_step (parse_enter _) h
        simp [execInstr, execPack, VmState.packRecordEnter, PyVal.getKey, hlk, error_bind] at hx
  obtain ⟨v, hv⟩ := hv
  have p : Place ⟨.dict d, some k, none, stack⟩ v := .field d k v stack hv
  have hfield : ∃ b1 key1, (if e.isEmptyRecord then some [] else e.laxLayout v) = some b1 ∧ e.ArraysOk v ∧
      off + b1.length ≤ data.length ∧ (∀ j, e.IsIntArray j → j ≤ d.length) ∧
      PackSim c b1 ⟨.dict d, some k, none, stack⟩ ⟨.dict d, key1, none, stack⟩ := by
    cases hem : e.isEmptyRecord with
    | true =>
      refine ⟨[], none, rfl, ?_, by simpa using ho, ?_, ?_⟩
      · unfold Elem.isEmptyRecord at hem
        split at hem
        · cases v <;> simp [Elem.ArraysOk, Fields.ArraysOk]
        · cases v <;> simp [Elem.ArraysOk, Fields.ArraysOk]
        · cases hem
      · rintro j ⟨_, _, _, rfl, _⟩
        cases hem
      · rw [(emptyRecord_code hce hem).1]
        exact emptyRecord_sim d k v stack hv
    | false =>
      obtain ⟨b1, h1, h2, h3, h4⟩ := he c m v _ hce hl.1 hn.2.1 p (by
        intro _ m a
        constructor <;> (rintro rfl; cases hem)) data off _ r ho h
      obtain ⟨key1, _, hsim⟩ := Elem.simLax e c m v b1 _ hce hl.1 hn.2.1 h1 h2 p h4
      exact ⟨b1, key1, h1, h2, h3, fun j hj => h4 j hj _ rfl, hsim⟩
  obtain ⟨b1, key1, h1, h2, h3, h4, hsim⟩ := hfield
  rw [hsim data off _ h3] at h
  obtain ⟨b2, h5, h6, h7⟩ := hr c' m' d hcr hl.2 hn.2.2 key1 stack _ _ _ r
    (by rw [put_length _ _ _ h3]; exact h3) h
  rw [put_length _ _ _ h3] at h7
  refine ⟨b1 ++ b2, by simp only [Fields.laxLayout, hv, h1, h5], ?_, by simp; omega⟩
  simp only [Fields.ArraysOk]
  refine ⟨h4, ?_, h6⟩
  intro k' v' hk' hv'
  simp only [Option.some.injEq] at hk'
  subst hk'
  rw [hv] at hv'
  simp only [Option.some.injEq] at hv'
  subst hv'
  exact h2

mutual
theorem Elem.invLax (e : Elem) : ElemInvLax e := by
  match e with
  | .prim tc mn mx a =>
    exact elem_inv_of_fieldsLax _ (by intro fs hx; rcases hx with hx | ⟨_, hx⟩ <;> simp at hx)
  | .record fs a =>
    exact elem_inv_of_fieldsLax _ (by
      intro fs' hx
      rcases hx with hx | ⟨_, hx⟩
      · simp only [Elem.record.injEq] at hx
        obtain ⟨rfl, _⟩ := hx
        exact Fields.invLax fs
      · simp at hx)
  | .refId i => exact elem_inv_of_fieldsLax _ (by intro fs hx; rcases hx with hx | ⟨_, hx⟩ <;> simp at hx)
  | .refName i => exact elem_inv_of_fieldsLax _ (by intro fs hx; rcases hx with hx | ⟨_, hx⟩ <;> simp at hx)
  | .refType nm (.record fs a) =>
    exact elem_inv_of_fieldsLax _ (by
      intro fs' hx
      rcases hx with hx | ⟨_, hx⟩
      · simp at hx
      · simp only [Elem.refType.injEq, Elem.record.injEq] at hx
        obtain ⟨_, rfl, _⟩ := hx
        exact Fields.invLax fs)
  | .refType nm (.prim tc mn mx a) =>
    exact elem_inv_of_fieldsLax _ (by intro fs hx; rcases hx with hx | ⟨_, hx⟩ <;> simp at hx)
  | .refType nm (.refId _) =>
    exact elem_inv_of_fieldsLax _ (by intro fs hx; rcases hx with hx | ⟨_, hx⟩ <;> simp at hx)
  | .refType nm (.refName _) =>
    exact elem_inv_of_fieldsLax _ (by intro fs hx; rcases hx with hx | ⟨_, hx⟩ <;> simp at hx)
  | .refType nm (.refType _ _) =>
    exact elem_inv_of_fieldsLax _ (by intro fs hx; rcases hx with hx | ⟨_, hx⟩ <;> simp at hx)

theorem Fields.invLax (fs : Fields) : FieldsInvLax fs := by
  match fs with
  | .nil =>
    intro code n d hc _ _ key stack data off rest r ho h
    exact ⟨[], by simp [Fields.laxLayout], by simp [Fields.ArraysOk], by simpa using ho⟩
  | .cons name e r => exact fields_inv_consLax name e r (Elem.invLax e) (Fields.invLax r)
end

end Apx
