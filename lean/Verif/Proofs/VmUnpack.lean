import Verif.Proofs.VmPack

namespace Apx

/-- The buffer contains `bs` at offset `off`. -/
def Holds (data : Bytes) (off : Nat) (bs : Bytes) : Prop :=
  off + bs.length ≤ data.length ∧ (data.drop off).take bs.length = bs

theorem Holds.append {data : Bytes} {off : Nat} {a b : Bytes} (h : Holds data off (a ++ b)) :
    Holds data off a ∧ Holds data (off + a.length) b := by
  obtain ⟨h1, h2⟩ := h
  simp only [List.length_append] at h1 h2
  rw [List.take_add, List.drop_drop] at h2
  have hl : ((data.drop off).take a.length).length = a.length := by simp; omega
  have := List.append_inj h2 hl
  exact ⟨⟨by omega, this.1⟩, ⟨by omega, this.2⟩⟩

theorem holds_unpackFrom {data : Bytes} {off n : Nat} {bs : Bytes} (h : Holds data off bs) (hn : bs.length = n) :
    unpackFrom data off n = .ok bs := by
  subst hn
  simp [unpackFrom, h.1, h.2]

/-- The layout of an integer list whose items are all in range. -/
theorem unpackItems_ok (t : IntT) (l : List PyVal) (bs data : Bytes) (off : Nat)
    (h : intsLayout t l = some bs) (hd : Holds data off bs) :
    VmState.unpackItems t data off l.length = .ok l := by
  induction l generalizing bs off with
  | nil => rfl
  | cons v l ih =>
    simp only [intsLayout] at h
    split at h
    · rename_i a c ha hc
      simp only [Option.some.injEq] at h
      subst h
      obtain ⟨h1, h2⟩ := hd.append
      have hlen := intLayout_length t v a ha
      have h3 := ih c _ hc h2
      rw [hlen] at h3
      simp only [List.length_cons, VmState.unpackItems, holds_unpackFrom h1 hlen, ok_bind, h3]
      cases v with
      | int i =>
        simp only [intLayout] at ha
        split at ha
        · rename_i hr
          simp only [Option.some.injEq] at ha
          subst ha
          rw [unpackInt_littleEndian t i hr]
        · simp at ha
      | _ => simp [intLayout] at ha
    · simp at h

theorem run_unpack_step {code rest : Bytes} {i : Instr} {m : Vm} {α : Py VmState} {off : Nat}
    (hp : parseInstr code = .ok (some (i, rest)))
    (hx : execUnpack i m = (α >>= fun s => .ok ⟨s, m.data, off⟩)) :
    runVm .unpack false code m = (α >>= fun s => runVm .unpack false rest ⟨s, m.data, off⟩) := by
  rw [runVm_step _ hp]
  simp only [execInstr, hx]
  cases α <;> rfl

theorem unpack_scalar_sim (t : IntT) (v : PyVal) (bs data : Bytes) (off : Nat) (st : VmState) (rest : Bytes)
    (h : intLayout t v = some bs) (hd : Holds data off bs) :
    runVm .unpack false ([opScalar .unpack t] ++ rest) ⟨st, data, off⟩
      = (st.store v >>= fun s => runVm .unpack false rest ⟨s, data, off + bs.length⟩) := by
  apply run_unpack_step (parse_scalar .unpack t rest)
  have hlen := intLayout_length t v bs h
  simp only [scalarInstr, execUnpack, VmState.unpackStruct]
  rw [if_neg (by omega), holds_unpackFrom hd hlen]
  cases v with
  | int i =>
    simp only [intLayout] at h
    split at h
    · rename_i hr
      simp only [Option.some.injEq] at h
      subst h
      rw [ok_bind, unpackInt_littleEndian t i hr, hlen]
      cases st.store (.int i) <;> rfl
    · simp at h
  | _ => simp [intLayout] at h

theorem unpack_array_sim (t : IntT) (k : Nat) (hk : 1 ≤ k ∧ k ≤ 65535) (l : List PyVal) (bs data : Bytes)
    (off : Nat) (st : VmState) (rest : Bytes) (hl : l.length = k)
    (h : intsLayout t l = some bs) (hd : Holds data off bs) :
    runVm .unpack false ((opArray .unpack t :: leBytes 2 k) ++ rest) ⟨st, data, off⟩
      = (st.store (.list l) >>= fun s => runVm .unpack false rest ⟨s, data, off + bs.length⟩) := by
  apply run_unpack_step (parse_array .unpack t k rest)
  have hm : k % 65536 = k := by omega
  simp only [arrayInstr, execUnpack, VmState.unpackStruct, hm]
  have hu := unpackItems_ok t l bs data off h hd
  rw [hl] at hu
  rw [if_pos (by omega), hu, ok_bind, intsLayout_length _ _ _ h, hl]
  cases st.store (.list l) <;> rfl

theorem takeWhile_text (n : Nat) (s : Str) (hs : '\x00' ∉ s) (hl : (utf8Encode s).length ≤ n) :
    (textLayout n s).takeWhile (· ≠ 0) = utf8Encode s := by
  have hz := utf8Encode_no_zero s (by intro c hc h; subst h; exact hs hc)
  unfold textLayout
  rw [List.take_of_length_le hl]
  rw [List.takeWhile_append_of_pos (by intro b hb; simp [hz b hb])]
  cases n - (utf8Encode s).length <;> simp [List.replicate_succ]

theorem unpack_str_sim (k : Nat) (hk : k ≤ 65535) (s : Str) (data : Bytes)
    (off : Nat) (st : VmState) (rest : Bytes) (hs : '\x00' ∉ s) (hl : (utf8Encode s).length ≤ k)
    (hd : Holds data off (textLayout k s)) :
    runVm .unpack false ((opStr .unpack :: leBytes 2 k) ++ rest) ⟨st, data, off⟩
      = (st.store (.str s) >>= fun s' => runVm .unpack false rest ⟨s', data, off + (textLayout k s).length⟩) := by
  apply run_unpack_step (parse_str .unpack k rest)
  have hm : k % 65536 = k := by omega
  simp only [strInstr, execUnpack, VmState.unpackStr, hm]
  have h1 := hd.1
  have h2 := hd.2
  rw [packS_textLayout_length] at h1 h2
  rw [if_neg (by omega), h2, takeWhile_text k s hs hl, utf8Decode_utf8Encode, ok_bind,
    packS_textLayout_length]
  cases st.store (.str s) <;> rfl

theorem intsLayout_inRange {t : IntT} {l : List PyVal} : (∀ x ∈ l, ∃ i, x = .int i ∧ t.InRange i) →
    ∃ bs, intsLayout t l = some bs := by
  induction l with
  | nil => intro _; exact ⟨[], rfl⟩
  | cons v l ih =>
    intro h
    obtain ⟨i, rfl, hi⟩ := h v (by simp)
    obtain ⟨b, hb⟩ := ih (fun x hx => h x (by simp [hx]))
    exact ⟨_, by simp [intsLayout, intLayout, hi, hb]; rfl⟩

/-- Unpacking a leaf stores the value. -/
theorem leaf_unpack (e : Elem) (code : Bytes) (n : Nat) (hc : compileElem .unpack e = .ok (code, n))
    (hf : e.IsFlat) (hl : e.LensOk) (v : PyVal) (bs : Bytes) (hx : e.Exact v) (hlay : e.layout v = some bs)
    (data : Bytes) (off : Nat) (hd : Holds data off bs) (st : VmState) (rest : Bytes) :
    runVm .unpack false (code ++ rest) ⟨st, data, off⟩
      = (st.store v >>= fun s => runVm .unpack false rest ⟨s, data, off + bs.length⟩) := by
  have hcomp := comp_of_compile hc
  cases hcomp with
  | scalar tc mn mx t ht =>
    simp only [Elem.layout, integer_eq, ht] at hlay
    exact unpack_scalar_sim t v bs data off st rest hlay hd
  | scalarRef m tc mn mx t ht =>
    simp only [Elem.layout, integer_eq, ht] at hlay
    exact unpack_scalar_sim t v bs data off st rest hlay hd
  | array tc mn mx k t ht =>
    simp only [Elem.Exact, integer_eq, ht] at hx
    rcases hx with ⟨t', l, ht', rfl, hlen, _⟩ | ⟨s, rfl, _⟩
    · simp only [Option.some.injEq] at ht'
      subst ht'
      simp only [Elem.layout, integer_eq, ht] at hlay
      rw [if_pos (by omega), List.take_of_length_le (by omega)] at hlay
      exact unpack_array_sim t k (by simpa [Elem.LensOk] using hl) l bs data off st rest hlen hlay hd
    · simp [TypeCode.intT] at ht
  | str mn mx k =>
    simp only [Elem.Exact, TypeCode.integer] at hx
    rcases hx with ⟨_, _, h, _⟩ | ⟨s, _, rfl, h1, h2⟩
    · simp at h
    · simp [Elem.layout, TypeCode.integer] at hlay
      subst hlay
      have hk := (show 1 ≤ n ∧ n ≤ 65535 by simpa [Elem.LensOk] using hl)
      exact unpack_str_sim n hk.2 s data off st rest h2 h1 hd
  | record fs code n hcf => simp [Elem.IsFlat] at hf
  | recordRef m fs code n hcf => simp [Elem.IsFlat] at hf

/-- The dict built by the unpack program of a flat record. -/
def Fields.collect (d : List (Str × PyVal)) : Fields → List (Str × PyVal) → List (Str × PyVal)
  | .nil, acc => acc
  | .cons (some k) _ r, acc => match d.lookup k with
    | some v => r.collect d (dictSet acc k v)
    | none => r.collect d acc
  | .cons none _ r, acc => r.collect d acc

theorem lookup_dictSet (d : List (Str × PyVal)) (k k' : Str) (v : PyVal) :
    (dictSet d k v).lookup k' = if k' = k then some v else d.lookup k' := by
  induction d with
  | nil =>
    simp only [dictSet, List.lookup]
    by_cases h : k' = k
    · simp [h]
    · have hb : (k' == k) = false := by simpa using h
      simp [h, hb]
  | cons p d ih =>
    obtain ⟨a, b⟩ := p
    simp only [dictSet]
    split
    · rename_i h
      subst h
      by_cases h : k' = a
      · simp [List.lookup, h]
      · have hb : (k' == a) = false := by simpa using h
        simp [List.lookup, h, hb]
    · rename_i h
      simp only [List.lookup]
      by_cases h2 : k' = a
      · subst h2
        simp only [beq_self_eq_true]
        rw [if_neg h]
      · have hb : (k' == a) = false := by simpa using h2
        simp [hb, ih]

theorem collect_lookup (d : List (Str × PyVal)) (fs : Fields) (acc : List (Str × PyVal)) (k : Str)
    (hall : ∀ k, some k ∈ fs.names → (d.lookup k).isSome) :
    (fs.collect d acc).lookup k = if some k ∈ fs.names then d.lookup k else acc.lookup k := by
  match fs with
  | .nil => simp [Fields.collect, Fields.names]
  | .cons none e r =>
    simp only [Fields.names] at hall
    rw [Fields.collect, collect_lookup d r acc k (fun k hk => hall k (by simp [hk]))]
    simp [Fields.names]
  | .cons (some n) e r =>
    simp only [Fields.names] at hall
    rw [Fields.collect]
    have hn := hall n (by simp)
    rw [Option.isSome_iff_exists] at hn
    obtain ⟨v, hv⟩ := hn
    simp only [hv]
    rw [collect_lookup d r _ k (fun k hk => hall k (by simp [hk])), lookup_dictSet]
    simp only [Fields.names, List.mem_cons, Option.some.injEq]
    by_cases h1 : some k ∈ r.names
    · simp [h1]
    · simp only [h1, if_false, or_false]
      split
      · rename_i h; subst h; exact hv.symm
      · rfl

theorem fields_unpack (fs : Fields) (code : Bytes) (n : Nat) (hc : compileFields .unpack fs = .ok (code, n))
    (hf : fs.AllFlat) (hl : fs.LensOk) (hn : fs.NamesOk) (d : List (Str × PyVal)) (bs : Bytes)
    (hx : fs.Exact d) (hlay : fs.layout d = some bs)
    (data : Bytes) (off : Nat) (hd : Holds data off bs) (acc : List (Str × PyVal)) (key : Option Str)
    (stack : List (PyVal × Option Str × Option Nat)) (rest : Bytes) :
    ∃ key', runVm .unpack false (code ++ rest) ⟨⟨.dict acc, key, none, stack⟩, data, off⟩
      = runVm .unpack false rest ⟨⟨.dict (fs.collect d acc), key', none, stack⟩, data, off + bs.length⟩ := by
  match fs with
  | .nil =>
    simp only [compileFields, Except.ok.injEq, Prod.mk.injEq] at hc
    simp only [Fields.layout, Option.some.injEq] at hlay
    obtain ⟨rfl, _⟩ := hc
    subst hlay
    exact ⟨key, by simp [Fields.collect]⟩
  | .cons name e r =>
    obtain ⟨k, s, c, m, c', m', rfl, hs, hce, hcr, rfl, rfl⟩ := compileFields_cons hc
    obtain ⟨v, b1, b2, hv, h1, h2, rfl⟩ := Fields.layout_cons hlay
    simp only [Fields.LensOk] at hl
    simp only [Fields.NamesOk] at hn
    simp only [Fields.AllFlat] at hf
    simp only [Fields.Exact] at hx
    obtain ⟨⟨k', v', hk', hv', hx1⟩, hx2⟩ := hx
    simp only [Option.some.injEq] at hk'
    subst hk'
    rw [hv] at hv'
    simp only [Option.some.injEq] at hv'
    subst hv'
    obtain ⟨hd1, hd2⟩ := hd.append
    rw [List.append_assoc, List.append_assoc, runVm_step _ (parse_select k (hn.1 k rfl) s _ hs)]
    simp only [execInstr, execUnpack, VmState.recordSelect, PyVal.isDict, if_true, ok_bind]
    rw [leaf_unpack e c m hce hf.1 hl.1 v b1 hx1 h1 data off hd1]
    simp only [VmState.store, ok_bind]
    obtain ⟨key', h⟩ := fields_unpack r c' m' hcr hf.2 hl.2 hn.2.2 d b2 hx2 h2 data _ hd2 (dictSet acc k v) (some k)
      stack rest
    refine ⟨key', ?_⟩
    rw [h]
    simp [Fields.collect, hv, Nat.add_assoc]

theorem Fields.Exact_lookup (fs : Fields) (d : List (Str × PyVal)) (hx : fs.Exact d) :
    ∀ k, some k ∈ fs.names → (d.lookup k).isSome := by
  match fs with
  | .nil => simp [Fields.names]
  | .cons n e r =>
    simp only [Fields.Exact] at hx
    obtain ⟨⟨k, v, rfl, hv, _⟩, hr⟩ := hx
    intro k' hk'
    simp only [Fields.names, List.mem_cons, Option.some.injEq] at hk'
    rcases hk' with rfl | hk'
    · simp [hv]
    · exact Fields.Exact_lookup r d hr k' hk'

theorem record_unpack (fs : Fields) (code : Bytes) (n : Nat) (hc : compileFields .unpack fs = .ok (code, n))
    (hf : fs.AllFlat) (hl : fs.LensOk) (hn : fs.NamesOk) (d : List (Str × PyVal)) (bs : Bytes)
    (hk : ∀ k, (d.lookup k).isSome ↔ some k ∈ fs.names)
    (hx : fs.Exact d) (hlay : fs.layout d = some bs) (data : Bytes) (off : Nat) (hd : Holds data off bs) :
    ∃ m, runVm .unpack false (opEnter :: (code ++ [opLeave])) ⟨VmState.init .null, data, off⟩ = .ok m ∧
      m.st.value = .dict (fs.collect d []) ∧ ∀ k, (fs.collect d []).lookup k = d.lookup k := by
  obtain ⟨key', h⟩ := fields_unpack fs code n hc hf hl hn d bs hx hlay data off hd [] none [] [opLeave]
  rw [runVm_step _ (parse_enter _)]
  simp only [execInstr, execUnpack, VmState.unpackRecordEnter, VmState.init, ok_bind]
  rw [h, runVm_step _ (parse_leave _)]
  simp only [execInstr, execUnpack, VmState.unpackRecordLeave, ok_bind, runVm_nil]
  refine ⟨_, rfl, rfl, ?_⟩
  intro k
  rw [collect_lookup d fs [] k (Fields.Exact_lookup fs d hx)]
  split
  · rfl
  · rename_i h
    rw [← hk] at h
    cases hlk : d.lookup k with
    | none => rfl
    | some v => simp [hlk] at h

/-- Unpacking at top level. -/
theorem elem_unpack (e : Elem) (code : Bytes) (n : Nat) (hc : compileElem .unpack e = .ok (code, n))
    (hf : e.NoNested) (hl : e.LensOk) (hn : e.NamesOk) (v : PyVal) (bs : Bytes) (hx : e.Exact v)
    (hlay : e.layout v = some bs) (data : Bytes) (off : Nat) (hd : Holds data off bs) :
    ∃ m, runVm .unpack false code ⟨VmState.init .null, data, off⟩ = .ok m ∧ PyVal.Same m.st.value v := by
  have hleaf : e.IsFlat → ∃ m, runVm .unpack false code ⟨VmState.init .null, data, off⟩ = .ok m ∧
      PyVal.Same m.st.value v := by
    intro hflat
    have h := leaf_unpack e code n hc hflat hl v bs hx hlay data off hd (VmState.init .null) []
    rw [List.append_nil] at h
    rw [h]
    simp only [VmState.store, VmState.init, ok_bind, runVm_nil]
    refine ⟨_, rfl, ?_⟩
    cases v <;> simp [PyVal.Same]
  have hcomp := comp_of_compile hc
  cases hcomp with
  | scalar tc mn mx t ht => exact hleaf (by simp [Elem.IsFlat])
  | scalarRef m tc mn mx t ht => exact hleaf (by simp [Elem.IsFlat])
  | array tc mn mx k t ht => exact hleaf (by simp [Elem.IsFlat])
  | str mn mx k => exact hleaf (by simp [Elem.IsFlat])
  | record fs code n hcf =>
    cases v with
    | dict d =>
      simp only [Elem.Exact] at hx
      simp only [Elem.layout] at hlay
      obtain ⟨m, h1, h2, h3⟩ := record_unpack fs code n hcf (by simpa [Elem.NoNested] using hf)
        (by simpa [Elem.LensOk] using hl) (by simpa [Elem.NamesOk] using hn) d bs hx.2.1 hx.2.2 hlay data off hd
      exact ⟨m, h1, by rw [h2]; exact h3⟩
    | _ => simp [Elem.Exact] at hx
  | recordRef m fs code n hcf =>
    cases v with
    | dict d =>
      simp only [Elem.Exact] at hx
      simp only [Elem.layout] at hlay
      obtain ⟨m, h1, h2, h3⟩ := record_unpack fs code n hcf (by simpa [Elem.NoNested] using hf)
        (by simpa [Elem.LensOk] using hl) (by simpa [Elem.NamesOk] using hn) d bs hx.2.1 hx.2.2 hlay data off hd
      exact ⟨m, h1, by rw [h2]; exact h3⟩
    | _ => simp [Elem.Exact] at hx

mutual
/-- Values of exactly the right shape have a layout. -/
theorem Elem.exact_layout (e : Elem) (v : PyVal) (hx : e.Exact v) : ∃ bs, e.layout v = some bs := by
  match e with
  | .prim tc mn mx none =>
    simp only [Elem.Exact] at hx
    obtain ⟨t, i, ht, rfl, hr⟩ := hx
    exact ⟨_, by simp [Elem.layout, ht, intLayout, hr]; rfl⟩
  | .prim tc mn mx (some n) =>
    simp only [Elem.Exact] at hx
    rcases hx with ⟨t, l, ht, rfl, hlen, hall⟩ | ⟨s, rfl, rfl, _⟩
    · obtain ⟨bs, hbs⟩ := intsLayout_inRange hall
      refine ⟨bs, ?_⟩
      simp only [Elem.layout, ht]
      rw [if_pos (by omega), List.take_of_length_le (by omega), hbs]
    · exact ⟨textLayout n s, by simp [Elem.layout, TypeCode.integer]⟩
  | .record fs none =>
    cases v with
    | dict d =>
      simp only [Elem.Exact] at hx
      obtain ⟨bs, h⟩ := Fields.exact_layout fs d hx.2.2
      exact ⟨bs, by simp [Elem.layout, h]⟩
    | _ => simp [Elem.Exact] at hx
  | .record fs (some k) => simp [Elem.Exact] at hx
  | .refType m t =>
    simp only [Elem.Exact] at hx
    obtain ⟨bs, h⟩ := Elem.exact_layout t v hx
    exact ⟨bs, by simp [Elem.layout, h]⟩
  | .refId i => simp [Elem.Exact] at hx
  | .refName i => simp [Elem.Exact] at hx

theorem Fields.exact_layout (fs : Fields) (d : List (Str × PyVal)) (hx : fs.Exact d) :
    ∃ bs, fs.layout d = some bs := by
  match fs with
  | .nil => exact ⟨[], rfl⟩
  | .cons n e r =>
    simp only [Fields.Exact] at hx
    obtain ⟨⟨k, v, rfl, hv, he⟩, hr⟩ := hx
    obtain ⟨b1, h1⟩ := Elem.exact_layout e v he
    obtain ⟨b2, h2⟩ := Fields.exact_layout r d hr
    exact ⟨b1 ++ b2, by simp [Fields.layout, hv, h1, h2]⟩
end

/-! ### The program header -/

theorem compileProg_inv {d : Dir} {e : Elem} {prog : Bytes} (h : compileProg d e = .ok prog) :
    ∃ code n, compileElem d e = .ok (code, n) ∧ prog = progHeader d n ++ code := by
  simp only [compileProg, bind_ok_iff] at h
  obtain ⟨⟨code, n⟩, hc, h⟩ := h
  simp only [Except.ok.injEq] at h
  exact ⟨code, n, hc, h.symm⟩

theorem run_header (d : Dir) (n : Nat) (code : Bytes) (m : Vm) :
    runVm d true (progHeader d n ++ code) m
      = (verifyDataLen (n % 4294967296) m >>= runVm d false code) := by
  rw [runVm_first m (parse_prog d n code) (by cases d <;> rfl)]
  cases d <;> rfl

/-! ### Nested records cannot be unpacked -/

theorem store_dict {d : List (Str × PyVal)} {key : Option Str} {stack : List (PyVal × Option Str × Option Nat)}
    {v : PyVal} {s : VmState} (h : VmState.store ⟨.dict d, key, none, stack⟩ v = .ok s) :
    ∃ d', s = ⟨.dict d', key, none, stack⟩ := by
  cases key with
  | none => simp [VmState.store] at h
  | some k =>
    simp only [VmState.store, Except.ok.injEq] at h
    exact ⟨_, h.symm⟩

theorem leaf_keeps_dict (e : Elem) (code : Bytes) (n : Nat) (hc : compileElem .unpack e = .ok (code, n))
    (d : List (Str × PyVal)) (k : Str) (stack : List (PyVal × Option Str × Option Nat))
    (data : Bytes) (off : Nat) (rest : Bytes) (r : Vm)
    (h : runVm .unpack false (code ++ rest) ⟨⟨.dict d, some k, none, stack⟩, data, off⟩ = .ok r) :
    e.IsFlat ∧ ∃ d' data' off',
      runVm .unpack false rest ⟨⟨.dict d', some k, none, stack⟩, data', off'⟩ = .ok r := by
  have hcomp := comp_of_compile hc
  cases hcomp with
  | scalar tc mn mx t ht =>
    refine ⟨by simp [Elem.IsFlat], ?_⟩
    obtain ⟨m', hx, h⟩ := run_ok_step (parse_scalar .unpack t _) h
    simp only [scalarInstr, execInstr, execUnpack, bind_ok_iff] at hx
    obtain ⟨⟨s, o⟩, hx, hm⟩ := hx
    simp only [Except.ok.injEq] at hm
    subst hm
    simp only [VmState.unpackStruct] at hx
    rw [if_neg (by omega)] at hx
    simp only [bind_ok_iff] at hx
    obtain ⟨b, _, s', hs, hx⟩ := hx
    obtain ⟨d', rfl⟩ := store_dict hs
    simp only [Except.ok.injEq, Prod.mk.injEq] at hx
    obtain ⟨rfl, rfl⟩ := hx
    exact ⟨_, _, _, h⟩
  | scalarRef m tc mn mx t ht =>
    refine ⟨by simp [Elem.IsFlat], ?_⟩
    obtain ⟨m', hx, h⟩ := run_ok_step (parse_scalar .unpack t _) h
    simp only [scalarInstr, execInstr, execUnpack, bind_ok_iff] at hx
    obtain ⟨⟨s, o⟩, hx, hm⟩ := hx
    simp only [Except.ok.injEq] at hm
    subst hm
    simp only [VmState.unpackStruct] at hx
    rw [if_neg (by omega)] at hx
    simp only [bind_ok_iff] at hx
    obtain ⟨b, _, s', hs, hx⟩ := hx
    obtain ⟨d', rfl⟩ := store_dict hs
    simp only [Except.ok.injEq, Prod.mk.injEq] at hx
    obtain ⟨rfl, rfl⟩ := hx
    exact ⟨_, _, _, h⟩
  | array tc mn mx j t ht =>
    refine ⟨by simp [Elem.IsFlat], ?_⟩
    obtain ⟨m', hx, h⟩ := run_ok_step (parse_array .unpack t j _) h
    simp only [arrayInstr, execInstr, execUnpack, bind_ok_iff] at hx
    obtain ⟨⟨s, o⟩, hx, hm⟩ := hx
    simp only [Except.ok.injEq] at hm
    subst hm
    simp only [VmState.unpackStruct] at hx
    split at hx
    · simp only [bind_ok_iff] at hx
      obtain ⟨b, _, s', hs, hx⟩ := hx
      obtain ⟨d', rfl⟩ := store_dict hs
      simp only [Except.ok.injEq, Prod.mk.injEq] at hx
      obtain ⟨rfl, rfl⟩ := hx
      exact ⟨_, _, _, h⟩
    · simp only [bind_ok_iff] at hx
      obtain ⟨b, _, s', hs, hx⟩ := hx
      obtain ⟨d', rfl⟩ := store_dict hs
      simp only [Except.ok.injEq, Prod.mk.injEq] at hx
      obtain ⟨rfl, rfl⟩ := hx
      exact ⟨_, _, _, h⟩
  | str mn mx j =>
    refine ⟨by simp [Elem.IsFlat], ?_⟩
    obtain ⟨m', hx, h⟩ := run_ok_step (parse_str .unpack n _) h
    simp only [strInstr, execInstr, execUnpack, bind_ok_iff] at hx
    obtain ⟨⟨s, o⟩, hx, hm⟩ := hx
    simp only [Except.ok.injEq] at hm
    subst hm
    simp only [VmState.unpackStr] at hx
    split at hx
    · simp at hx
    · simp only [bind_ok_iff] at hx
      obtain ⟨b, _, s', hs, hx⟩ := hx
      obtain ⟨d', rfl⟩ := store_dict hs
      simp only [Except.ok.injEq, Prod.mk.injEq] at hx
      obtain ⟨rfl, rfl⟩ := hx
      exact ⟨_, _, _, h⟩
  | record fs code n hcf =>
    exfalso
    rw [List.cons_append] at h
    obtain ⟨m', hx, h⟩ := run_ok_step (parse_enter _) h
    simp [execInstr, execUnpack, VmState.unpackRecordEnter, error_bind] at hx
  | recordRef m fs code n hcf =>
    exfalso
    rw [List.cons_append] at h
    obtain ⟨m', hx, h⟩ := run_ok_step (parse_enter _) h
    simp [execInstr, execUnpack, VmState.unpackRecordEnter, error_bind] at hx

theorem fields_unpack_flat (fs : Fields) (code : Bytes) (n : Nat)
    (hc : compileFields .unpack fs = .ok (code, n)) (hn : fs.NamesOk)
    (d : List (Str × PyVal)) (key : Option Str) (stack : List (PyVal × Option Str × Option Nat))
    (data : Bytes) (off : Nat) (rest : Bytes) (r : Vm)
    (h : runVm .unpack false (code ++ rest) ⟨⟨.dict d, key, none, stack⟩, data, off⟩ = .ok r) : fs.AllFlat := by
  match fs with
  | .nil => trivial
  | .cons name e r' =>
    obtain ⟨k, s, c, m, c', m', rfl, hs, hce, hcr, rfl, rfl⟩ := compileFields_cons hc
    simp only [Fields.NamesOk] at hn
    rw [List.append_assoc, List.append_assoc, runVm_step _ (parse_select k (hn.1 k rfl) s _ hs)] at h
    simp only [execInstr, execUnpack, VmState.recordSelect, PyVal.isDict, if_true, ok_bind] at h
    obtain ⟨h1, d', data', off', h2⟩ := leaf_keeps_dict e c m hce d k stack data off _ r h
    exact ⟨h1, fields_unpack_flat r' c' m' hcr hn.2.2 d' _ stack data' off' rest r h2⟩

theorem unpack_noNested (e : Elem) (code : Bytes) (n : Nat) (hc : compileElem .unpack e = .ok (code, n))
    (hn : e.NamesOk) (data : Bytes) (off : Nat) (r : Vm)
    (h : runVm .unpack false code ⟨VmState.init .null, data, off⟩ = .ok r) : e.NoNested := by
  have hcomp := comp_of_compile hc
  cases hcomp with
  | record fs code n hcf =>
    obtain ⟨m', hx, h⟩ := run_ok_step (parse_enter _) h
    simp only [execInstr, execUnpack, VmState.unpackRecordEnter, VmState.init, ok_bind, Except.ok.injEq] at hx
    subst hx
    exact fields_unpack_flat fs code n hcf (by simpa [Elem.NamesOk] using hn) _ _ _ _ _ _ _ h
  | recordRef m fs code n hcf =>
    obtain ⟨m', hx, h⟩ := run_ok_step (parse_enter _) h
    simp only [execInstr, execUnpack, VmState.unpackRecordEnter, VmState.init, ok_bind, Except.ok.injEq] at hx
    subst hx
    exact fields_unpack_flat fs code n hcf (by simpa [Elem.NamesOk] using hn) _ _ _ _ _ _ _ h
  | _ => simp [Elem.NoNested]

/-! ### Every byte pattern of a numeric type -/

theorem int_surj (t : IntT) (bs : Bytes) (h : bs.length = t.size) :
    ∃ i, t.InRange i ∧ intLayout t (.int i) = some bs := by
  obtain ⟨h1, h2⟩ := unpackInt_inRange t bs h
  exact ⟨_, h1, by simp [intLayout, h1, h2]⟩

theorem ints_surj (t : IntT) (k : Nat) (bs : Bytes) (h : bs.length = t.size * k) :
    ∃ l : List PyVal, l.length = k ∧ (∀ x ∈ l, ∃ i, x = .int i ∧ t.InRange i) ∧ intsLayout t l = some bs := by
  induction k generalizing bs with
  | zero =>
    simp at h
    subst h
    exact ⟨[], rfl, by simp, rfl⟩
  | succ k ih =>
    rw [Nat.mul_add] at h
    obtain ⟨i, h1, h2⟩ := int_surj t (bs.take t.size) (by simp; omega)
    obtain ⟨l, h3, h4, h5⟩ := ih (bs.drop t.size) (by simp; omega)
    refine ⟨.int i :: l, by simp [h3], ?_, by simp [intsLayout, h2, h5]⟩
    intro x hx
    simp only [List.mem_cons] at hx
    rcases hx with rfl | hx
    · exact ⟨i, rfl, h1⟩
    · exact h4 x hx

theorem leaf_surj {d : Dir} (e : Elem) (code : Bytes) (n : Nat) (hc : compileElem d e = .ok (code, n))
    (hnum : e.NumericLeaf) (bs : Bytes) (h : bs.length = n) :
    ∃ v, e.Exact v ∧ e.layout v = some bs := by
  have hcomp := comp_of_compile hc
  cases hcomp with
  | scalar tc mn mx t ht =>
    obtain ⟨i, h1, h2⟩ := int_surj t bs h
    exact ⟨.int i, by simp [Elem.Exact, integer_eq, ht, h1], by simp [Elem.layout, integer_eq, ht, h2]⟩
  | scalarRef m tc mn mx t ht =>
    obtain ⟨i, h1, h2⟩ := int_surj t bs h
    exact ⟨.int i, by simp [Elem.Exact, integer_eq, ht, h1], by simp [Elem.layout, integer_eq, ht, h2]⟩
  | array tc mn mx k t ht =>
    obtain ⟨l, h1, h2, h3⟩ := ints_surj t k bs h
    refine ⟨.list l, ?_, ?_⟩
    · simp only [Elem.Exact]
      exact Or.inl ⟨t, l, by simp [integer_eq, ht], rfl, h1, h2⟩
    · simp only [Elem.layout, integer_eq, ht]
      rw [if_pos (by omega), List.take_of_length_le (by omega), h3]
  | str mn mx k => simp [Elem.NumericLeaf, TypeCode.integer] at hnum
  | record fs code n hcf => simp [Elem.NumericLeaf] at hnum
  | recordRef m fs code n hcf => simp [Elem.NumericLeaf] at hnum

/-- `layout` and `Exact` of the fields depend only on the entries of the dict. -/
theorem Fields.congr_lookup (fs : Fields) (d d' : List (Str × PyVal))
    (h : ∀ k, some k ∈ fs.names → d.lookup k = d'.lookup k) :
    fs.layout d = fs.layout d' ∧ (fs.Exact d → fs.Exact d') := by
  match fs with
  | .nil => simp [Fields.layout, Fields.Exact]
  | .cons none e r => simp [Fields.layout, Fields.Exact]
  | .cons (some n) e r =>
    simp only [Fields.names] at h
    obtain ⟨h1, h2⟩ := Fields.congr_lookup r d d' (fun k hk => h k (by simp [hk]))
    have h0 := h n (by simp)
    refine ⟨by simp [Fields.layout, h0, h1], ?_⟩
    simp only [Fields.Exact]
    rintro ⟨⟨k, v, hk, hv, hx⟩, hr⟩
    simp only [Option.some.injEq] at hk
    subst hk
    exact ⟨⟨n, v, rfl, by rw [← h0]; exact hv, hx⟩, h2 hr⟩

theorem fields_surj {d : Dir} (fs : Fields) (code : Bytes) (n : Nat) (hc : compileFields d fs = .ok (code, n))
    (hnum : fs.AllNumeric) (hnd : fs.names.Nodup) (bs : Bytes) (h : bs.length = n) :
    ∃ dd : List (Str × PyVal), (∀ k, (dd.lookup k).isSome ↔ some k ∈ fs.names) ∧ fs.Exact dd ∧
      fs.layout dd = some bs ∧ dd.length = fs.length := by
  match fs with
  | .nil =>
    simp only [compileFields, Except.ok.injEq, Prod.mk.injEq] at hc
    obtain ⟨_, rfl⟩ := hc
    simp at h
    subst h
    exact ⟨[], by simp [Fields.names], by simp [Fields.Exact], by simp [Fields.layout], rfl⟩
  | .cons name e r =>
    obtain ⟨k, s, c, m, c', m', rfl, hs, hce, hcr, rfl, rfl⟩ := compileFields_cons hc
    simp only [Fields.AllNumeric] at hnum
    simp only [Fields.names, List.nodup_cons] at hnd
    obtain ⟨v, h1, h2⟩ := leaf_surj e c m hce hnum.1 (bs.take m) (by simp; omega)
    obtain ⟨dd, h3, h4, h5, h6⟩ := fields_surj r c' m' hcr hnum.2 hnd.2 (bs.drop m) (by simp; omega)
    have hne : ∀ k', some k' ∈ r.names → ((k, v) :: dd).lookup k' = dd.lookup k' := by
      intro k' hk'
      have : k' ≠ k := by rintro rfl; exact hnd.1 hk'
      have hb : (k' == k) = false := by simpa using this
      simp [List.lookup, hb]
    obtain ⟨hc1, hc2⟩ := Fields.congr_lookup r dd ((k, v) :: dd) (fun k' hk' => (hne k' hk').symm)
    refine ⟨(k, v) :: dd, ?_, ?_, ?_, by simp [h6, Fields.length]⟩
    · intro k'
      simp only [Fields.names, List.mem_cons, Option.some.injEq]
      by_cases hk : k' = k
      · subst hk; simp [List.lookup]
      · have hb : (k' == k) = false := by simpa using hk
        simp [List.lookup, hb, h3, hk]
    · simp only [Fields.Exact]
      exact ⟨⟨k, v, rfl, by simp [List.lookup], h1⟩, hc2 h4⟩
    · simp only [Fields.layout]
      simp [List.lookup, h2, ← hc1, h5]

/-- Every byte string of the right length is the layout of a value of a numeric type. -/
theorem numeric_surj {d : Dir} (e : Elem) (code : Bytes) (n : Nat) (hc : compileElem d e = .ok (code, n))
    (hnum : e.Numeric) (bs : Bytes) (h : bs.length = n) :
    ∃ v, e.Exact v ∧ e.layout v = some bs := by
  have hcomp := comp_of_compile hc
  cases hcomp with
  | record fs code n hcf =>
    simp only [Elem.Numeric] at hnum
    obtain ⟨dd, h1, h2, h3, _⟩ := fields_surj fs code n hcf hnum.2.1 hnum.2.2 bs h
    exact ⟨.dict dd, by simp only [Elem.Exact]; exact ⟨hnum.2.2, h1, h2⟩, by simp [Elem.layout, h3]⟩
  | recordRef m fs code n hcf =>
    simp only [Elem.Numeric] at hnum
    obtain ⟨dd, h1, h2, h3, _⟩ := fields_surj fs code n hcf hnum.2.1 hnum.2.2 bs h
    exact ⟨.dict dd, by simp only [Elem.Exact]; exact ⟨hnum.2.2, h1, h2⟩, by simp [Elem.layout, h3]⟩
  | scalar tc mn mx t ht => exact leaf_surj _ _ _ hc hnum bs h
  | scalarRef m tc mn mx t ht => exact leaf_surj _ _ _ hc hnum bs h
  | array tc mn mx k t ht => exact leaf_surj _ _ _ hc hnum bs h
  | str mn mx k => exact leaf_surj _ _ _ hc hnum bs h

theorem numeric_noNested (e : Elem) (h : e.Numeric) : e.NoNested := by
  have hflat : ∀ e : Elem, e.NumericLeaf → e.IsFlat := by
    intro e
    induction e using Elem.rec (motive_2 := fun _ => True) with
    | refType m t ih => intro h; simp only [Elem.IsFlat]; exact ih h
    | nil => trivial
    | cons _ _ _ _ _ => trivial
    | _ => simp [Elem.NumericLeaf, Elem.IsFlat]
  have hall : ∀ fs : Fields, fs.AllNumeric → fs.AllFlat := by
    intro fs
    induction fs using Fields.rec (motive_1 := fun _ => True) with
    | nil => intro _; trivial
    | cons n e r _ ih => intro h; exact ⟨hflat e h.1, ih h.2⟩
    | _ => trivial
  induction e using Elem.rec (motive_2 := fun _ => True) with
  | refType m t ih => simp only [Elem.NoNested]; exact ih h
  | record fs a _ => simp only [Elem.NoNested]; exact hall fs h.2.1
  | nil => trivial
  | cons _ _ _ _ _ => trivial
  | _ => simp [Elem.NoNested]

end Apx
