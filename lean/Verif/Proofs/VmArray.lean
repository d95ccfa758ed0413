import Verif.Proofs.VmProg
import Verif.Spec.VmArray

namespace Apx

/-! ### Hand-written instructions -/

theorem numOpcode_eq (d : Dir) (t : IntT) : numOpcode d t = opScalar d t := by cases d <;> cases t <;> rfl

theorem textCode_eq (d : Dir) (n : Nat) (h : n ≤ 65535) : textCode d n = opStr d :: leBytes 2 n := by
  have : n / 256 % 256 = n / 256 := Nat.mod_eq_of_lt (by omega)
  cases d <;> simp [textCode, word16, leBytes2, this, opStr]

theorem ordBytes_map (s : Str) (h : ∀ c ∈ s, c ≠ '\x00' ∧ c.toNat < 128) :
    (0 : UInt8) ∉ s.map (fun c => UInt8.ofNat c.toNat) ∧
      asciiDecode (s.map (fun c => UInt8.ofNat c.toNat)) = .ok s := by
  induction s with
  | nil => simp [asciiDecode]
  | cons c s ih =>
    obtain ⟨h1, h2⟩ := ih (fun c hc => h c (by simp [hc]))
    obtain ⟨hz, hlt⟩ := h c (by simp)
    have e : (UInt8.ofNat c.toNat).toNat = c.toNat := by simp; omega
    constructor
    · simp only [List.map_cons, List.mem_cons, not_or]
      refine ⟨?_, h1⟩
      intro h0
      have h3 : c.toNat = 0 := by
        rw [← e, ← h0]
        rfl
      exact hz (by rw [← Char.ofNat_toNat c, h3])
    · simp only [List.map_cons, asciiDecode, e]
      rw [if_pos hlt, h2]
      simp

theorem parse_selectCode (s : Str) (h : ∀ c ∈ s, c ≠ '\x00' ∧ c.toNat < 128) (rest : Bytes) :
    parseInstr (selectCode s ++ rest) = .ok (some (.recordSelect s, rest)) := by
  obtain ⟨h1, h2⟩ := ordBytes_map s h
  have e : selectCode s ++ rest = 30 :: (s.map (fun c => UInt8.ofNat c.toNat) ++ 0 :: rest) := by simp [selectCode]
  rw [e]
  simp [parseInstr, parseSelect, splitZero_append _ rest h1, h2]

theorem parse_29 (rest : Bytes) : parseInstr (29 :: rest) = .ok (some (.recordEnter, rest)) := rfl
theorem parse_31 (rest : Bytes) : parseInstr (31 :: rest) = .ok (some (.recordLeave, rest)) := rfl
theorem parse_32 (rest : Bytes) : parseInstr (32 :: rest) = .ok (some (.arrayEnter, rest)) := rfl
theorem parse_33 (rest : Bytes) : parseInstr (33 :: rest) = .ok (some (.arrayLeave, rest)) := rfl

theorem itemsLayout_cons {f : PyVal → Option Bytes} {v : PyVal} {l : List PyVal} {bs : Bytes}
    (h : itemsLayout f (v :: l) = some bs) :
    ∃ a b, f v = some a ∧ itemsLayout f l = some b ∧ bs = a ++ b := by
  simp only [itemsLayout] at h
  split at h
  · rename_i a b ha hb
    simp only [Option.some.injEq] at h
    exact ⟨a, b, ha, hb, h.symm⟩
  · simp at h

theorem DescrFields.layout_cons {k : Str} {s : Descr} {r : DescrFields} {d : List (Str × PyVal)} {bs : Bytes}
    (h : (DescrFields.cons k s r).layout d = some bs) :
    ∃ v a b, d.lookup k = some v ∧ s.layout v = some a ∧ r.layout d = some b ∧ bs = a ++ b := by
  simp only [DescrFields.layout] at h
  split at h
  · simp at h
  · rename_i v hv
    split at h
    · rename_i a b ha hb
      simp only [Option.some.injEq] at h
      exact ⟨v, a, b, hv, ha, hb, h.symm⟩
    · simp at h

theorem Descr.layout_record {fs : DescrFields} {v : PyVal} {bs : Bytes} (h : (Descr.record fs).layout v = some bs) :
    ∃ d, v = .dict d ∧ fs.layout d = some bs := by
  cases v with
  | dict d => exact ⟨d, rfl, by simpa [Descr.layout] using h⟩
  | _ => simp [Descr.layout] at h

theorem Descr.layout_list {n : Nat} {s : Descr} {v : PyVal} {bs : Bytes} (h : (Descr.list n s).layout v = some bs) :
    ∃ l, v = .list l ∧ n ≤ l.length ∧ itemsLayout (fun v => s.layout v) (l.take n) = some bs := by
  cases v with
  | list l =>
    simp only [Descr.layout] at h
    split at h
    · rename_i hn
      exact ⟨l, rfl, hn, h⟩
    · simp at h
  | _ => simp [Descr.layout] at h

theorem Descr.layout_text {n : Nat} {v : PyVal} {bs : Bytes} (h : (Descr.text n).layout v = some bs) :
    ∃ s, v = .str s ∧ bs = textLayout n s := by
  cases v with
  | str s =>
    simp only [Descr.layout, Option.some.injEq] at h
    exact ⟨s, rfl, h.symm⟩
  | _ => simp [Descr.layout] at h

theorem itemsLayout_length {f : PyVal → Option Bytes} {k : Nat} (hf : ∀ v b, f v = some b → b.length = k)
    (l : List PyVal) (bs : Bytes) (h : itemsLayout f l = some bs) : bs.length = l.length * k := by
  induction l generalizing bs with
  | nil => simp [itemsLayout] at h; subst h; simp
  | cons v l ih =>
    obtain ⟨a, b, ha, hb, rfl⟩ := itemsLayout_cons h
    rw [List.length_append, hf v a ha, ih b hb, List.length_cons, Nat.succ_mul]
    omega

mutual
theorem Descr.layout_size (s : Descr) (v : PyVal) (bs : Bytes) (h : s.layout v = some bs) : bs.length = s.size := by
  match s with
  | .num t => rw [intLayout_length t v bs h, Descr.size, width_eq]
  | .text n =>
    obtain ⟨s, _, rfl⟩ := Descr.layout_text h
    exact packS_textLayout_length n s
  | .record fs =>
    obtain ⟨d, rfl, h⟩ := Descr.layout_record h
    exact DescrFields.layout_size fs d bs h
  | .list n s =>
    obtain ⟨l, rfl, hn, h⟩ := Descr.layout_list h
    rw [itemsLayout_length (fun v b hb => Descr.layout_size s v b hb) _ _ h, Descr.size]
    simp [Nat.min_eq_left hn]
theorem DescrFields.layout_size (fs : DescrFields) (d : List (Str × PyVal)) (bs : Bytes) (h : fs.layout d = some bs) :
    bs.length = fs.size := by
  match fs with
  | .nil => simp [DescrFields.layout] at h; subst h; rfl
  | .cons k s r =>
    obtain ⟨v, a, b, _, ha, hb, rfl⟩ := DescrFields.layout_cons h
    rw [List.length_append, Descr.layout_size s v a ha, DescrFields.layout_size r d b hb, DescrFields.size]
end

/-! ### Packing -/

/-- The machine stands before the value `v`: at top level, at a selected field, or at item `i` of a
list; and the state after the value has been packed. -/
inductive Spot : VmState → PyVal → VmState → Prop
  | top (v : PyVal) : Spot ⟨v, none, none, []⟩ v ⟨v, none, none, []⟩
  | field (d : List (Str × PyVal)) (k : Str) (v : PyVal) (key : Option Str)
      (stack : List (PyVal × Option Str × Option Nat)) (h : d.lookup k = some v) :
      Spot ⟨.dict d, some k, none, stack⟩ v ⟨.dict d, key, none, stack⟩
  | item (l : List PyVal) (i : Nat) (v : PyVal) (stack : List (PyVal × Option Str × Option Nat))
      (h : l[i]? = some v) : Spot ⟨.list l, none, some i, stack⟩ v ⟨.list l, none, some (i + 1), stack⟩

theorem enter_record (st st' : VmState) (d : List (Str × PyVal)) (p : Spot st (.dict d) st') :
    ∃ stack st2, PackSim [29] [] st ⟨.dict d, none, none, stack⟩ ∧ Spot st (.dict d) st2 ∧
      ∀ key, PackSim [31] [] ⟨.dict d, key, none, stack⟩ st2 := by
  cases p with
  | top =>
    refine ⟨[], _, PackSim.step (i := .recordEnter) (fun rest => parse_29 rest) ?_, .top _, fun key =>
      PackSim.step (i := .recordLeave) (fun rest => parse_31 rest) ?_⟩
    · intro data off; simp [execPack, VmState.packRecordEnter, PyVal.isDict]
    · intro data off; simp [execPack, VmState.packRecordLeave]
  | field dd k v key stack hk =>
    refine ⟨(.dict dd, some k, none) :: stack, _, PackSim.step (i := .recordEnter) (fun rest => parse_29 rest) ?_,
      .field dd k _ none stack hk, fun key' => PackSim.step (i := .recordLeave) (fun rest => parse_31 rest) ?_⟩
    · intro data off; simp [execPack, VmState.packRecordEnter, PyVal.getKey, hk]
    · intro data off; simp [execPack, VmState.packRecordLeave]
  | item l i v stack hi =>
    refine ⟨(.list l, none, some i) :: stack, _, PackSim.step (i := .recordEnter) (fun rest => parse_29 rest) ?_,
      .item l i _ stack hi, fun key' => PackSim.step (i := .recordLeave) (fun rest => parse_31 rest) ?_⟩
    · intro data off; simp [execPack, VmState.packRecordEnter, PyVal.getIdx, hi]
    · intro data off; simp [execPack, VmState.packRecordLeave]

theorem enter_list (st st' : VmState) (l : List PyVal) (p : Spot st (.list l) st') :
    ∃ stack st2, PackSim [32] [] st ⟨.list l, none, some 0, stack⟩ ∧ Spot st (.list l) st2 ∧
      ∀ n, PackSim [33] [] ⟨.list l, none, some n, stack⟩ st2 := by
  cases p with
  | top =>
    refine ⟨[], _, PackSim.step (i := .arrayEnter) (fun rest => parse_32 rest) ?_, .top _, fun key =>
      PackSim.step (i := .arrayLeave) (fun rest => parse_33 rest) ?_⟩
    · intro data off; simp [execPack, VmState.packArrayEnter, PyVal.isList]
    · intro data off; simp [execPack, VmState.packArrayLeave]
  | field dd k v key stack hk =>
    refine ⟨(.dict dd, some k, none) :: stack, _, PackSim.step (i := .arrayEnter) (fun rest => parse_32 rest) ?_,
      .field dd k _ (some k) stack hk, fun key' => PackSim.step (i := .arrayLeave) (fun rest => parse_33 rest) ?_⟩
    · intro data off; simp [execPack, VmState.packArrayEnter, PyVal.getKey, hk]
    · intro data off; simp [execPack, VmState.packArrayLeave]
  | item l i v stack hi =>
    refine ⟨(.list l, none, some i) :: stack, _, PackSim.step (i := .arrayEnter) (fun rest => parse_32 rest) ?_,
      .item l i _ stack hi, fun key' => PackSim.step (i := .arrayLeave) (fun rest => parse_33 rest) ?_⟩
    · intro data off; simp [execPack, VmState.packArrayEnter, PyVal.getIdx, hi]
    · intro data off; simp [execPack, VmState.packArrayLeave]

/-- The state after an item is determined by the one before. -/
theorem spot_item {l : List PyVal} {i : Nat} {v : PyVal} {stack : List (PyVal × Option Str × Option Nat)} {st' : VmState}
    (p : Spot ⟨.list l, none, some i, stack⟩ v st') : l[i]? = some v ∧ st' = ⟨.list l, none, some (i + 1), stack⟩ := by
  cases p with
  | item _ _ _ _ h => exact ⟨h, rfl⟩

theorem spot_field {d : List (Str × PyVal)} {k : Str} {v : PyVal} {stack : List (PyVal × Option Str × Option Nat)}
    {st' : VmState} (p : Spot ⟨.dict d, some k, none, stack⟩ v st') : ∃ key, st' = ⟨.dict d, key, none, stack⟩ := by
  cases p with
  | field _ _ _ key _ h => exact ⟨key, rfl⟩

theorem spot_top {v w : PyVal} {st' : VmState} (p : Spot ⟨v, none, none, []⟩ w st') : w = v ∧ st' = ⟨v, none, none, []⟩ := by
  cases p with
  | top => exact ⟨rfl, rfl⟩

/-- Numbers and text stand at top level or in a field. -/
def Descr.Place (s : Descr) (st : VmState) : Prop := st.idx = none ∨ s.Bracketed

theorem spot_place {st st' : VmState} {v : PyVal} (p : Spot st v st') (h : st.idx = none) :
    Apx.Place st v ∧ Spot st v st := by
  cases p with
  | top => exact ⟨.top v, .top v⟩
  | field d k v key stack hk => exact ⟨.field d k v stack hk, .field d k v (some k) stack hk⟩
  | item => simp at h

theorem items_sim (s : Descr) (hb : s.Bracketed)
    (hs : ∀ v bs st st', s.layout v = some bs → s.Place st → Spot st v st' →
      ∃ st2, Spot st v st2 ∧ PackSim (s.code .pack) bs st st2)
    (l : List PyVal) (stack : List (PyVal × Option Str × Option Nat)) (n i : Nat) (bs : Bytes)
    (hn : i + n ≤ l.length) (h : itemsLayout (fun v => s.layout v) ((l.drop i).take n) = some bs) :
    PackSim (repeatCode n (s.code .pack)) bs ⟨.list l, none, some i, stack⟩ ⟨.list l, none, some (i + n), stack⟩ := by
  induction n generalizing i bs with
  | zero =>
    simp [itemsLayout] at h
    subst h
    intro data off rest _
    simp [repeatCode, put_nil]
  | succ n ih =>
    have hi : i < l.length := by omega
    rw [List.drop_eq_getElem_cons hi, List.take_succ_cons] at h
    obtain ⟨a, b, ha, hb', rfl⟩ := itemsLayout_cons h
    obtain ⟨st2, hsp, h1⟩ := hs _ a ⟨.list l, none, some i, stack⟩ _ ha (.inr hb)
      (.item l i _ stack (List.getElem?_eq_getElem hi))
    obtain ⟨_, rfl⟩ := spot_item hsp
    have h2 := ih (i + 1) b (by omega) hb'
    have h3 := h1.append h2
    have e : i + 1 + n = i + (n + 1) := by omega
    rw [e] at h3
    exact h3

mutual
theorem Descr.packs (s : Descr) (hok : s.Ok) (v : PyVal) (bs : Bytes) (st st' : VmState)
    (h : s.layout v = some bs) (hp : s.Place st) (p : Spot st v st') :
    ∃ st2, Spot st v st2 ∧ PackSim (s.code .pack) bs st st2 := by
  match s with
  | .num t =>
    obtain ⟨h1, h2⟩ := spot_place p (by rcases hp with hp | hp; exact hp; exact hp.elim)
    refine ⟨st, h2, ?_⟩
    rw [Descr.code, numOpcode_eq]
    exact pack_scalar_sim t st v bs h1 h
  | .text n =>
    obtain ⟨h1, h2⟩ := spot_place p (by rcases hp with hp | hp; exact hp; exact hp.elim)
    obtain ⟨s, rfl, rfl⟩ := Descr.layout_text h
    refine ⟨st, h2, ?_⟩
    rw [Descr.code, textCode_eq _ _ hok]
    exact pack_str_sim n st s h1 hok
  | .record fs =>
    obtain ⟨d, rfl, h⟩ := Descr.layout_record h
    obtain ⟨stack, st2, h1, h2, h3⟩ := enter_record st st' d p
    obtain ⟨key, h4⟩ := DescrFields.packs fs hok.1 d bs none stack h
    refine ⟨st2, h2, ?_⟩
    have := (h1.append h4).append (h3 key)
    simpa [Descr.code] using this
  | .list n s =>
    obtain ⟨l, rfl, hn, h⟩ := Descr.layout_list h
    obtain ⟨stack, st2, h1, h2, h3⟩ := enter_list st st' l p
    have h4 := items_sim s hok.2.1 (fun v bs st st' => Descr.packs s hok.2.2 v bs st st') l stack n 0 bs
      (by omega) (by simpa using h)
    refine ⟨st2, h2, ?_⟩
    have := (h1.append h4).append (h3 (0 + n))
    simpa [Descr.code] using this
theorem DescrFields.packs (fs : DescrFields) (hok : fs.Ok) (d : List (Str × PyVal)) (bs : Bytes) (key : Option Str)
    (stack : List (PyVal × Option Str × Option Nat)) (h : fs.layout d = some bs) :
    ∃ key', PackSim (fs.code .pack) bs ⟨.dict d, key, none, stack⟩ ⟨.dict d, key', none, stack⟩ := by
  match fs with
  | .nil =>
    simp [DescrFields.layout] at h
    subst h
    exact ⟨key, fun data off rest _ => by simp [DescrFields.code, put_nil]⟩
  | .cons k s r =>
    obtain ⟨v, a, b, hv, ha, hb, rfl⟩ := DescrFields.layout_cons h
    obtain ⟨hk, hs, hr⟩ := hok
    have h1 : PackSim (selectCode k) [] ⟨.dict d, key, none, stack⟩ ⟨.dict d, some k, none, stack⟩ :=
      PackSim.step (i := .recordSelect k) (fun rest => parse_selectCode k hk rest) (by
        intro data off; simp [execPack, VmState.recordSelect, PyVal.isDict])
    obtain ⟨st2, hsp, h2⟩ := Descr.packs s hs v a ⟨.dict d, some k, none, stack⟩ _ ha (.inl rfl)
      (.field d k v (some k) stack hv)
    obtain ⟨key2, rfl⟩ := spot_field hsp
    obtain ⟨key', h3⟩ := DescrFields.packs r hr d b key2 stack hb
    exact ⟨key', by simpa [DescrFields.code] using h1.append (h2.append h3)⟩
end

/-! ### What can be packed -/

/-- As `Spot`, but the value around an item can be of any kind. -/
inductive Seat : VmState → PyVal → Prop
  | top (v : PyVal) : Seat ⟨v, none, none, []⟩ v
  | field (d : List (Str × PyVal)) (k : Str) (v : PyVal)
      (stack : List (PyVal × Option Str × Option Nat)) (h : d.lookup k = some v) :
      Seat ⟨.dict d, some k, none, stack⟩ v
  | item (w : PyVal) (i : Nat) (v : PyVal) (stack : List (PyVal × Option Str × Option Nat))
      (h : w.getIdx i = .ok v) : Seat ⟨w, none, some i, stack⟩ v

theorem seat_place {st : VmState} {v : PyVal} (p : Seat st v) (h : st.idx = none) : Place st v := by
  cases p with
  | top => exact .top v
  | field d k v stack hk => exact .field d k v stack hk
  | item => simp at h

/-- Entering an item needs the item to exist. -/
theorem bracketed_item (s : Descr) (hb : s.Bracketed) (w : PyVal) (i : Nat)
    (stack : List (PyVal × Option Str × Option Nat)) (data : Bytes) (off : Nat) (rest : Bytes) (r : Vm)
    (h : runVm .pack false (s.code .pack ++ rest) ⟨⟨w, none, some i, stack⟩, data, off⟩ = .ok r) :
    ∃ v, w.getIdx i = .ok v := by
  cases s with
  | num t => exact hb.elim
  | text n => exact hb.elim
  | record fs =>
    simp only [Descr.code, List.cons_append] at h
    obtain ⟨m', hx, _⟩ := run_ok_step (parse_29 _) h
    simp only [execInstr, execPack, VmState.packRecordEnter, bind_ok_iff] at hx
    obtain ⟨_, ⟨v, hv, _⟩, _⟩ := hx
    exact ⟨v, hv⟩
  | list n s =>
    simp only [Descr.code, List.cons_append] at h
    obtain ⟨m', hx, _⟩ := run_ok_step (parse_32 _) h
    simp only [execInstr, execPack, VmState.packArrayEnter, bind_ok_iff] at hx
    obtain ⟨_, ⟨v, hv, _⟩, _⟩ := hx
    exact ⟨v, hv⟩

theorem bracketed_str (s : Descr) (hb : s.Bracketed) (t : Str) : s.layout (.str t) = none := by
  cases s with
  | num t => exact hb.elim
  | text n => exact hb.elim
  | record fs => rfl
  | list n s => rfl

theorem items_inv (s : Descr) (hb : s.Bracketed) (hok : s.Ok)
    (hs : ∀ v st data off rest r, s.Place st → Seat st v → off ≤ data.length →
      runVm .pack false (s.code .pack ++ rest) ⟨st, data, off⟩ = .ok r →
      ∃ bs, s.layout v = some bs ∧ off + bs.length ≤ data.length)
    (l : List PyVal) (stack : List (PyVal × Option Str × Option Nat)) (n i : Nat) (data : Bytes) (off : Nat) (rest : Bytes)
    (r : Vm) (ho : off ≤ data.length)
    (h : runVm .pack false (repeatCode n (s.code .pack) ++ rest) ⟨⟨.list l, none, some i, stack⟩, data, off⟩ = .ok r) :
    (0 < n → i + n ≤ l.length) ∧ ∃ bs, itemsLayout (fun v => s.layout v) ((l.drop i).take n) = some bs ∧
      off + bs.length ≤ data.length := by
  induction n generalizing i data off with
  | zero => exact ⟨by omega, [], by simp [itemsLayout], by simpa using ho⟩
  | succ n ih =>
    simp only [repeatCode, List.append_assoc] at h
    obtain ⟨v, hv⟩ := bracketed_item s hb _ _ _ _ _ _ _ h
    obtain ⟨a, ha, hle⟩ := hs v _ data off _ r (.inr hb) (.item (.list l) i v stack hv) ho h
    have hi : l[i]? = some v := by
      simp only [PyVal.getIdx] at hv
      split at hv
      · rename_i v' hv'
        simp only [Except.ok.injEq] at hv
        rw [hv', hv]
      · simp at hv
    obtain ⟨st2, hsp, hsim⟩ := Descr.packs s hok v a _ _ ha (.inr hb) (.item l i v stack hi)
    obtain ⟨_, rfl⟩ := spot_item hsp
    rw [hsim data off _ hle] at h
    obtain ⟨h1, b, hb', hle'⟩ := ih (i + 1) _ _ (by rw [put_length _ _ _ hle]; omega) h
    rw [put_length _ _ _ hle] at hle'
    obtain ⟨hlt, hg⟩ := List.getElem?_eq_some_iff.mp hi
    refine ⟨fun _ => ?_, a ++ b, ?_, by rw [List.length_append]; omega⟩
    · by_cases h0 : 0 < n
      · have := h1 h0; omega
      · omega
    · rw [List.drop_eq_getElem_cons hlt, List.take_succ_cons, hg]
      simp [itemsLayout, ha, hb']

mutual
theorem Descr.packed (s : Descr) (hok : s.Ok) (v : PyVal) (st : VmState) (data : Bytes) (off : Nat) (rest : Bytes)
    (r : Vm) (hp : s.Place st) (p : Seat st v) (ho : off ≤ data.length)
    (h : runVm .pack false (s.code .pack ++ rest) ⟨st, data, off⟩ = .ok r) :
    ∃ bs, s.layout v = some bs ∧ off + bs.length ≤ data.length := by
  match s with
  | .num t =>
    have h1 := seat_place p (by rcases hp with hp | hp; exact hp; exact hp.elim)
    rw [Descr.code, numOpcode_eq] at h
    exact pack_scalar_inv t st v h1 data off rest r h
  | .text n =>
    have h1 := seat_place p (by rcases hp with hp | hp; exact hp; exact hp.elim)
    rw [Descr.code, textCode_eq _ _ hok] at h
    obtain ⟨t, rfl, h2⟩ := pack_str_inv n hok st v h1 data off rest r h
    exact ⟨_, rfl, by rw [packS_textLayout_length]; exact h2⟩
  | .record fs =>
    obtain ⟨hf, hne⟩ := hok
    simp only [Descr.code, List.cons_append, List.append_assoc] at h
    obtain ⟨m', hx, h⟩ := run_ok_step (parse_29 _) h
    simp only [execInstr, execPack, bind_ok_iff] at hx
    obtain ⟨st', hx, hm⟩ := hx
    simp only [Except.ok.injEq] at hm
    subst hm
    have hst : ∃ stack, st' = ⟨v, none, none, stack⟩ := by
      cases p with
      | top =>
        simp only [VmState.packRecordEnter] at hx
        split at hx
        · simp only [Except.ok.injEq] at hx; exact ⟨_, hx.symm⟩
        · simp at hx
      | field d k v stack hk =>
        simp only [VmState.packRecordEnter, PyVal.getKey, hk, ok_bind, Except.ok.injEq] at hx
        exact ⟨_, hx.symm⟩
      | item w i v stack hi =>
        simp only [VmState.packRecordEnter, hi, ok_bind, Except.ok.injEq] at hx
        exact ⟨_, hx.symm⟩
    obtain ⟨stack, rfl⟩ := hst
    have hd : ∃ d, v = .dict d := by
      cases fs with
      | nil => exact absurd rfl hne
      | cons k s rr =>
        simp only [DescrFields.code, List.append_assoc] at h
        obtain ⟨m3, hx, _⟩ := run_ok_step (parse_selectCode k hf.1 _) h
        simp only [execInstr, execPack, bind_ok_iff, VmState.recordSelect] at hx
        obtain ⟨st', hx, _⟩ := hx
        split at hx
        · rename_i hd
          cases v with
          | dict d => exact ⟨d, rfl⟩
          | _ => simp [PyVal.isDict] at hd
        · simp at hx
    obtain ⟨d, rfl⟩ := hd
    exact DescrFields.packed fs hf d none stack data off _ r ho h
  | .list n s =>
    obtain ⟨hn, hb, hs⟩ := hok
    simp only [Descr.code, List.cons_append, List.append_assoc] at h
    obtain ⟨m', hx, h⟩ := run_ok_step (parse_32 _) h
    simp only [execInstr, execPack, bind_ok_iff] at hx
    obtain ⟨st', hx, hm⟩ := hx
    simp only [Except.ok.injEq] at hm
    subst hm
    have hst : ∃ stack, st' = ⟨v, none, some 0, stack⟩ := by
      cases p with
      | top =>
        simp only [VmState.packArrayEnter] at hx
        split at hx
        · simp only [Except.ok.injEq] at hx; exact ⟨_, hx.symm⟩
        · simp at hx
      | field d k v stack hk =>
        simp only [VmState.packArrayEnter, PyVal.getKey, hk, ok_bind, Except.ok.injEq] at hx
        exact ⟨_, hx.symm⟩
      | item w i v stack hi =>
        simp only [VmState.packArrayEnter, hi, ok_bind, Except.ok.injEq] at hx
        exact ⟨_, hx.symm⟩
    obtain ⟨stack, rfl⟩ := hst
    have hl : ∃ l, v = .list l := by
      cases n with
      | zero => omega
      | succ n =>
        simp only [repeatCode, List.append_assoc] at h
        obtain ⟨w, hw⟩ := bracketed_item s hb _ _ _ _ _ _ _ h
        obtain ⟨a, ha, _⟩ := Descr.packed s hs w _ data off _ r (.inr hb) (.item v 0 w stack hw) ho h
        cases v with
        | list l => exact ⟨l, rfl⟩
        | str t =>
          simp only [PyVal.getIdx] at hw
          split at hw
          · simp only [Except.ok.injEq] at hw
            subst hw
            rw [bracketed_str s hb] at ha
            simp at ha
          · simp at hw
        | _ => simp [PyVal.getIdx] at hw
    obtain ⟨l, rfl⟩ := hl
    obtain ⟨h1, bs, h2, h3⟩ := items_inv s hb hs (fun v st data off rest r => Descr.packed s hs v st data off rest r)
      l stack n 0 data off _ r ho h
    refine ⟨bs, ?_, h3⟩
    simp only [Descr.layout]
    rw [if_pos (by have := h1 (by omega); omega)]
    simpa using h2
theorem DescrFields.packed (fs : DescrFields) (hok : fs.Ok) (d : List (Str × PyVal)) (key : Option Str)
    (stack : List (PyVal × Option Str × Option Nat)) (data : Bytes) (off : Nat) (rest : Bytes)
    (r : Vm) (ho : off ≤ data.length)
    (h : runVm .pack false (fs.code .pack ++ rest) ⟨⟨.dict d, key, none, stack⟩, data, off⟩ = .ok r) :
    ∃ bs, fs.layout d = some bs ∧ off + bs.length ≤ data.length := by
  match fs with
  | .nil => exact ⟨[], rfl, by simpa using ho⟩
  | .cons k s rr =>
    obtain ⟨hk, hs, hr⟩ := hok
    simp only [DescrFields.code, List.append_assoc] at h
    obtain ⟨m', hx, h⟩ := run_ok_step (parse_selectCode k hk _) h
    simp only [execInstr, execPack, VmState.recordSelect, PyVal.isDict, if_true, ok_bind, Except.ok.injEq] at hx
    subst hx
    have hv : ∃ v, d.lookup k = some v := by
      cases hl : d.lookup k with
      | some v => exact ⟨v, rfl⟩
      | none =>
        exfalso
        cases s with
        | num t =>
          rw [Descr.code, numOpcode_eq] at h
          obtain ⟨m', hx, _⟩ := run_ok_step (parse_scalar .pack t _) h
          simp [scalarInstr, execInstr, execPack, VmState.packStruct, VmState.current, PyVal.isDict, PyVal.getKey, hl] at hx
        | text n =>
          rw [Descr.code, textCode_eq _ _ hs] at h
          obtain ⟨m', hx, _⟩ := run_ok_step (parse_str .pack n _) h
          simp [strInstr, execInstr, execPack, VmState.packStr, VmState.current, PyVal.isDict, PyVal.getKey, hl] at hx
        | record fs =>
          simp only [Descr.code, List.cons_append] at h
          obtain ⟨m', hx, _⟩ := run_ok_step (parse_29 _) h
          simp [execInstr, execPack, VmState.packRecordEnter, PyVal.getKey, hl] at hx
        | list n s =>
          simp only [Descr.code, List.cons_append] at h
          obtain ⟨m', hx, _⟩ := run_ok_step (parse_32 _) h
          simp [execInstr, execPack, VmState.packArrayEnter, PyVal.getKey, hl] at hx
    obtain ⟨v, hv⟩ := hv
    obtain ⟨a, ha, hle⟩ := Descr.packed s hs v _ data off _ r (.inl rfl) (.field d k v stack hv) ho h
    obtain ⟨st2, hsp, hsim⟩ := Descr.packs s hs v a _ _ ha (.inl rfl) (.field d k v (some k) stack hv)
    obtain ⟨key2, rfl⟩ := spot_field hsp
    rw [hsim data off _ hle] at h
    obtain ⟨b, hb, hle'⟩ := DescrFields.packed rr hr d key2 stack _ _ rest r (by rw [put_length _ _ _ hle]; omega) h
    rw [put_length _ _ _ hle] at hle'
    exact ⟨a ++ b, by simp [DescrFields.layout, hv, ha, hb], by rw [List.length_append]; omega⟩
end

/-! ### Unpacking -/

/-- The machine, about to read a value, stands at top level, at a selected field of a dict or behind
the items of a list read so far; and the state once the value `v` has been read. -/
inductive Slot : VmState → PyVal → VmState → Prop
  | top (w : PyVal) (v : PyVal) (hw : w.isDict = false) : Slot ⟨w, none, none, []⟩ v ⟨v, none, none, []⟩
  | field (d : List (Str × PyVal)) (k : Str) (v : PyVal) (key : Option Str)
      (stack : List (PyVal × Option Str × Option Nat)) :
      Slot ⟨.dict d, some k, none, stack⟩ v ⟨.dict (dictSet d k v), key, none, stack⟩
  | item (l : List PyVal) (i : Nat) (v : PyVal) (stack : List (PyVal × Option Str × Option Nat)) :
      Slot ⟨.list l, none, some i, stack⟩ v ⟨.list (l ++ [v]), none, some (i + 1), stack⟩

/-- Running `code` from state `st` reads `bs` and leaves state `st'`. -/
def UnpackSim (code bs : Bytes) (st st' : VmState) : Prop :=
  ∀ data off rest, Holds data off bs →
    runVm .unpack false (code ++ rest) ⟨st, data, off⟩ = runVm .unpack false rest ⟨st', data, off + bs.length⟩

theorem UnpackSim.append {c1 c2 b1 b2 : Bytes} {s s1 s2 : VmState} (h1 : UnpackSim c1 b1 s s1)
    (h2 : UnpackSim c2 b2 s1 s2) : UnpackSim (c1 ++ c2) (b1 ++ b2) s s2 := by
  intro data off rest h
  obtain ⟨ha, hb⟩ := h.append
  rw [List.append_assoc, h1 data off _ ha, h2 data _ _ hb]
  simp [Nat.add_assoc]

theorem UnpackSim.step {c : Bytes} {i : Instr} {s s' : VmState}
    (hp : ∀ rest, parseInstr (c ++ rest) = .ok (some (i, rest)))
    (hx : ∀ data off, execUnpack i ⟨s, data, off⟩ = .ok ⟨s', data, off⟩) : UnpackSim c [] s s' := by
  intro data off rest _
  rw [runVm_step _ (hp rest)]
  simp [execInstr, hx]

/-- Lists can be read everywhere. -/
theorem read_list (st st' : VmState) (v : PyVal) (p : Slot st v st') :
    ∃ stack, UnpackSim [32] [] st ⟨.list [], none, some 0, stack⟩ ∧
      ∀ l, ∃ st2, Slot st (.list l) st2 ∧ ∀ n, UnpackSim [33] [] ⟨.list l, none, some n, stack⟩ st2 := by
  cases p with
  | top w v hw =>
    refine ⟨[], UnpackSim.step (i := .arrayEnter) (fun rest => parse_32 rest) ?_, fun l => ⟨_, .top w _ hw, fun key =>
      UnpackSim.step (i := .arrayLeave) (fun rest => parse_33 rest) ?_⟩⟩
    · intro data off; simp [execUnpack, VmState.unpackArrayEnter]
    · intro data off; simp [execUnpack, VmState.unpackArrayLeave]
  | field d k v key stack =>
    refine ⟨(.dict d, some k, none) :: stack, UnpackSim.step (i := .arrayEnter) (fun rest => parse_32 rest) ?_,
      fun l => ⟨_, .field d k _ none stack, fun key => UnpackSim.step (i := .arrayLeave) (fun rest => parse_33 rest) ?_⟩⟩
    · intro data off; simp [execUnpack, VmState.unpackArrayEnter]
    · intro data off; simp [execUnpack, VmState.unpackArrayLeave, VmState.setChild]
  | item l i v stack =>
    refine ⟨(.list l, none, some i) :: stack, UnpackSim.step (i := .arrayEnter) (fun rest => parse_32 rest) ?_,
      fun l' => ⟨_, .item l i _ stack, fun key => UnpackSim.step (i := .arrayLeave) (fun rest => parse_33 rest) ?_⟩⟩
    · intro data off; simp [execUnpack, VmState.unpackArrayEnter]
    · intro data off; simp [execUnpack, VmState.unpackArrayLeave, VmState.appendChild]

/-- Records can be read at top level and as items. -/
theorem read_record (st st' : VmState) (v : PyVal) (p : Slot st v st') (hk : st.key = none) :
    ∃ stack, UnpackSim [29] [] st ⟨.dict [], none, none, stack⟩ ∧
      ∀ d, ∃ st2, Slot st (.dict d) st2 ∧ ∀ key, UnpackSim [31] [] ⟨.dict d, key, none, stack⟩ st2 := by
  cases p with
  | top w v hw =>
    refine ⟨[], UnpackSim.step (i := .recordEnter) (fun rest => parse_29 rest) ?_, fun l => ⟨_, .top w _ hw, fun key =>
      UnpackSim.step (i := .recordLeave) (fun rest => parse_31 rest) ?_⟩⟩
    · intro data off; simp [execUnpack, VmState.unpackRecordEnter]
    · intro data off; simp [execUnpack, VmState.unpackRecordLeave]
  | field d k v key stack => simp at hk
  | item l i v stack =>
    refine ⟨(.list l, none, some i) :: stack, UnpackSim.step (i := .recordEnter) (fun rest => parse_29 rest) ?_,
      fun l' => ⟨_, .item l i _ stack, fun key => UnpackSim.step (i := .recordLeave) (fun rest => parse_31 rest) ?_⟩⟩
    · intro data off; simp [execUnpack, VmState.unpackRecordEnter]
    · intro data off; simp [execUnpack, VmState.unpackRecordLeave, VmState.appendChild]

theorem slot_item {l : List PyVal} {i : Nat} {v : PyVal} {stack : List (PyVal × Option Str × Option Nat)} {st' : VmState}
    (p : Slot ⟨.list l, none, some i, stack⟩ v st') : st' = ⟨.list (l ++ [v]), none, some (i + 1), stack⟩ := by
  cases p with
  | item _ _ _ _ => rfl

theorem slot_field {d : List (Str × PyVal)} {k : Str} {v : PyVal} {stack : List (PyVal × Option Str × Option Nat)}
    {st' : VmState} (p : Slot ⟨.dict d, some k, none, stack⟩ v st') :
    ∃ key, st' = ⟨.dict (dictSet d k v), key, none, stack⟩ := by
  cases p with
  | field _ _ _ key _ => exact ⟨key, rfl⟩

theorem slot_store {st st' : VmState} {v : PyVal} (p : Slot st v st') (h : st.idx = none) :
    ∃ st2, st.store v = .ok st2 ∧ Slot st v st2 := by
  cases p with
  | top w v hw =>
    refine ⟨_, ?_, .top w v hw⟩
    cases w <;> simp [PyVal.isDict] at hw <;> rfl
  | field d k v key stack => exact ⟨_, rfl, .field d k v (some k) stack⟩
  | item => simp at h

theorem items_unpack (s : Descr) (hb : s.Bracketed)
    (hs : ∀ v bs st st', s.Fits v → s.layout v = some bs → s.Place st → (st.key = none ∨ ∀ fs, s ≠ .record fs) →
      Slot st v st' → ∃ st2, Slot st v st2 ∧ UnpackSim (s.code .unpack) bs st st2)
    (stack : List (PyVal × Option Str × Option Nat)) (l acc : List PyVal) (i : Nat) (bs : Bytes)
    (hf : ∀ x ∈ l, s.Fits x) (h : itemsLayout (fun v => s.layout v) l = some bs) :
    UnpackSim (repeatCode l.length (s.code .unpack)) bs ⟨.list acc, none, some i, stack⟩
      ⟨.list (acc ++ l), none, some (i + l.length), stack⟩ := by
  induction l generalizing acc i bs with
  | nil =>
    simp [itemsLayout] at h
    subst h
    intro data off rest _
    simp [repeatCode]
  | cons v l ih =>
    obtain ⟨a, b, ha, hb', rfl⟩ := itemsLayout_cons h
    obtain ⟨st2, hsp, h1⟩ := hs v a ⟨.list acc, none, some i, stack⟩ _ (hf v (by simp)) ha (.inr hb) (.inl rfl)
      (.item acc i v stack)
    have := slot_item hsp
    subst this
    have h2 := ih (acc ++ [v]) (i + 1) b (fun x hx => hf x (by simp [hx])) hb'
    have h3 := h1.append h2
    have e : i + 1 + l.length = i + (v :: l).length := by simp; omega
    rw [e, List.append_assoc] at h3
    exact h3

theorem dictSet_new (acc : List (Str × PyVal)) (k : Str) (v : PyVal) (h : k ∉ acc.map Prod.fst) :
    dictSet acc k v = acc ++ [(k, v)] := by
  induction acc with
  | nil => rfl
  | cons p acc ih =>
    obtain ⟨a, b⟩ := p
    simp only [List.map_cons, List.mem_cons, not_or] at h
    simp only [dictSet]
    rw [if_neg (fun e => h.1 e.symm), ih h.2]
    rfl

theorem DescrFields.fits_names (fs : DescrFields) (d : List (Str × PyVal)) (h : fs.Fits d) : d.map Prod.fst = fs.names := by
  match fs with
  | .nil => simp only [DescrFields.Fits] at h; subst h; rfl
  | .cons k s r =>
    simp only [DescrFields.Fits] at h
    obtain ⟨v, d', rfl, _, h⟩ := h
    simp [DescrFields.names, DescrFields.fits_names r d' h]

/-- A layout depends only on the fields that are read. -/
theorem DescrFields.layout_skip (fs : DescrFields) (k : Str) (v : PyVal) (d : List (Str × PyVal)) (h : k ∉ fs.names) :
    fs.layout ((k, v) :: d) = fs.layout d := by
  match fs with
  | .nil => rfl
  | .cons k' s r =>
    simp only [DescrFields.names, List.mem_cons, not_or] at h
    have hb : (k' == k) = false := by simpa using fun e => h.1 (e.symm)
    simp only [DescrFields.layout, List.lookup, hb, DescrFields.layout_skip r k v d h.2]

mutual
theorem Descr.unpacks (s : Descr) (hok : s.Ok) (hfl : s.Flat) (v : PyVal) (bs : Bytes) (st st' : VmState) (hf : s.Fits v)
    (h : s.layout v = some bs) (hp : s.Place st) (hr : st.key = none ∨ ∀ fs, s ≠ .record fs) (p : Slot st v st') :
    ∃ st2, Slot st v st2 ∧ UnpackSim (s.code .unpack) bs st st2 := by
  match s with
  | .num t =>
    obtain ⟨st2, h1, h2⟩ := slot_store p (by rcases hp with hp | hp; exact hp; exact hp.elim)
    refine ⟨st2, h2, fun data off rest hd => ?_⟩
    rw [Descr.code, numOpcode_eq, unpack_scalar_sim t v bs data off st rest h hd, h1]
    rfl
  | .text n =>
    obtain ⟨st2, h1, h2⟩ := slot_store p (by rcases hp with hp | hp; exact hp; exact hp.elim)
    simp only [Descr.Fits] at hf
    obtain ⟨t, rfl, hl, hz⟩ := hf
    obtain ⟨t', ht, rfl⟩ := Descr.layout_text h
    simp only [PyVal.str.injEq] at ht
    subst ht
    refine ⟨st2, h2, fun data off rest hd => ?_⟩
    rw [Descr.code, textCode_eq _ _ hok, unpack_str_sim n hok t data off st rest hz hl hd, h1]
    rfl
  | .record fs =>
    simp only [Descr.Fits] at hf
    obtain ⟨d, rfl, hf⟩ := hf
    have h' : fs.layout d = some bs := by simpa [Descr.layout] using h
    obtain ⟨stack, h1, h2⟩ := read_record st st' _ p (by
      rcases hr with hr | hr
      · exact hr
      · exact absurd rfl (hr fs))
    obtain ⟨st2, h3, h4⟩ := h2 d
    obtain ⟨key, h5⟩ := DescrFields.unpacks fs hok.1 hfl.1 d bs none stack [] hf h' hfl.2 (by simp)
    refine ⟨st2, h3, ?_⟩
    have := (h1.append h5).append (h4 key)
    simpa [Descr.code] using this
  | .list n s =>
    simp only [Descr.Fits] at hf
    obtain ⟨l, rfl, hn, hf⟩ := hf
    obtain ⟨l', hl, _, h⟩ := Descr.layout_list h
    simp only [PyVal.list.injEq] at hl
    subst hl
    rw [List.take_of_length_le (by omega)] at h
    obtain ⟨stack, h1, h2⟩ := read_list st st' _ p
    obtain ⟨st2, h3, h4⟩ := h2 l
    have h5 := items_unpack s hok.2.1 (fun v bs st st' => Descr.unpacks s hok.2.2 hfl v bs st st') stack l [] 0 bs hf h
    refine ⟨st2, h3, ?_⟩
    rw [hn] at h5
    have := (h1.append h5).append (h4 (0 + n))
    simpa [Descr.code] using this
theorem DescrFields.unpacks (fs : DescrFields) (hok : fs.Ok) (hfl : fs.Flat) (d : List (Str × PyVal)) (bs : Bytes)
    (key : Option Str) (stack : List (PyVal × Option Str × Option Nat)) (acc : List (Str × PyVal)) (hf : fs.Fits d)
    (h : fs.layout d = some bs) (hn : fs.names.Nodup) (hacc : ∀ k ∈ fs.names, k ∉ acc.map Prod.fst) :
    ∃ key', UnpackSim (fs.code .unpack) bs ⟨.dict acc, key, none, stack⟩ ⟨.dict (acc ++ d), key', none, stack⟩ := by
  match fs with
  | .nil =>
    simp [DescrFields.layout] at h
    simp only [DescrFields.Fits] at hf
    subst h hf
    exact ⟨key, fun data off rest _ => by simp [DescrFields.code]⟩
  | .cons k s r =>
    simp only [DescrFields.Fits] at hf
    obtain ⟨v, d', rfl, hf1, hf2⟩ := hf
    obtain ⟨v', a, b, hv, ha, hb, rfl⟩ := DescrFields.layout_cons h
    simp only [List.lookup, beq_self_eq_true, Option.some.injEq] at hv
    subst hv
    obtain ⟨hk, hs, hr⟩ := hok
    obtain ⟨hfl1, hfl2, hfl3⟩ := hfl
    simp only [DescrFields.names, List.nodup_cons] at hn
    rw [DescrFields.layout_skip r k v d' hn.1] at hb
    have h1 : UnpackSim (selectCode k) [] ⟨.dict acc, key, none, stack⟩ ⟨.dict acc, some k, none, stack⟩ :=
      UnpackSim.step (i := .recordSelect k) (fun rest => parse_selectCode k hk rest) (by
        intro data off; simp [execUnpack, VmState.recordSelect, PyVal.isDict])
    obtain ⟨st2, hsp, h2⟩ := Descr.unpacks s hs hfl2 v a ⟨.dict acc, some k, none, stack⟩ _ hf1 ha (.inl rfl) (.inr hfl1)
      (.field acc k v (some k) stack)
    obtain ⟨key2, rfl⟩ := slot_field hsp
    rw [dictSet_new acc k v (hacc k (by simp [DescrFields.names]))] at h2
    obtain ⟨key', h3⟩ := DescrFields.unpacks r hr hfl3 d' b key2 stack (acc ++ [(k, v)]) hf2 hb hn.2 (by
      intro k' hk'
      simp only [List.map_append, List.map_cons, List.map_nil, List.mem_append, List.mem_singleton, not_or]
      exact ⟨hacc k' (by simp [DescrFields.names, hk']), fun e => hn.1 (e ▸ hk')⟩)
    refine ⟨key', ?_⟩
    have := h1.append (h2.append h3)
    simpa [DescrFields.code] using this
end

/-- Values of the shape have a layout. -/
theorem itemsLayout_some {f : PyVal → Option Bytes} (l : List PyVal) (h : ∀ x ∈ l, ∃ b, f x = some b) :
    ∃ bs, itemsLayout f l = some bs := by
  induction l with
  | nil => exact ⟨[], rfl⟩
  | cons v l ih =>
    obtain ⟨a, ha⟩ := h v (by simp)
    obtain ⟨b, hb⟩ := ih (fun x hx => h x (by simp [hx]))
    exact ⟨a ++ b, by simp [itemsLayout, ha, hb]⟩

mutual
theorem Descr.fits_layout (s : Descr) (hfl : s.Flat) (v : PyVal) (h : s.Fits v) : ∃ bs, s.layout v = some bs := by
  match s with
  | .num t =>
    simp only [Descr.Fits] at h
    obtain ⟨i, rfl, hi⟩ := h
    exact ⟨_, by simp [Descr.layout, intLayout, hi]; rfl⟩
  | .text n =>
    simp only [Descr.Fits] at h
    obtain ⟨t, rfl, _⟩ := h
    exact ⟨_, rfl⟩
  | .record fs =>
    simp only [Descr.Fits] at h
    obtain ⟨d, rfl, h⟩ := h
    exact DescrFields.fits_layout fs hfl.1 hfl.2 d h
  | .list n s =>
    simp only [Descr.Fits] at h
    obtain ⟨l, rfl, hn, h⟩ := h
    obtain ⟨bs, hb⟩ := itemsLayout_some (f := fun v => s.layout v) l (fun x hx => Descr.fits_layout s hfl x (h x hx))
    refine ⟨bs, ?_⟩
    simp only [Descr.layout]
    rw [if_pos (by omega), List.take_of_length_le (by omega)]
    exact hb
theorem DescrFields.fits_layout (fs : DescrFields) (hfl : fs.Flat) (hn : fs.names.Nodup) (d : List (Str × PyVal))
    (h : fs.Fits d) : ∃ bs, fs.layout d = some bs := by
  match fs with
  | .nil => exact ⟨[], rfl⟩
  | .cons k s r =>
    simp only [DescrFields.Fits] at h
    obtain ⟨v, d', rfl, h1, h2⟩ := h
    simp only [DescrFields.names, List.nodup_cons] at hn
    obtain ⟨a, ha⟩ := Descr.fits_layout s hfl.2.1 v h1
    obtain ⟨b, hb⟩ := DescrFields.fits_layout r hfl.2.2 hn.2 d' h2
    exact ⟨a ++ b, by simp [DescrFields.layout, List.lookup, ha, DescrFields.layout_skip r k v d' hn.1, hb]⟩
end

/-! ### Whole programs -/

theorem program_eq (d : Dir) (s : Descr) : s.program d = progHeader d s.size ++ s.code d := by
  simp only [Descr.program, littleEndian_nat]
  cases d <;> simp [progHeader, opProg]

end Apx
