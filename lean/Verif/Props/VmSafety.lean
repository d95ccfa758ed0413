import Verif.Proofs.VmProg
import Verif.Spec.VmSafety
import Verif.Model.Signature

/-!
C65: the virtual machine stays inside its buffer, and refuses short buffers and truncated programs.
-/

namespace Apx

/-! ### Short buffers -/

theorem header_short (d : Dir) (e : Elem) (prog : Bytes) (hc : compileProg d e = .ok prog) (n : Nat)
    (hn : e.packLen = .ok n) (h32 : n < 4294967296) (m : Vm) (hs : m.data.length < m.off + n) :
    runVm d true prog m = .error .runtimeError := by
  obtain ⟨code, k, hce, rfl⟩ := compileProg_inv hc
  have hk := compile_packLen e code k hce
  rw [hn] at hk
  have hk' : n = k := Except.ok.inj hk
  subst hk'
  rw [run_header, Nat.mod_eq_of_lt h32]
  simp only [verifyDataLen]
  rw [if_pos (by omega)]
  rfl

/-- C65: a buffer that has no room for the value at the offset is refused, whatever the value. -/
theorem C65_short_pack (e : Elem) (p : Bytes) (hp : compileProg .pack e = .ok p) (n : Nat)
    (hn : e.packLen = .ok n) (h32 : n < 4294967296) (data : Bytes) (off : Nat) (v : PyVal)
    (hs : data.length < off + n) : execPackProg p data off v = .error .runtimeError := by
  simp only [execPackProg]
  rw [header_short .pack e p hp n hn h32 _ hs]
  rfl

/-- C65: a value is not read from a buffer that ends before the value does. -/
theorem C65_short_unpack (e : Elem) (u : Bytes) (hu : compileProg .unpack e = .ok u) (n : Nat)
    (hn : e.packLen = .ok n) (h32 : n < 4294967296) (data : Bytes) (off : Nat)
    (hs : data.length < off + n) : execUnpackProg u data off = .error .runtimeError := by
  simp only [execUnpackProg]
  rw [header_short .unpack e u hu n hn h32 _ hs]
  rfl

/-- A record of a byte and two 16-bit numbers needs five bytes. -/
example : (compileProg .pack (.record (.cons (some ['a']) (.prim .u8 none none none)
      (.cons (some ['b']) (.prim .u16 none none (some 2)) .nil)) none)).toOption.isSome ∧
    (Elem.record (.cons (some ['a']) (.prim .u8 none none none)
      (.cons (some ['b']) (.prim .u16 none none (some 2)) .nil)) none).packLen = .ok 5 ∧
    ([0, 0, 0, 0, 0, 0] : Bytes).length < 2 + 5 := by decide +kernel

/-! ### Arbitrary programs -/

theorem packInt_len {t : IntT} {v : PyVal} {b : Bytes} (h : packInt t v = .ok b) : b.length = t.size := by
  obtain ⟨i, rfl, hi⟩ := packInt_ok t v b h
  rw [packInt_int t i hi] at h
  rw [← Except.ok.inj h, littleEndian_length, width_eq]

theorem packItems_within (t : IntT) (l : List PyVal) (n i : Nat) (data : Bytes) (off : Nat) (r : Bytes × Nat)
    (h : VmState.packItems t data off l i n = .ok r) :
    r.1.length = data.length ∧ (r.2 = off ∨ r.2 ≤ data.length) := by
  induction n generalizing i data off with
  | zero =>
    simp only [VmState.packItems, Except.ok.injEq] at h
    subst h
    simp
  | succ n ih =>
    simp only [VmState.packItems, bind_ok_iff] at h
    obtain ⟨v, hv, b, hb, data', hd, h⟩ := h
    obtain ⟨h1, h2⟩ := ih _ _ _ h
    obtain ⟨h4, _⟩ := packInto_frame hd
    have h5 := packInto_inv hd
    have h6 := packInt_len hb
    refine ⟨by rw [h1, h4], Or.inr ?_⟩
    rcases h2 with h2 | h2 <;> omega

theorem unpackItems_within (t : IntT) (data : Bytes) (n off : Nat) (l : List PyVal)
    (h : VmState.unpackItems t data off n = .ok l) : n = 0 ∨ off + t.size * n ≤ data.length := by
  induction n generalizing off l with
  | zero => exact Or.inl rfl
  | succ n ih =>
    right
    simp only [VmState.unpackItems, bind_ok_iff] at h
    obtain ⟨b, hb, r, hr, _⟩ := h
    have hb' : off + t.size ≤ data.length := by
      unfold unpackFrom at hb
      split at hb
      · assumption
      · simp at hb
    rcases ih _ _ hr with rfl | h1
    · simpa using hb'
    · rw [Nat.mul_succ]; omega

/-- The machine's position after one instruction. -/
theorem execPack_within (i : Instr) (m m' : Vm) (h : execPack i m = .ok m') :
    m'.data.length = m.data.length ∧ (m'.off = m.off ∨ m'.off ≤ m.data.length) := by
  refine ⟨(execPack_frame i m m' h).1, ?_⟩
  cases i with
  | packProg n =>
    simp only [execPack, verifyDataLen] at h
    split at h
    · simp at h
    · simp only [Except.ok.injEq] at h; subst h; simp
  | pack t n =>
    simp only [execPack, bind_ok_iff] at h
    obtain ⟨⟨d, o⟩, h, hm⟩ := h
    simp only [Except.ok.injEq] at hm
    subst hm
    simp only [VmState.packStruct, bind_ok_iff] at h
    obtain ⟨v, _, h⟩ := h
    split at h
    · cases v with
      | list l =>
        simp only [bind_ok_iff] at h
        obtain ⟨k, _, h⟩ := h
        split at h
        · simp at h
        · exact (packItems_within _ _ _ _ _ _ _ h).2
      | _ => simp at h
    · simp only [bind_ok_iff] at h
      obtain ⟨b, hb, d', hd, h⟩ := h
      simp only [Except.ok.injEq, Prod.mk.injEq] at h
      obtain ⟨rfl, rfl⟩ := h
      have h1 := packInto_inv hd
      rw [packInt_len hb] at h1
      exact Or.inr h1
  | packStr n =>
    simp only [execPack, bind_ok_iff] at h
    obtain ⟨⟨d, o⟩, h, hm⟩ := h
    simp only [Except.ok.injEq] at hm
    subst hm
    simp only [VmState.packStr, bind_ok_iff] at h
    obtain ⟨v, _, h⟩ := h
    cases v with
    | str s =>
      simp only [bind_ok_iff] at h
      obtain ⟨d', hd, h⟩ := h
      simp only [Except.ok.injEq, Prod.mk.injEq] at h
      obtain ⟨rfl, rfl⟩ := h
      have h1 := packInto_inv hd
      rw [packS_length] at h1
      exact Or.inr h1
    | _ => simp at h
  | recordLeave => simp only [execPack, Except.ok.injEq] at h; subst h; simp
  | arrayLeave => simp only [execPack, Except.ok.injEq] at h; subst h; simp
  | recordEnter =>
    simp only [execPack, bind_ok_iff] at h
    obtain ⟨s, _, h⟩ := h
    simp only [Except.ok.injEq] at h; subst h; simp
  | recordSelect n =>
    simp only [execPack, bind_ok_iff] at h
    obtain ⟨s, _, h⟩ := h
    simp only [Except.ok.injEq] at h; subst h; simp
  | arrayEnter =>
    simp only [execPack, bind_ok_iff] at h
    obtain ⟨s, _, h⟩ := h
    simp only [Except.ok.injEq] at h; subst h; simp
  | _ => simp [execPack] at h

theorem execUnpack_within (i : Instr) (m m' : Vm) (h : execUnpack i m = .ok m') :
    m'.data = m.data ∧ (m'.off = m.off ∨ m'.off ≤ m.data.length) := by
  cases i with
  | unpackProg n =>
    simp only [execUnpack, verifyDataLen] at h
    split at h
    · simp at h
    · simp only [Except.ok.injEq] at h; subst h; simp
  | unpack t n =>
    simp only [execUnpack, bind_ok_iff] at h
    obtain ⟨⟨d, o⟩, h, hm⟩ := h
    simp only [Except.ok.injEq] at hm
    subst hm
    simp only [VmState.unpackStruct] at h
    refine ⟨rfl, Or.inr ?_⟩
    split at h
    · simp only [bind_ok_iff] at h
      obtain ⟨l, hl, s, _, h⟩ := h
      simp only [Except.ok.injEq, Prod.mk.injEq] at h
      obtain ⟨rfl, rfl⟩ := h
      rcases unpackItems_within _ _ _ _ _ hl with h0 | h0
      · omega
      · exact h0
    · simp only [bind_ok_iff] at h
      obtain ⟨b, hb, s, _, h⟩ := h
      simp only [Except.ok.injEq, Prod.mk.injEq] at h
      obtain ⟨rfl, rfl⟩ := h
      unfold unpackFrom at hb
      split at hb
      · assumption
      · simp at hb
  | unpackStr n =>
    simp only [execUnpack, bind_ok_iff] at h
    obtain ⟨⟨d, o⟩, h, hm⟩ := h
    simp only [Except.ok.injEq] at hm
    subst hm
    simp only [VmState.unpackStr] at h
    refine ⟨rfl, Or.inr ?_⟩
    split at h
    · simp at h
    · simp only [bind_ok_iff] at h
      obtain ⟨b, hb, s, _, h⟩ := h
      simp only [Except.ok.injEq, Prod.mk.injEq] at h
      obtain ⟨rfl, rfl⟩ := h
      simp only
      omega
  | arrayEnter => simp only [execUnpack, Except.ok.injEq] at h; subst h; simp
  | recordEnter =>
    simp only [execUnpack, bind_ok_iff] at h
    obtain ⟨s, _, h⟩ := h
    simp only [Except.ok.injEq] at h; subst h; simp
  | recordSelect n =>
    simp only [execUnpack, bind_ok_iff] at h
    obtain ⟨s, _, h⟩ := h
    simp only [Except.ok.injEq] at h; subst h; simp
  | recordLeave =>
    simp only [execUnpack, bind_ok_iff] at h
    obtain ⟨s, _, h⟩ := h
    simp only [Except.ok.injEq] at h; subst h; simp
  | arrayLeave =>
    simp only [execUnpack, bind_ok_iff] at h
    obtain ⟨s, _, h⟩ := h
    simp only [Except.ok.injEq] at h; subst h; simp
  | _ => simp [execUnpack] at h

/-- C65: whatever the program, if it runs to its end the machine has not moved past the end of the
buffer, and the buffer has kept its length. -/
theorem C65_within (d : Dir) (first : Bool) (code : Bytes) (m r : Vm) (h : runVm d first code m = .ok r) :
    r.data.length = m.data.length ∧ (r.off = m.off ∨ r.off ≤ m.data.length) := by
  rw [runVm] at h
  split at h
  · simp at h
  · simp only [Except.ok.injEq] at h; subst h; simp
  · rename_i i rest hp
    split at h
    · simp at h
    · split at h
      · simp at h
      · rename_i m' hx
        have hlen := parseInstr_length hp
        obtain ⟨h4, h5⟩ := C65_within d false rest m' r h
        have h1 : m'.data.length = m.data.length ∧ (m'.off = m.off ∨ m'.off ≤ m.data.length) := by
          cases d with
          | pack => exact execPack_within i m m' hx
          | unpack =>
            obtain ⟨a, b⟩ := execUnpack_within i m m' hx
            exact ⟨by rw [a], b⟩
        refine ⟨by rw [h4, h1.1], ?_⟩
        rcases h5 with h5 | h5
        · rw [h5]; exact h1.2
        · right; omega
termination_by code.length

/-- A program nobody compiled: its header announces nothing, and it reads a string of three bytes. -/
example : (execUnpackProg [2, 0, 0, 0, 0, 22, 3, 0] [104, 105, 0, 9] 0).toOption.isSome ∧
    (execUnpackProg [2, 0, 0, 0, 0, 22, 3, 0] [104, 105] 0) = .error .valueError := by decide +kernel

/-! ### The offset -/

/-- The same machine with bytes in front of its buffer. -/
def Vm.behind (pre : Bytes) (m : Vm) : Vm := ⟨m.st, pre ++ m.data, pre.length + m.off⟩

theorem packInto_behind (pre data bs : Bytes) (off : Nat) :
    packInto (pre ++ data) (pre.length + off) bs = (packInto data off bs).map (pre ++ ·) := by
  unfold packInto
  by_cases h : off + bs.length ≤ data.length
  · rw [if_pos h, if_pos (by simp; omega)]
    have h1 : pre.take (pre.length + off) = pre := List.take_of_length_le (by omega)
    have h2 : pre.drop (pre.length + (off + bs.length)) = [] := List.drop_eq_nil_of_le (by omega)
    simp [Except.map, Nat.add_assoc, List.take_append, List.drop_append, h1, h2]
  · rw [if_neg h, if_neg (by simp; omega)]
    rfl

theorem unpackFrom_behind (pre data : Bytes) (off n : Nat) :
    unpackFrom (pre ++ data) (pre.length + off) n = unpackFrom data off n := by
  unfold unpackFrom
  by_cases h : off + n ≤ data.length
  · rw [if_pos h, if_pos (by simp; omega)]
    have h2 : pre.drop (pre.length + off) = [] := List.drop_eq_nil_of_le (by omega)
    simp [List.drop_append, h2]
  · rw [if_neg h, if_neg (by simp; omega)]

theorem packItems_behind (t : IntT) (l : List PyVal) (pre : Bytes) (n i : Nat) (data : Bytes) (off : Nat) :
    VmState.packItems t (pre ++ data) (pre.length + off) l i n
      = (VmState.packItems t data off l i n).map fun r => (pre ++ r.1, pre.length + r.2) := by
  induction n generalizing i data off with
  | zero => rfl
  | succ n ih =>
    simp only [VmState.packItems]
    cases (PyVal.list l).getIdx i with
    | error x => rfl
    | ok v =>
      simp only [ok_bind]
      cases packInt t v with
      | error x => rfl
      | ok b =>
        simp only [ok_bind, packInto_behind]
        cases packInto data off b with
        | error x => rfl
        | ok d => simp only [Except.map, ok_bind, Nat.add_assoc]; exact ih _ _ _

theorem unpackItems_behind (t : IntT) (pre data : Bytes) (n off : Nat) :
    VmState.unpackItems t (pre ++ data) (pre.length + off) n = VmState.unpackItems t data off n := by
  induction n generalizing off with
  | zero => rfl
  | succ n ih =>
    simp only [VmState.unpackItems, unpackFrom_behind, Nat.add_assoc, ih]

theorem verify_behind (pre : Bytes) (n : Nat) (m : Vm) :
    verifyDataLen n (m.behind pre) = (verifyDataLen n m).map (Vm.behind pre) := by
  unfold verifyDataLen
  by_cases h : (m.data.length : Int) - m.off < n
  · rw [if_pos h, if_pos (by simp [Vm.behind]; omega)]; rfl
  · rw [if_neg h, if_neg (by simp [Vm.behind]; omega)]; rfl

theorem execPack_behind (pre : Bytes) (i : Instr) (m : Vm) :
    execPack i (m.behind pre) = (execPack i m).map (Vm.behind pre) := by
  cases i with
  | packProg n => exact verify_behind pre n m
  | pack t n =>
    simp only [execPack, VmState.packStruct]
    change (do let (data, off) ← (do
                let value ← m.st.current
                _ : Py (Bytes × Nat)); _ : Py Vm) = _
    cases m.st.current with
    | error x => rfl
    | ok v =>
      simp only [ok_bind]
      by_cases hn : n > 0
      · simp only [hn, if_true]
        cases v with
        | list l =>
          simp only
          change (do let (data, off) ← (do
                      let k ← m.st.value.len
                      _ : Py (Bytes × Nat)); _ : Py Vm) = _
          cases m.st.value.len with
          | error x => rfl
          | ok k =>
            simp only [ok_bind]
            split
            · rfl
            · simp only [Vm.behind, packItems_behind]
              cases VmState.packItems t m.data m.off l 0 n <;> rfl
        | _ => rfl
      · simp only [hn, if_false]
        cases packInt t v with
        | error x => rfl
        | ok b =>
          simp only [ok_bind, Vm.behind, packInto_behind]
          cases packInto m.data m.off b <;> simp [Except.map, bind, Except.bind, Vm.behind, Nat.add_assoc]
  | packStr n =>
    simp only [execPack, VmState.packStr]
    change (do let (data, off) ← (do
                let value ← m.st.current
                _ : Py (Bytes × Nat)); _ : Py Vm) = _
    cases m.st.current with
    | error x => rfl
    | ok v =>
      simp only [ok_bind]
      cases v with
      | str s =>
        simp only [Vm.behind, packInto_behind]
        cases packInto m.data m.off (packS n (utf8Encode s)) <;>
          simp [Except.map, bind, Except.bind, Vm.behind, Nat.add_assoc]
      | _ => rfl
  | recordEnter =>
    simp only [execPack, Vm.behind]
    cases m.st.packRecordEnter <;> rfl
  | recordSelect n =>
    simp only [execPack, Vm.behind]
    cases m.st.recordSelect n <;> rfl
  | arrayEnter =>
    simp only [execPack, Vm.behind]
    cases m.st.packArrayEnter <;> rfl
  | _ => rfl

theorem execUnpack_behind (pre : Bytes) (i : Instr) (m : Vm) :
    execUnpack i (m.behind pre) = (execUnpack i m).map (Vm.behind pre) := by
  cases i with
  | unpackProg n => exact verify_behind pre n m
  | unpack t n =>
    simp only [execUnpack, VmState.unpackStruct]
    by_cases hn : n > 0
    · simp only [hn, if_true, Vm.behind, unpackItems_behind]
      cases VmState.unpackItems t m.data m.off n with
      | error x => rfl
      | ok l =>
        simp only [ok_bind]
        cases m.st.store (.list l) <;> simp [Except.map, bind, Except.bind, Vm.behind, Nat.add_assoc]
    · simp only [hn, if_false, Vm.behind, unpackFrom_behind]
      cases unpackFrom m.data m.off t.size with
      | error x => rfl
      | ok b =>
        simp only [ok_bind]
        cases m.st.store (.int (unpackInt t b)) <;> simp [Except.map, bind, Except.bind, Vm.behind, Nat.add_assoc]
  | unpackStr n =>
    simp only [execUnpack, VmState.unpackStr]
    have h1 : ((m.behind pre).data.length : Int) - (m.behind pre).off = m.data.length - m.off := by
      simp [Vm.behind]; omega
    have h2 : (m.behind pre).data.drop (m.behind pre).off = m.data.drop m.off := by
      simp [Vm.behind, List.drop_append]
    rw [h1, h2]
    split
    · rfl
    · cases utf8Decode (((m.data.drop m.off).take n).takeWhile (· ≠ 0)) with
      | error x => rfl
      | ok s =>
        simp only [ok_bind, Vm.behind]
        cases m.st.store (.str s) <;> simp [Except.map, bind, Except.bind, Vm.behind, Nat.add_assoc]
  | recordEnter =>
    simp only [execUnpack, Vm.behind]
    cases m.st.unpackRecordEnter <;> rfl
  | recordSelect n =>
    simp only [execUnpack, Vm.behind]
    cases m.st.recordSelect n <;> rfl
  | recordLeave =>
    simp only [execUnpack, Vm.behind]
    cases m.st.unpackRecordLeave <;> rfl
  | arrayLeave =>
    simp only [execUnpack, Vm.behind]
    cases m.st.unpackArrayLeave <;> rfl
  | _ => rfl

theorem run_behind (pre : Bytes) (d : Dir) (first : Bool) (code : Bytes) (m : Vm) :
    runVm d first code (m.behind pre) = (runVm d first code m).map (Vm.behind pre) := by
  rw [runVm, runVm]
  split
  · rfl
  · rfl
  · rename_i i rest hp
    split
    · rfl
    · have hx : execInstr d i (m.behind pre) = (execInstr d i m).map (Vm.behind pre) := by
        cases d with
        | pack => exact execPack_behind pre i m
        | unpack => exact execUnpack_behind pre i m
      rw [hx]
      have hlen := parseInstr_length hp
      cases execInstr d i m with
      | error x => rfl
      | ok m' => exact run_behind pre d false rest m'
termination_by code.length

/-- C65: packing at an offset is packing at the start of the rest of the buffer; the bytes before
the offset are neither read nor written. -/
theorem C65_pack_offset (prog pre data : Bytes) (off : Nat) (v : PyVal) :
    execPackProg prog (pre ++ data) (pre.length + off) v = (execPackProg prog data off v).map (pre ++ ·) := by
  simp only [execPackProg]
  have h := run_behind pre .pack true prog ⟨VmState.init v, data, off⟩
  simp only [Vm.behind] at h
  rw [h]
  cases runVm .pack true prog ⟨VmState.init v, data, off⟩ <;> rfl

/-- C65: unpacking at an offset is unpacking at the start of the rest of the buffer. -/
theorem C65_unpack_offset (prog pre data : Bytes) (off : Nat) :
    execUnpackProg prog (pre ++ data) (pre.length + off) = execUnpackProg prog data off := by
  simp only [execUnpackProg]
  have h := run_behind pre .unpack true prog ⟨VmState.init .null, data, off⟩
  simp only [Vm.behind] at h
  rw [h]
  cases runVm .unpack true prog ⟨VmState.init .null, data, off⟩ <;> rfl

/-! ### Truncated programs -/

theorem splitZero_none (s : Bytes) (h : 0 ∉ s) : splitZero s = none := by
  induction s with
  | nil => rfl
  | cons b s ih =>
    simp only [List.mem_cons, not_or] at h
    simp only [splitZero]
    rw [if_neg (fun hb => h.1 hb.symm), ih h.2]
    rfl

theorem splitZero_more (s a b t : Bytes) (h : splitZero s = some (a, b)) :
    splitZero (s ++ t) = some (a, b ++ t) := by
  induction s generalizing a b with
  | nil => simp [splitZero] at h
  | cons c s ih =>
    simp only [splitZero, List.cons_append] at h ⊢
    split at h
    · rename_i h0
      rw [if_pos h0]
      simp only [Option.some.injEq, Prod.mk.injEq] at h
      obtain ⟨rfl, rfl⟩ := h
      rfl
    · rename_i h0
      rw [if_neg h0]
      rw [Option.map_eq_some_iff] at h
      obtain ⟨⟨a', b'⟩, h1, h2⟩ := h
      simp only [Prod.mk.injEq] at h2
      obtain ⟨rfl, rfl⟩ := h2
      rw [ih _ _ h1]
      rfl

/-- A complete instruction is read the same way whatever follows. -/
theorem parseInstr_append (code t rest : Bytes) (i : Instr) (h : parseInstr code = .ok (some (i, rest))) :
    parseInstr (code ++ t) = .ok (some (i, rest ++ t)) := by
  cases code with
  | nil => simp [parseInstr] at h
  | cons op s =>
    have p4 : ∀ mk, parse4 mk s = .ok (some (i, rest)) → parse4 mk (s ++ t) = .ok (some (i, rest ++ t)) := by
      intro mk h
      unfold parse4 at h
      split at h
      · simp only [Except.ok.injEq, Option.some.injEq, Prod.mk.injEq] at h
        obtain ⟨rfl, rfl⟩ := h
        rfl
      · simp at h
    have p2 : ∀ mk, parse2 mk s = .ok (some (i, rest)) → parse2 mk (s ++ t) = .ok (some (i, rest ++ t)) := by
      intro mk h
      unfold parse2 at h
      split at h
      · simp only [Except.ok.injEq, Option.some.injEq, Prod.mk.injEq] at h
        obtain ⟨rfl, rfl⟩ := h
        rfl
      · simp at h
    have ps : parseSelect s = .ok (some (i, rest)) → parseSelect (s ++ t) = .ok (some (i, rest ++ t)) := by
      intro h
      unfold parseSelect at h ⊢
      split at h
      · simp at h
      · rename_i name r hz
        rw [splitZero_more _ _ _ t hz]
        simp only [bind_ok_iff] at h ⊢
        obtain ⟨a, h1, h2⟩ := h
        refine ⟨a, h1, ?_⟩
        simp only [Except.ok.injEq, Option.some.injEq, Prod.mk.injEq] at h2 ⊢
        obtain ⟨rfl, rfl⟩ := h2
        exact ⟨rfl, rfl⟩
    simp only [parseInstr, List.cons_append] at h ⊢
    split at h <;> first
      | exact p4 _ h
      | exact p2 _ h
      | exact ps h
      | (simp only [Except.ok.injEq, Option.some.injEq, Prod.mk.injEq] at h
         obtain ⟨rfl, rfl⟩ := h
         rfl)
      | (split at h <;> simp at h)

theorem parse_cut (s : Bytes) (h : CutInstr s) : parseInstr s = .error .invalidInstruction := by
  have p2 : ∀ (mk : Nat → Instr) (r : Bytes), r.length < 2 → parse2 mk r = .error .invalidInstruction := by
    intro mk r hr
    match r with
    | [] => rfl
    | [_] => rfl
    | _ :: _ :: _ => simp at hr; omega
  have p4 : ∀ (mk : Nat → Instr) (r : Bytes), r.length < 4 → parse4 mk r = .error .invalidInstruction := by
    intro mk r hr
    match r with
    | [] => rfl
    | [_] => rfl
    | [_, _] => rfl
    | [_, _, _] => rfl
    | _ :: _ :: _ :: _ :: _ => simp at hr; omega
  cases h with
  | header op rest ho hr =>
    rcases ho with rfl | rfl
    · exact p4 _ _ hr
    · exact p4 _ _ hr
  | array op rest ho hr =>
    have : op = 9 ∨ op = 10 ∨ op = 11 ∨ op = 12 ∨ op = 13 ∨ op = 14 ∨ op = 15 ∨ op = 22 ∨ op = 23 ∨ op = 24 ∨
        op = 25 ∨ op = 26 ∨ op = 27 ∨ op = 28 := by
      simp only [UInt8.le_iff_toNat_le, ← UInt8.toNat_inj] at ho ⊢
      simp only [UInt8.reduceToNat] at ho ⊢
      omega
    rcases this with rfl | rfl | rfl | rfl | rfl | rfl | rfl | rfl | rfl | rfl | rfl | rfl | rfl | rfl <;>
      exact p2 _ _ hr
  | select rest hr =>
    have h0 : parseInstr (30 :: rest) = parseSelect rest := rfl
    rw [h0]
    unfold parseSelect
    rw [splitZero_none rest hr]

theorem run_cut (d : Dir) (first : Bool) (code : Bytes) (m r : Vm) (h : runVm d first code m = .ok r)
    (s : Bytes) (hs : CutInstr s) : runVm d first (code ++ s) m = .error .invalidInstruction := by
  have hcut : ∀ (first : Bool) (m : Vm), runVm d first s m = .error .invalidInstruction := by
    intro first m
    rw [runVm]
    split
    · rename_i x h'
      rw [parse_cut s hs] at h'
      rw [Except.error.inj h']
    · rename_i h'; rw [parse_cut s hs] at h'; simp at h'
    · rename_i h'; rw [parse_cut s hs] at h'; simp at h'
  rw [runVm] at h
  split at h
  · simp at h
  · rename_i h0
    have : code = [] := by
      cases code with
      | nil => rfl
      | cons op rest =>
        exfalso
        simp only [parseInstr] at h0
        have p2 : ∀ (mk : Nat → Instr) (r : Bytes), parse2 mk r ≠ .ok none := by
          intro mk r; unfold parse2; split <;> simp
        have p4 : ∀ (mk : Nat → Instr) (r : Bytes), parse4 mk r ≠ .ok none := by
          intro mk r; unfold parse4; split <;> simp
        have ps : ∀ (r : Bytes), parseSelect r ≠ .ok none := by
          intro r hr; unfold parseSelect at hr; split at hr
          · simp at hr
          · simp [bind_ok_iff] at hr
        split at h0 <;> first
          | exact p4 _ _ h0
          | exact p2 _ _ h0
          | exact ps _ h0
          | (simp at h0; done)
          | (split at h0 <;> simp at h0)
    subst this
    exact hcut first m
  · rename_i i rest hp
    have hp' := parseInstr_append code s rest i hp
    split at h
    · simp at h
    · rename_i hf
      split at h
      · simp at h
      · rename_i m' hx
        have hlen := parseInstr_length hp
        have ih := run_cut d false rest m' r h s hs
        rw [runVm]
        split
        · rename_i h'; rw [hp'] at h'; simp at h'
        · rename_i h'; rw [hp'] at h'; simp at h'
        · rename_i i' rest' h'
          rw [hp'] at h'
          simp only [Except.ok.injEq, Option.some.injEq, Prod.mk.injEq] at h'
          obtain ⟨rfl, rfl⟩ := h'
          rw [if_neg hf]
          split
          · rename_i h2; rw [hx] at h2; simp at h2
          · rename_i m2 h2
            rw [hx] at h2
            rw [← Except.ok.inj h2]
            exact ih
termination_by code.length

/-- C65: a program that ends inside an instruction is refused when it gets there; no instruction is
made up from the bytes that are left. -/
theorem C65_cut_pack (code s data r : Bytes) (off : Nat) (v : PyVal) (h : execPackProg code data off v = .ok r)
    (hs : CutInstr s) : execPackProg (code ++ s) data off v = .error .invalidInstruction := by
  simp only [execPackProg, bind_ok_iff] at h ⊢
  obtain ⟨m, h, _⟩ := h
  rw [run_cut _ _ _ _ _ h s hs]
  rfl

/-- C65: the same for unpacking. -/
theorem C65_cut_unpack (code s data : Bytes) (v : PyVal) (off : Nat) (h : execUnpackProg code data off = .ok v)
    (hs : CutInstr s) : execUnpackProg (code ++ s) data off = .error .invalidInstruction := by
  simp only [execUnpackProg, bind_ok_iff] at h ⊢
  obtain ⟨m, h, _⟩ := h
  rw [run_cut _ _ _ _ _ h s hs]
  rfl

/-- C65: a program cut off inside its header is refused; only the empty program does nothing. -/
theorem C65_cut_header (d : Dir) (e : Elem) (p : Bytes) (hp : compileProg d e = .ok p) (k : Nat)
    (hk : 0 < k ∧ k < 5) (m : Vm) : runVm d true (p.take k) m = .error .invalidInstruction := by
  obtain ⟨code, n, _, rfl⟩ := compileProg_inv hp
  have h0 : runVm d true [] m = .ok m := by
    rw [runVm]
    split
    · rename_i h; simp [parseInstr] at h
    · rfl
    · rename_i h; simp [parseInstr] at h
  have := run_cut d true [] m m h0 ((progHeader d n ++ code).take k) (by
    have hl : progHeader d n = opProg d :: leBytes 4 n := rfl
    rw [hl]
    obtain ⟨j, rfl⟩ : ∃ j, k = j + 1 := ⟨k - 1, by omega⟩
    simp only [List.cons_append, List.take_succ_cons]
    refine .header _ _ ?_ (by simp; omega)
    cases d
    · exact Or.inl rfl
    · exact Or.inr rfl)
  simpa using this

example : CutInstr [9, 4] ∧ CutInstr [30, 97, 98] ∧ CutInstr [1, 0, 0] :=
  ⟨.array 9 [4] (by decide) (by decide), .select [97, 98] (by decide), .header 1 [0, 0] (by decide) (by decide)⟩

/-- A complete program, and the same program with a cut string instruction behind it. -/
example : execPackProg [1, 1, 0, 0, 0, 3] [0, 0] 1 (.int 7) = .ok [0, 7] ∧
    execPackProg ([1, 1, 0, 0, 0, 3] ++ [9, 4]) [0, 0] 1 (.int 7) = .error .invalidInstruction := by decide +kernel

end Apx
