import Verif.Model.Vm
import Verif.Spec.Layout
import Verif.Proofs.Signature
import Verif.Proofs.Struct

namespace Apx

theorem integer_eq (tc : TypeCode) : tc.integer = tc.intT := by cases tc <;> rfl
theorem width_eq (t : IntT) : t.width = t.size := by cases t <;> rfl

/-! ### Integers -/

theorem littleEndian_succ (n : Nat) (i : Int) :
    littleEndian (n + 1) i = UInt8.ofNat (i % 256).toNat :: littleEndian n (i / 256) := by
  unfold littleEndian
  rw [List.range_succ_eq_map]
  simp only [List.map_cons, List.map_map, Int.pow_zero, Int.ediv_one, List.cons.injEq, true_and]
  apply List.map_congr_left
  intro k _
  simp only [Function.comp]
  congr 3
  rw [Int.pow_succ', Int.ediv_ediv_of_nonneg (by decide)]

@[simp] theorem littleEndian_length (n : Nat) (i : Int) : (littleEndian n i).length = n := by
  simp [littleEndian]

theorem littleEndian_nat (n v : Nat) : littleEndian n (v : Int) = leBytes n v := by
  induction n generalizing v with
  | zero => rfl
  | succ n ih =>
    rw [littleEndian_succ, leBytes]
    have h1 : ((v : Int) % 256).toNat = v % 256 := by omega
    have h2 : (v : Int) / 256 = ((v / 256 : Nat) : Int) := by omega
    rw [h1, h2, ih]

theorem littleEndian_period (n : Nat) (i q : Int) :
    littleEndian n (i + 256 ^ n * q) = littleEndian n i := by
  induction n generalizing i with
  | zero => rfl
  | succ n ih =>
    rw [littleEndian_succ, littleEndian_succ]
    have h : (256 : Int) ^ (n + 1) * q = 256 * (256 ^ n * q) := by
      rw [Int.pow_succ', Int.mul_assoc]
    have e1 : (i + 256 ^ (n + 1) * q) % 256 = i % 256 := by rw [h]; omega
    have e2 : (i + 256 ^ (n + 1) * q) / 256 = i / 256 + 256 ^ n * q := by
      rw [h]; generalize (256 : Int) ^ n * q = z; omega
    rw [e1, e2, ih]

theorem littleEndian_emod (n : Nat) (i : Int) :
    leBytes n (i % 256 ^ n).toNat = littleEndian n i := by
  have hp : (0 : Int) < 256 ^ n := Int.pow_pos (by decide)
  have h0 : 0 ≤ i % 256 ^ n := Int.emod_nonneg _ (by omega)
  rw [← littleEndian_nat, Int.toNat_of_nonneg h0]
  have := littleEndian_period n (i % 256 ^ n) (i / 256 ^ n)
  rw [Int.emod_add_mul_ediv] at this
  exact this.symm

theorem inRange_unsigned (t : IntT) (h : t.signed = false) (i : Int) :
    t.InRange i ↔ 0 ≤ i ∧ i < (256 ^ t.size : Int) := by
  cases t <;> simp [IntT.signed] at h <;> simp [IntT.InRange, IntT.size] <;> omega

theorem inRange_signed (t : IntT) (h : t.signed = true) (i : Int) :
    t.InRange i ↔ -(256 ^ t.size / 2 : Int) ≤ i ∧ i < (256 ^ t.size / 2 : Int) := by
  cases t <;> simp [IntT.signed] at h <;> simp [IntT.InRange, IntT.size] <;> omega

theorem packInt_int (t : IntT) (i : Int) (h : t.InRange i) :
    packInt t (.int i) = .ok (littleEndian t.width i) := by
  simp only [packInt]
  rw [width_eq]
  cases hs : t.signed with
  | true =>
    rw [if_pos rfl, if_pos ((inRange_signed t hs i).mp h), littleEndian_emod]
  | false =>
    have h' := (inRange_unsigned t hs i).mp h
    rw [if_neg (by simp), if_pos h', ← littleEndian_nat, Int.toNat_of_nonneg h'.1]

theorem packInt_ok (t : IntT) (v : PyVal) (b : Bytes) (h : packInt t v = .ok b) :
    ∃ i, v = .int i ∧ t.InRange i := by
  unfold packInt at h
  split at h
  · rename_i i
    refine ⟨i, rfl, ?_⟩
    cases hs : t.signed with
    | true =>
      rw [hs, if_pos rfl] at h
      split at h
      · rename_i hr; exact (inRange_signed t hs i).mpr hr
      · simp at h
    | false =>
      rw [hs, if_neg (by simp)] at h
      split at h
      · rename_i hr; exact (inRange_unsigned t hs i).mpr hr
      · simp at h
  · simp at h

theorem packInt_layout (t : IntT) (v : PyVal) (b : Bytes) : packInt t v = .ok b ↔ intLayout t v = some b := by
  constructor
  · intro h
    obtain ⟨i, rfl, hi⟩ := packInt_ok t v b h
    rw [packInt_int t i hi] at h
    simp only [Except.ok.injEq] at h
    simp [intLayout, hi, h]
  · intro h
    unfold intLayout at h
    split at h
    · split at h
      · rename_i i hi
        simp only [Option.some.injEq] at h
        rw [packInt_int t i hi, h]
      · simp at h
    · simp at h

theorem intLayout_length (t : IntT) (v : PyVal) (b : Bytes) (h : intLayout t v = some b) :
    b.length = t.size := by
  unfold intLayout at h
  split at h
  · split at h
    · simp only [Option.some.injEq] at h
      subst h; simp [width_eq]
    · simp at h
  · simp at h

theorem leBytes_inj (n a b : Nat) (ha : a < 256 ^ n) (hb : b < 256 ^ n) (h : leBytes n a = leBytes n b) :
    a = b := by
  rw [← leNat_leBytes n a ha, ← leNat_leBytes n b hb, h]

theorem half (t : IntT) : ∃ H : Nat, (256 ^ t.size : Nat) = 2 * H ∧ (256 ^ t.size : Int) = 2 * (H : Int) := by
  cases t
  · exact ⟨128, by decide, by decide⟩
  · exact ⟨32768, by decide, by decide⟩
  · exact ⟨2147483648, by decide, by decide⟩
  · exact ⟨128, by decide, by decide⟩
  · exact ⟨32768, by decide, by decide⟩
  · exact ⟨2147483648, by decide, by decide⟩

theorem unpackInt_littleEndian (t : IntT) (i : Int) (h : t.InRange i) :
    unpackInt t (littleEndian t.width i) = i := by
  rw [width_eq]
  obtain ⟨H, hN, hZ⟩ := half t
  have hp : (0 : Int) < 256 ^ t.size := Int.pow_pos (by decide)
  have h0 : 0 ≤ i % 256 ^ t.size := Int.emod_nonneg _ (by omega)
  have hlt : i % 256 ^ t.size < 256 ^ t.size := Int.emod_lt_of_pos _ hp
  have e : (leNat (littleEndian t.size i) : Int) = i % 256 ^ t.size := by
    rw [← littleEndian_emod, leNat_leBytes, Int.toNat_of_nonneg h0]
    omega
  unfold unpackInt
  cases hs : t.signed with
  | false =>
    rw [if_neg (by simp), e]
    have := (inRange_unsigned t hs i).mp h
    exact Int.emod_eq_of_lt this.1 this.2
  | true =>
    rw [if_pos rfl]
    have h' := (inRange_signed t hs i).mp h
    rw [hZ] at h'
    by_cases hn : 0 ≤ i
    · have e2 : i % 256 ^ t.size = i := Int.emod_eq_of_lt hn (by omega)
      rw [e2] at e
      rw [if_pos (by omega), e]
    · have e2 : i % 256 ^ t.size = i + 256 ^ t.size := by
        rw [← Int.add_emod_right]
        exact Int.emod_eq_of_lt (by omega) (by omega)
      rw [e2] at e
      rw [if_neg (by omega), e]
      omega

theorem unpackInt_inRange (t : IntT) (bs : Bytes) (h : bs.length = t.size) :
    t.InRange (unpackInt t bs) ∧ littleEndian t.width (unpackInt t bs) = bs := by
  have hlt := leNat_lt bs
  rw [h] at hlt
  have hb := leBytes_leNat bs
  rw [h] at hb
  have key : ∀ z : Int, z = leNat bs ∨ z = (leNat bs : Int) - 256 ^ t.size →
      littleEndian t.size z = bs := by
    intro z hz
    rcases hz with rfl | rfl
    · rw [littleEndian_nat, hb]
    · have := littleEndian_period t.size (leNat bs : Int) (-1)
      rw [littleEndian_nat, hb] at this
      have e : (leNat bs : Int) - 256 ^ t.size = leNat bs + 256 ^ t.size * (-1) := by
        rw [Int.mul_neg, Int.mul_one]; rfl
      rw [e, this]
  constructor
  · obtain ⟨H, hN, hZ⟩ := half t
    unfold unpackInt
    cases hs : t.signed with
    | false =>
      rw [if_neg (by simp), inRange_unsigned t hs, hZ]
      omega
    | true =>
      rw [if_pos rfl, inRange_signed t hs, hZ]
      split <;> omega
  · rw [width_eq]
    apply key
    unfold unpackInt
    split
    · split
      · left; rfl
      · right; rfl
    · left; rfl

/-! ### Instructions -/

theorem runVm_step {d : Dir} {code rest : Bytes} {i : Instr} (m : Vm)
    (h : parseInstr code = .ok (some (i, rest))) :
    runVm d false code m = (execInstr d i m >>= runVm d false rest) := by
  rw [runVm]
  split
  · rename_i h'; rw [h] at h'; simp at h'
  · rename_i h'; rw [h] at h'; simp at h'
  · rename_i i' rest' h'
    rw [h] at h'
    simp only [Except.ok.injEq, Option.some.injEq, Prod.mk.injEq] at h'
    obtain ⟨rfl, rfl⟩ := h'
    rw [if_neg (by simp)]
    cases execInstr d i m <;> rfl

theorem runVm_first {d : Dir} {code rest : Bytes} {i : Instr} (m : Vm)
    (h : parseInstr code = .ok (some (i, rest))) (hi : isProgHeader d i = true) :
    runVm d true code m = (execInstr d i m >>= runVm d false rest) := by
  rw [runVm]
  split
  · rename_i h'; rw [h] at h'; simp at h'
  · rename_i h'; rw [h] at h'; simp at h'
  · rename_i i' rest' h'
    rw [h] at h'
    simp only [Except.ok.injEq, Option.some.injEq, Prod.mk.injEq] at h'
    obtain ⟨rfl, rfl⟩ := h'
    rw [if_neg (by simp [hi])]
    cases execInstr d i m <;> rfl

theorem runVm_nil (d : Dir) (m : Vm) : runVm d false [] m = .ok m := by
  rw [runVm]
  split
  · rename_i h; simp [parseInstr] at h
  · rfl
  · rename_i h; simp [parseInstr] at h

/-- The instruction for a scalar. -/
def scalarInstr : Dir → IntT → Instr
  | .pack, t => .pack t 0
  | .unpack, t => .unpack t 0
/-- The instruction for an array. -/
def arrayInstr : Dir → IntT → Nat → Instr
  | .pack, t, n => .pack t n
  | .unpack, t, n => .unpack t n
/-- The instruction for text. -/
def strInstr : Dir → Nat → Instr
  | .pack, n => .packStr n
  | .unpack, n => .unpackStr n
/-- The program header instruction. -/
def progInstr : Dir → Nat → Instr
  | .pack, n => .packProg n
  | .unpack, n => .unpackProg n

theorem parse_scalar (d : Dir) (t : IntT) (rest : Bytes) :
    parseInstr ([opScalar d t] ++ rest) = .ok (some (scalarInstr d t, rest)) := by
  cases d <;> cases t <;> rfl

theorem leBytes2 (n : Nat) : leBytes 2 n = [UInt8.ofNat (n % 256), UInt8.ofNat (n / 256 % 256)] := rfl
theorem leBytes4 (n : Nat) : leBytes 4 n = [UInt8.ofNat (n % 256), UInt8.ofNat (n / 256 % 256),
    UInt8.ofNat (n / 256 / 256 % 256), UInt8.ofNat (n / 256 / 256 / 256 % 256)] := rfl

theorem leNat_leBytes_mod (k n : Nat) : leNat (leBytes k n) = n % 256 ^ k := by
  have h : leBytes k n = leBytes k (n % 256 ^ k) := by
    have h1 := littleEndian_emod k (n : Int)
    rw [littleEndian_nat] at h1
    rw [← h1]
    congr 1
  rw [h, leNat_leBytes]
  exact Nat.mod_lt _ (Nat.pow_pos (by decide))

theorem parse_array (d : Dir) (t : IntT) (n : Nat) (rest : Bytes) :
    parseInstr ((opArray d t :: leBytes 2 n) ++ rest) = .ok (some (arrayInstr d t (n % 65536), rest)) := by
  have h := leNat_leBytes_mod 2 n
  rw [leBytes2] at h
  cases d <;> cases t <;>
    simp [parseInstr, opArray, leBytes2, parse2, arrayInstr, h]

theorem parse_str (d : Dir) (n : Nat) (rest : Bytes) :
    parseInstr ((opStr d :: leBytes 2 n) ++ rest) = .ok (some (strInstr d (n % 65536), rest)) := by
  have h := leNat_leBytes_mod 2 n
  rw [leBytes2] at h
  cases d <;> simp [parseInstr, opStr, leBytes2, parse2, strInstr, h]

theorem parse_prog (d : Dir) (n : Nat) (rest : Bytes) :
    parseInstr (progHeader d n ++ rest) = .ok (some (progInstr d (n % 4294967296), rest)) := by
  have h := leNat_leBytes_mod 4 n
  rw [leBytes4] at h
  cases d <;> simp [parseInstr, progHeader, opProg, leBytes4, parse4, progInstr, h]

theorem parse_enter (rest : Bytes) : parseInstr (opEnter :: rest) = .ok (some (.recordEnter, rest)) := rfl
theorem parse_leave (rest : Bytes) : parseInstr (opLeave :: rest) = .ok (some (.recordLeave, rest)) := rfl

theorem splitZero_append (a rest : Bytes) (h : (0 : UInt8) ∉ a) :
    splitZero (a ++ 0 :: rest) = some (a, rest) := by
  induction a with
  | nil => simp [splitZero]
  | cons b a ih =>
    simp only [List.mem_cons, not_or] at h
    simp only [List.cons_append, splitZero]
    rw [if_neg (fun e => h.1 e.symm), ih h.2]
    rfl

theorem ordBytes_ascii (s : Str) (h : ∀ c ∈ s, c ≠ '\x00' ∧ c.toNat < 128) :
    ∃ b, ordBytes s = .ok b ∧ (0 : UInt8) ∉ b ∧ asciiDecode b = .ok s := by
  induction s with
  | nil => exact ⟨[], rfl, by simp, rfl⟩
  | cons c s ih =>
    obtain ⟨b, h1, h2, h3⟩ := ih (fun d hd => h d (by simp [hd]))
    obtain ⟨h0, hlt⟩ := h c (by simp)
    have hn : c.toNat ≠ 0 := by
      intro hz
      apply h0
      apply Char.ext
      apply UInt32.toNat_inj.mp
      simpa using hz
    refine ⟨UInt8.ofNat c.toNat :: b, ?_, ?_, ?_⟩
    · simp only [ordBytes]; rw [if_pos (by omega), h1]; rfl
    · simp only [List.mem_cons, not_or]
      refine ⟨?_, h2⟩
      intro hz
      have := congrArg UInt8.toNat hz
      simp at this; omega
    · have e : (UInt8.ofNat c.toNat).toNat = c.toNat := by simp; omega
      simp only [asciiDecode, e]
      rw [if_pos hlt, h3]
      simp

theorem parse_select (s : Str) (h : ∀ c ∈ s, c ≠ '\x00' ∧ c.toNat < 128) (code rest : Bytes)
    (hc : recordSelect (some s) = .ok code) :
    parseInstr (code ++ rest) = .ok (some (.recordSelect s, rest)) := by
  obtain ⟨b, h1, h2, h3⟩ := ordBytes_ascii s h
  simp only [recordSelect, h1, ok_bind, Except.ok.injEq] at hc
  subst hc
  have e : opSelect :: (b ++ [0]) ++ rest = opSelect :: (b ++ 0 :: rest) := by simp
  rw [e]
  simp [parseInstr, opSelect, parseSelect, splitZero_append b rest h2, h3]

/-! ### Packing -/

theorem packInto_ok (data : Bytes) (off : Nat) (bs : Bytes) (h : off + bs.length ≤ data.length) :
    packInto data off bs = .ok (data.take off ++ bs ++ data.drop (off + bs.length)) := by
  unfold packInto; rw [if_pos h]

/-- The buffer with `bs` stored at `off`. -/
def put (data : Bytes) (off : Nat) (bs : Bytes) : Bytes :=
  data.take off ++ bs ++ data.drop (off + bs.length)

theorem put_length (data : Bytes) (off : Nat) (bs : Bytes) (h : off + bs.length ≤ data.length) :
    (put data off bs).length = data.length := by
  simp [put]; omega

theorem put_nil (data : Bytes) (off : Nat) : put data off [] = data := by
  simp [put]

theorem put_put (data : Bytes) (off : Nat) (a b : Bytes) (h : off + a.length + b.length ≤ data.length) :
    put (put data off a) (off + a.length) b = put data off (a ++ b) := by
  unfold put
  have h1 : (data.take off ++ a ++ data.drop (off + a.length)).take (off + a.length) = data.take off ++ a := by
    rw [List.take_append_of_le_length (by simp; omega), List.take_of_length_le (by simp; omega)]
  have h2 : (data.take off ++ a ++ data.drop (off + a.length)).drop (off + a.length + b.length)
      = data.drop (off + (a ++ b).length) := by
    have e : (data.take off ++ a).length = off + a.length := by simp; omega
    rw [List.drop_append, e, List.drop_of_length_le (by simp; omega), List.nil_append, List.drop_drop]
    congr 1; simp; omega
  rw [h1, h2]
  simp

theorem packInto_put (data : Bytes) (off : Nat) (bs : Bytes) :
    packInto data off bs = if off + bs.length ≤ data.length then .ok (put data off bs) else .error .structError := by
  rfl

theorem intsLayout_length (t : IntT) (l : List PyVal) (b : Bytes) (h : intsLayout t l = some b) :
    b.length = t.size * l.length := by
  induction l generalizing b with
  | nil => simp [intsLayout] at h; subst h; simp
  | cons v l ih =>
    simp only [intsLayout] at h
    split at h
    · rename_i a c ha hc
      simp only [Option.some.injEq] at h
      subst h
      have e1 := intLayout_length t v a ha
      have e2 := ih c hc
      simp only [List.length_append, e1, e2, List.length_cons, Nat.mul_add]; omega
    · simp at h

theorem packItems_ok (t : IntT) (l : List PyVal) (n i : Nat) (data : Bytes) (off : Nat) (b : Bytes)
    (hl : i + n ≤ l.length) (h : intsLayout t ((l.drop i).take n) = some b)
    (hd : off + b.length ≤ data.length) :
    VmState.packItems t data off l i n = .ok (put data off b, off + b.length) := by
  induction n generalizing i data off b with
  | zero =>
    simp [intsLayout] at h
    subst h
    simp [VmState.packItems, put_nil]
  | succ n ih =>
    have hi : i < l.length := by omega
    rw [List.drop_eq_getElem_cons hi, List.take_succ_cons] at h
    simp only [intsLayout] at h
    split at h
    · rename_i a c ha hc
      simp only [Option.some.injEq] at h
      subst h
      have e1 := intLayout_length t _ a ha
      simp only [List.length_append] at hd
      simp only [VmState.packItems, PyVal.getIdx, List.getElem?_eq_getElem hi, ok_bind,
        (packInt_layout t _ a).mpr ha]
      rw [packInto_put, if_pos (by omega), ok_bind, ← e1,
        ih (i + 1) (put data off a) (off + a.length) c (by omega) hc
          (by rw [put_length _ _ _ (by omega)]; omega), put_put _ _ _ _ (by omega)]
      simp; omega
    · simp at h

theorem packItems_inv (t : IntT) (l : List PyVal) (n i : Nat) (data : Bytes) (off : Nat) (r : Bytes × Nat)
    (h : VmState.packItems t data off l i n = .ok r) :
    i + n ≤ l.length ∨ n = 0 := by
  induction n generalizing i data off with
  | zero => right; rfl
  | succ n ih =>
    left
    simp only [VmState.packItems, bind_ok_iff] at h
    obtain ⟨v, hv, b, hb, data', hd, h⟩ := h
    have hi : i < l.length := by
      simp only [PyVal.getIdx] at hv
      split at hv
      · rename_i v' hv'
        exact (List.getElem?_eq_some_iff.mp hv').1
      · simp at hv
    rcases ih _ _ _ h with h' | h' <;> omega

theorem packItems_layout (t : IntT) (l : List PyVal) (n i : Nat) (data : Bytes) (off : Nat) (r : Bytes × Nat)
    (h : VmState.packItems t data off l i n = .ok r) :
    ∃ b, intsLayout t ((l.drop i).take n) = some b := by
  induction n generalizing i data off with
  | zero => exact ⟨[], by simp [intsLayout]⟩
  | succ n ih =>
    simp only [VmState.packItems, bind_ok_iff] at h
    obtain ⟨v, hv, b, hb, data', hd, h⟩ := h
    obtain ⟨c, hc⟩ := ih _ _ _ h
    simp only [PyVal.getIdx] at hv
    split at hv
    · rename_i v' hv'
      simp only [Except.ok.injEq] at hv
      subst hv
      obtain ⟨hi, hg⟩ := List.getElem?_eq_some_iff.mp hv'
      refine ⟨b ++ c, ?_⟩
      rw [List.drop_eq_getElem_cons hi, List.take_succ_cons, hg]
      simp [intsLayout, (packInt_layout t _ b).mp hb, hc]
    · simp at hv

/-- Where the value `v` sits: at top level, or as entry `k` of the dict being packed. -/
inductive Place : VmState → PyVal → Prop
  | top (v : PyVal) : Place ⟨v, none, none, []⟩ v
  | field (d : List (Str × PyVal)) (k : Str) (v : PyVal) (stack : List (PyVal × Option Str × Option Nat))
      (h : d.lookup k = some v) : Place ⟨.dict d, some k, none, stack⟩ v

/-- Length of the dict around the value, if any (the quantity that `pack_struct` compares). -/
def dictLen (st : VmState) : Option Nat :=
  match st.key, st.value with
  | some _, .dict d => some d.length
  | _, _ => none

/-- The text of a layout always has the field's length. -/
theorem textLayout_eq (n : Nat) (s : Str) : textLayout n s = packS n (utf8Encode s) := rfl

theorem current_place {st : VmState} {v : PyVal} (p : Place st v) (hv : v.isDict = false ∨ st.key ≠ none) :
    st.current = .ok v := by
  cases p with
  | top =>
    rcases hv with hv | hv
    · simp [VmState.current, hv]
    · simp at hv
  | field d k v stack h => simp [VmState.current, PyVal.isDict, PyVal.getKey, h]

theorem current_place_inv {st : VmState} {v w : PyVal} (p : Place st v) (h : st.current = .ok w) : w = v := by
  cases p with
  | top =>
    simp only [VmState.current] at h
    split at h
    · simp at h
    · simpa using h.symm
  | field d k v stack hk =>
    simp [VmState.current, PyVal.isDict, PyVal.getKey, hk] at h
    exact h.symm

end Apx
