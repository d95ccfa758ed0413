import Verif.Spec.Autosar
import Verif.Props.Signature
import Verif.Proofs.PortAttr

/-! C56: integer type selection. C62: texts of enumerations. -/

namespace Apx

theorem exactCeilLog_spec (n k : Nat) (h : 0 < n) : exactCeilLog n ≤ k ↔ n ≤ 2 ^ k := by
  unfold exactCeilLog
  split
  · rename_i h1
    have : n = 1 := by omega
    subst this
    have := Nat.one_le_two_pow (n := k)
    simp [this]
  · rename_i h1
    have : (n - 1).log2 < k ↔ n - 1 < 2 ^ k := Nat.log2_lt (by omega)
    omega

/-- The exact logarithm meets the assumption made about the floating-point one. -/
theorem exactCeilLog_accurate : Accurate exactCeilLog := by
  refine ⟨fun x k hx hk => ⟨fun h => ?_, fun h => ?_⟩, fun x k hx hk h => ?_⟩
  · have := exactCeilLog_spec x k hx
    omega
  · have := exactCeilLog_spec x k hx
    omega
  · have := exactCeilLog_spec x k hx
    omega

/-- Texts of the single letters. -/
theorem letter_element (tc : TypeCode) : dataSignature [tc.letter] = .ok (.prim tc none none none) := by
  cases tc <;> decide +kernel

theorem range_element (a b : Int) : dataSignature (rangeCode a b) = .ok (.prim .u8 (some a) (some b) none) := by
  obtain ⟨s, h1, h2⟩ := C22_same_element (.prim .u8 (some a) (some b) none) rfl trivial (fun _ => none) false
  simp only [Elem.toStr, rangeStr, arrayStr, List.append_nil, Except.ok.injEq] at h1
  rw [← h1] at h2
  exact h2

/-- What the selection returns on good bounds: the text of an element without references that admits
the range. -/
theorem integerTypeCode_good (c : Nat → Nat) (hc : Accurate c) (mn mx : Int) (h : GoodBounds mn mx) :
    ∃ (s : Str) (e : Elem), integerTypeCode c mn mx = .ok (some s) ∧ e.Admits mn mx ∧ e.WellFormed ∧ e.NoResolved ∧
      e.toStr (fun _ => none) false = .ok s := by
  obtain ⟨hc1, hc2⟩ := hc
  have prim : ∀ tc : TypeCode, Elem.WellFormed (.prim tc none none none) ∧ Elem.NoResolved (.prim tc none none none) ∧
      Elem.toStr (fun _ => none) false (.prim tc none none none) = .ok [tc.letter] :=
    fun tc => ⟨rfl, trivial, rfl⟩
  have adm : ∀ tc : TypeCode, (∀ v : Int, mn ≤ v → v ≤ mx → tc.Holds v) →
      Elem.Admits (.prim tc none none none) mn mx :=
    fun tc hv => ⟨tc, none, none, rfl, fun v a b => ⟨hv v a b, by simp, by simp⟩⟩
  rcases h with ⟨h0, hp, hle, h8, h16, h32⟩ | h
  · have hx : 0 < mx.toNat := by omega
    have k8 := hc1 mx.toNat 8 hx (by omega)
    have k16 := hc1 mx.toNat 16 hx (by omega)
    have k32 := hc1 mx.toNat 32 hx (by omega)
    have k64 := hc2 mx.toNat 63 hx (by omega)
    unfold integerTypeCode uintTypeLen
    rw [if_pos h0, if_neg (by omega)]
    simp only [ok_bind]
    by_cases b8 : c mx.toNat ≤ 8
    · rw [if_pos b8]
      by_cases hr : mn > 0 ∨ mx < 255
      · rw [if_pos hr]
        refine ⟨_, .prim .u8 (some mn) (some mx) none, rfl, ⟨.u8, some mn, some mx, rfl, fun v a b => ⟨⟨by omega, by omega⟩, ?_, ?_⟩⟩, rfl, trivial, ?_⟩
        · intro l hl; cases hl; exact a
        · intro l hl; cases hl; exact b
        · simp only [Elem.toStr, rangeStr, arrayStr, List.append_nil]; rfl
      · rw [if_neg hr]
        exact ⟨_, _, rfl, adm .u8 (fun v a b => ⟨by omega, by omega⟩), prim .u8⟩
    rw [if_neg b8]
    by_cases b16 : c mx.toNat ≤ 16
    · rw [if_pos b16]
      exact ⟨_, _, rfl, adm .u16 (fun v a b => ⟨by omega, by omega⟩), prim .u16⟩
    rw [if_neg b16]
    by_cases b32 : c mx.toNat ≤ 32
    · rw [if_pos b32]
      exact ⟨_, _, rfl, adm .u32 (fun v a b => ⟨by omega, by omega⟩), prim .u32⟩
    rw [if_neg b32, if_pos (by omega)]
    exact ⟨_, _, rfl, adm .u64 (fun v a b => ⟨by omega, by omega⟩), prim .u64⟩
  · have hneg : mn < 0 := by omega
    have hx : 0 < mx.natAbs := by omega
    have k7 := hc1 mx.natAbs 7 hx (by omega)
    have k15 := hc1 mx.natAbs 15 hx (by omega)
    have k31 := hc1 mx.natAbs 31 hx (by omega)
    have k62 := hc2 mx.natAbs 62 hx (by omega)
    unfold integerTypeCode intTypeLen
    rw [if_neg (by omega), if_neg (by omega)]
    simp only [ok_bind]
    rw [if_neg (by omega)]
    rcases h with ⟨-, h1, h2, h3⟩ | ⟨-, h1, h2, h3⟩ | ⟨-, h1, h2, h3⟩
    · rw [if_pos (by omega)]
      exact ⟨_, _, rfl, adm .s16 (fun v a b => ⟨by omega, by omega⟩), prim .s16⟩
    · rw [if_neg (by omega), if_pos (by omega)]
      exact ⟨_, _, rfl, adm .s32 (fun v a b => ⟨by omega, by omega⟩), prim .s32⟩
    · rw [if_neg (by omega), if_neg (by omega), if_pos (by omega)]
      exact ⟨_, _, rfl, adm .s64 (fun v a b => ⟨by omega, by omega⟩), prim .s64⟩

mutual
theorem AType.good_text (c : Nat → Nat) (hc : Accurate c) (t : AType) (h : t.Good) :
    ∃ s e, t.signature c = .ok (some s) ∧ t.RepresentedBy e ∧ e.WellFormed ∧ e.NoResolved ∧
      e.toStr (fun _ => none) false = .ok s := by
  match t with
  | .bool =>
    refine ⟨"C(0,1)".toList, .prim .u8 (some 0) (some 1) none, by rw [AType.signature], ?_, rfl, trivial, by decide +kernel⟩
    rw [AType.RepresentedBy]
    refine ⟨.u8, some 0, some 1, rfl, fun v a b => ⟨⟨by omega, by omega⟩, ?_, ?_⟩⟩
    · intro l hl; cases hl; exact a
    · intro l hl; cases hl; exact b
  | .int mn mx =>
    rw [AType.Good] at h
    obtain ⟨s, e, h1, h2, h3⟩ := integerTypeCode_good c hc mn mx h
    exact ⟨s, e, by rw [AType.signature]; exact h1, by rw [AType.RepresentedBy]; exact h2, h3⟩
  | .string n =>
    rw [AType.Good] at h
    have hn : ((n + 1).toNat : Int) = n + 1 := by omega
    refine ⟨_, .prim .str none none (some (n + 1).toNat), by rw [AType.signature], ?_, rfl, trivial, ?_⟩
    · rw [AType.RepresentedBy]
      exact ⟨_, rfl, hn⟩
    · simp only [Elem.toStr, rangeStr, arrayStr, TypeCode.letter, List.nil_append, hn]
  | .record fs =>
    rw [AType.Good] at h
    obtain ⟨s, es, h1, h2, h3, h4, h5⟩ := AFields.good_text c hc fs h
    refine ⟨_, .record es none, by rw [AType.signature, h1]; rfl, ?_, ?_, ?_, ?_⟩
    · rw [AType.RepresentedBy]; exact ⟨es, rfl, h2⟩
    · rw [Elem.WellFormed]; exact ⟨rfl, h3⟩
    · rw [Elem.NoResolved]; exact h4
    · rw [Elem.toStr, h5]; rfl

theorem AFields.good_text (c : Nat → Nat) (hc : Accurate c) (fs : AFields) (h : fs.Good) :
    ∃ s es, fs.signature c = .ok s ∧ fs.RepresentedBy es ∧ es.WellFormed ∧ es.NoResolved ∧
      es.toStr (fun _ => none) false = .ok s := by
  match fs with
  | .nil => exact ⟨[], .nil, by rw [AFields.signature], by rw [AFields.RepresentedBy]; trivial, by rw [Fields.WellFormed]; trivial,
      by rw [Fields.NoResolved]; trivial, by rw [Fields.toStr]⟩
  | .dangling _ _ => rw [AFields.Good] at h; exact h.elim
  | .cons name t r =>
    rw [AFields.Good] at h
    obtain ⟨hq, ht, hr⟩ := h
    obtain ⟨s, e, h1, h2, h3, h4, h5⟩ := AType.good_text c hc t ht
    obtain ⟨u, es, g1, g2, g3, g4, g5⟩ := AFields.good_text c hc r hr
    have hsub : QuoteFree (withoutRE name) := by
      unfold withoutRE QuoteFree
      split
      · exact fun hm => hq (List.mem_of_mem_take hm)
      · exact hq
    refine ⟨_, .cons (some (withoutRE name)) e es, by rw [AFields.signature, h1, g1]; rfl, ?_, ?_, ?_, ?_⟩
    · rw [AFields.RepresentedBy]
      refine ⟨⟨_, rfl, ?_⟩, h2, g2⟩
      unfold withoutRE
      split
      · rename_i hre
        left
        rw [← hre, List.take_append_drop]
      · right; rfl
    · rw [Fields.WellFormed]; exact ⟨⟨_, rfl, hsub⟩, h3, g3⟩
    · rw [Fields.NoResolved]; exact ⟨h4, g4⟩
    · rw [Fields.toStr, h5, g5]; rfl
end

/-- C56, the part that holds: for an AUTOSAR type of any depth whose integers have good bounds, the
type created for it can represent every one of its values. -/
theorem C56_represents_partial (ceilLog : Nat → Nat) (hc : Accurate ceilLog) (t : AType) (h : t.Good) :
    ∃ e, t.element ceilLog = .ok e ∧ t.RepresentedBy e := by
  obtain ⟨s, e, h1, h2, h3, h4, h5⟩ := AType.good_text ceilLog hc t h
  obtain ⟨s', g1, g2⟩ := C22_same_element e h3 h4 (fun _ => none) false
  rw [h5] at g1; cases g1
  exact ⟨e, by unfold AType.element; rw [h1]; exact g2, h2⟩

/-- A record with a counter 0..1000, a signed value, a text and a nested flag. -/
def auType : AType :=
  .record (.cons "count_RE".toList (.int 0 1000) (.cons "temp".toList (.int (-40) 1500)
    (.cons "id".toList (.string 8) (.cons "sub".toList (.record (.cons "on".toList .bool .nil)) .nil))))

example : auType.Good := by
  simp only [auType, AType.Good, AFields.Good, GoodBounds]; decide +kernel

example : auType.signature exactCeilLog = .ok (some
    "{\"count\"S\"temp\"s\"id\"a[9]\"sub\"{\"on\"C(0,1)}}".toList) := by decide +kernel

/-- C56 for unsigned integers, exactly: with exact logarithms a type for the range is found if and
only if the upper bound is positive, fits 64 bits and is not `2^8`, `2^16` or `2^32`. -/
theorem C56_unsigned_partial (mn mx : Int) (h0 : 0 ≤ mn) (h1 : mn ≤ mx) :
    (∃ e, (AType.int mn mx).element exactCeilLog = .ok e ∧ e.Admits mn mx) ↔
      0 < mx ∧ mx < 2 ^ 64 ∧ mx ≠ 2 ^ 8 ∧ mx ≠ 2 ^ 16 ∧ mx ≠ 2 ^ 32 := by
  by_cases hp : 0 < mx
  · have hx : 0 < mx.toNat := by omega
    have k8 := exactCeilLog_spec mx.toNat 8 hx
    have k16 := exactCeilLog_spec mx.toNat 16 hx
    have k32 := exactCeilLog_spec mx.toNat 32 hx
    have k64 := exactCeilLog_spec mx.toNat 64 hx
    have key : ∀ tc lo hi, (∃ e, (.ok (.prim tc lo hi none) : Py Elem) = .ok e ∧ e.Admits mn mx) ↔
        ∀ v : Int, mn ≤ v → v ≤ mx → tc.Holds v ∧ (∀ l, lo = some l → l ≤ v) ∧ (∀ h, hi = some h → v ≤ h) := by
      intro tc lo hi
      constructor
      · rintro ⟨e, he, tc', lo', hi', hprim, hv⟩
        cases he; cases hprim; exact hv
      · intro hv; exact ⟨_, rfl, tc, lo, hi, rfl, hv⟩
    unfold AType.element
    rw [AType.signature]
    unfold integerTypeCode uintTypeLen
    rw [if_pos h0, if_neg (by omega)]
    simp only [ok_bind]
    by_cases b8 : exactCeilLog mx.toNat ≤ 8
    · rw [if_pos b8]
      by_cases hr : mn > 0 ∨ mx < 255
      · rw [if_pos hr]
        simp only [ok_bind, range_element, key, TypeCode.Holds]
        constructor
        · intro hv; have := hv mx h1 (by omega); omega
        · intro hv v a b; exact ⟨by omega, by simp; omega, by simp; omega⟩
      · rw [if_neg hr]
        have := letter_element .u8
        simp only [TypeCode.letter] at this
        simp only [ok_bind, this, key, TypeCode.Holds]
        constructor
        · intro hv; have := hv mx h1 (by omega); omega
        · intro hv v a b; exact ⟨by omega, by simp, by simp⟩
    rw [if_neg b8]
    by_cases b16 : exactCeilLog mx.toNat ≤ 16
    · rw [if_pos b16]
      have := letter_element .u16
      simp only [TypeCode.letter] at this
      simp only [ok_bind, this, key, TypeCode.Holds]
      constructor
      · intro hv; have := hv mx h1 (by omega); omega
      · intro hv v a b; exact ⟨by omega, by simp, by simp⟩
    rw [if_neg b16]
    by_cases b32 : exactCeilLog mx.toNat ≤ 32
    · rw [if_pos b32]
      have := letter_element .u32
      simp only [TypeCode.letter] at this
      simp only [ok_bind, this, key, TypeCode.Holds]
      constructor
      · intro hv; have := hv mx h1 (by omega); omega
      · intro hv v a b; exact ⟨by omega, by simp, by simp⟩
    rw [if_neg b32]
    by_cases b64 : exactCeilLog mx.toNat ≤ 64
    · rw [if_pos b64]
      have := letter_element .u64
      simp only [TypeCode.letter] at this
      simp only [ok_bind, this, key, TypeCode.Holds]
      constructor
      · intro hv; have := hv mx h1 (by omega); omega
      · intro hv v a b; exact ⟨by omega, by simp, by simp⟩
    rw [if_neg b64]
    simp only [ok_bind]
    constructor
    · rintro ⟨e, he, -⟩; cases he
    · intro; omega
  · unfold AType.element
    rw [AType.signature]
    unfold integerTypeCode uintTypeLen
    rw [if_pos h0, if_pos (by omega)]
    constructor
    · rintro ⟨e, he, -⟩; cases he
    · intro; omega

/-- C56 is violated at the power of two: whenever the logarithm of 256 comes out as 8 (as it does
exactly), the range 0..256 gets an 8-bit type, which cannot hold 256. -/
theorem C56_power_of_two_violated (ceilLog : Nat → Nat) (h : ceilLog 256 = 8) :
    ∃ e, (AType.int 0 256).element ceilLog = .ok e ∧ ¬ e.Admits 0 256 := by
  refine ⟨.prim .u8 none none none, ?_, ?_⟩
  · unfold AType.element
    rw [AType.signature]
    unfold integerTypeCode uintTypeLen
    rw [if_pos (by decide), if_neg (by decide)]
    simp only [ok_bind]
    have : ceilLog (256 : Int).toNat = 8 := h
    rw [this, if_pos (by decide), if_neg (by decide)]
    exact letter_element .u8
  · rintro ⟨tc, lo, hi, he, hv⟩
    cases he
    have := (hv 256 (by decide) (by decide)).1
    simp [TypeCode.Holds] at this

/-- C56 is violated for signed types: the lower bound is ignored, so every range that reaches from
below -32768 to an upper bound between 129 and 32767 gets a 16-bit type. -/
theorem C56_lower_bound_violated (ceilLog : Nat → Nat) (hc : Accurate ceilLog) (mn mx : Int) (h1 : mn < -2 ^ 15)
    (h2 : 2 ^ 7 < mx) (h3 : mx < 2 ^ 15) :
    ∃ e, (AType.int mn mx).element ceilLog = .ok e ∧ ¬ e.Admits mn mx := by
  have k7 := hc.1 mx.natAbs 7 (by omega) (by omega)
  have k15 := hc.1 mx.natAbs 15 (by omega) (by omega)
  refine ⟨.prim .s16 none none none, ?_, ?_⟩
  · unfold AType.element
    rw [AType.signature]
    unfold integerTypeCode intTypeLen
    rw [if_neg (by omega), if_neg (by omega)]
    simp only [ok_bind]
    rw [if_neg (by omega), if_pos (by omega)]
    exact letter_element .s16
  · rintro ⟨tc, lo, hi, he, hv⟩
    cases he
    have := (hv mn (by omega) (by omega)).1
    simp only [TypeCode.Holds] at this
    omega

/-- C56 is violated for small signed types: every type with a negative lower bound and an upper bound
below 128 in magnitude raises an exception; so does every type of the single value 0. -/
theorem C56_small_violated (ceilLog : Nat → Nat) (hc : Accurate ceilLog) (mn mx : Int) (h1 : mn < 0 ∨ mx = 0) (h2 : mx.natAbs < 2 ^ 7) :
    (AType.int mn mx).element ceilLog = .error .attributeError ∨
    (AType.int mn mx).element ceilLog = .error .valueError := by
  unfold AType.element
  rw [AType.signature]
  unfold integerTypeCode
  by_cases h0 : mn ≥ 0
  · rw [if_pos h0]
    unfold uintTypeLen
    rw [if_pos (by omega)]
    right; rfl
  · rw [if_neg h0]
    unfold intTypeLen
    by_cases hz : mx.natAbs = 0
    · rw [if_pos hz]; right; rfl
    · rw [if_neg hz]
      have k7 := hc.1 mx.natAbs 7 (by omega) (by omega)
      simp only [ok_bind]
      rw [if_pos (by omega)]
      left; rfl

/-- C56: a type with values beyond 64 bits (beyond 63 and a sign for signed types) is refused with
`NotImplementedError`; none is created that is too small. -/
theorem C56_too_large (mn mx : Int) (h : 2 ^ 64 < mx ∨ (mn < 0 ∧ 2 ^ 63 < mx.natAbs)) :
    (AType.int mn mx).element exactCeilLog = .error .notImplemented := by
  unfold AType.element
  rw [AType.signature]
  unfold integerTypeCode
  by_cases h0 : mn ≥ 0
  · have h' : 2 ^ 64 < mx := by omega
    have k64 := exactCeilLog_spec mx.toNat 64 (by omega)
    rw [if_pos h0]
    unfold uintTypeLen
    rw [if_neg (by omega), ok_bind, if_neg (by omega), if_neg (by omega), if_neg (by omega), if_neg (by omega)]
    rfl
  · have h' : 2 ^ 63 < mx.natAbs := by omega
    have k63 := exactCeilLog_spec mx.natAbs 63 (by omega)
    rw [if_neg h0]
    unfold intTypeLen
    rw [if_neg (by omega), ok_bind, if_neg (by omega), if_neg (by omega), if_neg (by omega), if_neg (by omega)]
    rfl

example : (AType.int 0 (2 ^ 64 - 1)).element exactCeilLog = .ok (.prim .u64 none none none) ∧
    (AType.int 0 (2 ^ 65)).element exactCeilLog = .error .notImplemented := by decide +kernel

/-- C56 is violated for array types: they are refused. -/
theorem C56_array_violated (ceilLog : Nat → Nat) : AType.array.element ceilLog = .error .nameError := by
  unfold AType.element
  rw [AType.signature]; rfl

/-- A list of record elements with a reference that cannot be resolved. -/
def AFields.HasDangling : AFields → Prop
  | .nil => False
  | .dangling _ _ => True
  | .cons _ _ r => r.HasDangling

/-- C56: no type is created for a record with an element whose type reference cannot be resolved; if
all elements before it have a text, the exception is a `ValueError`. -/
theorem C56_dangling (ceilLog : Nat → Nat) (fs : AFields) (h : fs.HasDangling) :
    (∀ e, (AType.record fs).element ceilLog ≠ .ok e) ∧
    (∀ name t r, fs = .cons name t r → ∀ s, t.signature ceilLog = .ok s →
      ∀ x, r.signature ceilLog = .error x → (AType.record fs).element ceilLog = .error x) ∧
    (∀ name t, fs = .dangling name t → (AType.record fs).element ceilLog = .error .valueError) := by
  have key : ∀ fs : AFields, fs.HasDangling → ∀ s, fs.signature ceilLog ≠ .ok s := by
    intro fs
    induction fs using AFields.rec (motive_1 := fun _ => True) with
    | nil => intro h; exact h.elim
    | dangling a b => intro _ s; simp [AFields.signature]
    | cons a t r _ ih =>
      intro h s hs
      rw [AFields.signature, bind_ok_iff] at hs
      obtain ⟨x, -, hs⟩ := hs
      rw [bind_ok_iff] at hs
      obtain ⟨y, hy, -⟩ := hs
      exact ih h y hy
    | _ => trivial
  refine ⟨?_, ?_, ?_⟩
  · intro e he
    unfold AType.element at he
    rw [bind_ok_iff] at he
    obtain ⟨o, ho, -⟩ := he
    rw [AType.signature, bind_ok_iff] at ho
    obtain ⟨s, hs, -⟩ := ho
    exact key fs h s hs
  · intro name t r hf s hs x hx
    subst hf
    unfold AType.element
    rw [AType.signature, AFields.signature, hs, ok_bind, hx]
    rfl
  · intro name t hf
    subst hf
    unfold AType.element
    rw [AType.signature, AFields.signature]
    rfl

example : (AType.record (.cons "a".toList .bool (.dangling "b".toList .nil))).element exactCeilLog =
    .error .valueError := by decide +kernel

example : (AType.int (-40000) 1000).element exactCeilLog = .ok (.prim .s16 none none none) ∧
    (AType.int (-128) 127).element exactCeilLog = .error .attributeError := by decide +kernel

/-! C62 -/

theorem splitOn_joinComma (l : List Str) (hne : l ≠ []) (h : ∀ x ∈ l, ',' ∉ x) : splitOn ',' (joinComma l) = l := by
  match l with
  | [] => exact absurd rfl hne
  | [a] => exact splitOn_none _ _ (h a (by simp))
  | a :: b :: r =>
    rw [joinComma, splitOn_append _ _ _ (h a (by simp)), splitOn_joinComma (b :: r) (by simp) (fun x hx => h x (by simp [hx]))]

theorem joinComma_not_mem (c : Char) (hc : c ≠ ',') (l : List Str) (h : ∀ x ∈ l, c ∉ x) : c ∉ joinComma l := by
  match l with
  | [] => simp [joinComma]
  | [a] => exact h a (by simp)
  | a :: b :: r =>
    have h1 := h a (by simp)
    have h2 := joinComma_not_mem c hc (b :: r) (fun x hx => h x (by simp [hx]))
    simp only [joinComma, List.mem_append, List.mem_cons, not_or]
    exact ⟨h1, hc, h2⟩

theorem values_plain (e : CompuElem) (h : PlainText e.text) : ∀ x ∈ e.values, PlainText x := by
  intro x hx
  unfold CompuElem.values at hx
  split at hx
  · simp only [List.mem_singleton] at hx; subst hx; exact h
  · obtain ⟨i, -, rfl⟩ := List.mem_map.mp hx
    have hn : ∀ c : Char, c.toNat < 48 → c ∉ natStr (i + 1) := by
      intro c hc hm
      have := natStr_chars _ c hm
      omega
    obtain ⟨h1, h2, h3, h4⟩ := h
    refine ⟨?_, ?_, ?_, ?_⟩ <;> simp only [List.mem_append, not_or]
    · exact ⟨h1, hn _ (by decide)⟩
    · exact ⟨h2, hn _ (by decide)⟩
    · exact ⟨h3, hn _ (by decide)⟩
    · exact ⟨h4, hn _ (by decide)⟩

/-- Loading the attribute gives back the list of texts. -/
theorem valueTable_load (es : List CompuElem) (h : ∀ e ∈ es, PlainText e.text)
    (hne : es.flatMap CompuElem.values ≠ []) :
    ∃ a, typeAttribute (valueTableAttr es) = .ok a ∧ a.str = valueTableAttr es ∧
      a.valueTable = some ((es.flatMap CompuElem.values).map some) := by
  have hp : ∀ x ∈ es.flatMap CompuElem.values, PlainText x := by
    intro x hx
    obtain ⟨e, he, hx⟩ := List.mem_flatMap.mp hx
    exact values_plain e (h e he) x hx
  unfold valueTableAttr
  generalize es.flatMap CompuElem.values = vs at *
  have hq : ∀ (c : Char), (c = ',' ∨ c = '(' ∨ c = ')') → ∀ x ∈ vs.map (fun x => '"' :: (x ++ ['"'])), c ∉ x := by
    intro c hc x hx
    obtain ⟨y, hy, rfl⟩ := List.mem_map.mp hx
    obtain ⟨h1, h2, h3, h4⟩ := hp y hy
    rcases hc with rfl | rfl | rfl <;> simp [*]
  have hl := joinComma_not_mem '(' (by decide) _ (hq '(' (by simp))
  have hr := joinComma_not_mem ')' (by decide) _ (hq ')' (by simp))
  have hs := splitOn_joinComma (vs.map (fun x => '"' :: (x ++ ['"']))) (by simpa using hne) (hq ',' (by simp))
  unfold typeAttribute
  simp only [List.length_cons, typeAttrLoop]
  rw [if_neg (by simp), matchPair_simple '(' ')' _ _ hl hr]
  simp only [hs, List.length_append, List.length_cons, List.length_nil, List.map_map, if_pos trivial]
  refine ⟨_, rfl, rfl, ?_⟩
  simp only [Option.some.injEq]
  apply List.map_congr_left
  intro x hx
  have := matchPair_simple '"' '"' x [] (hp x hx).1 (hp x hx).1
  simp only [Function.comp, parseStr]
  rw [this]

theorem values_length (e : CompuElem) (h : e.lower ≤ e.upper) : (e.values.length : Int) = e.upper + 1 - e.lower := by
  unfold CompuElem.values
  split
  · simp; omega
  · simp; omega

theorem values_get (e : CompuElem) (v : Int) (h1 : e.lower ≤ v) (h2 : v ≤ e.upper) :
    e.values[(v - e.lower).toNat]? = some (e.textOf v) := by
  unfold CompuElem.values CompuElem.textOf
  split
  · have : v - e.lower = 0 := by omega
    simp [this]
  · rw [List.getElem?_map, List.getElem?_range (by omega)]
    simp only [Option.map_some, Option.some.injEq]
    congr 2
    omega

theorem gapless_get (first : Int) (es : List CompuElem) (hg : Gapless first es) (e : CompuElem) (he : e ∈ es) (v : Int)
    (h1 : e.lower ≤ v) (h2 : v ≤ e.upper) :
    first ≤ v ∧ (es.flatMap CompuElem.values)[(v - first).toNat]? = some (e.textOf v) := by
  induction es generalizing first with
  | nil => cases he
  | cons d es ih =>
    obtain ⟨hd, hle, hg⟩ := hg
    have hlen := values_length d (by omega)
    rcases List.mem_cons.mp he with rfl | he
    · refine ⟨by omega, ?_⟩
      rw [List.flatMap_cons, List.getElem?_append_left (by omega), ← hd]
      exact values_get e v h1 h2
    · obtain ⟨hb, hi⟩ := ih _ hg he
      refine ⟨by omega, ?_⟩
      rw [List.flatMap_cons, List.getElem?_append_right (by omega), ← hi]
      congr 1
      omega

/-- C62, the part that holds: when the elements of an enumeration cover the values from 0 on without
gap, the value table that a reader of the definition gets has the enumeration's text of `v` at
position `v`, for every value. -/
theorem C62_table_partial (es : List CompuElem) (hg : Gapless 0 es) (hne : es ≠ []) (hp : ∀ e ∈ es, PlainText e.text) :
    ∃ a table, typeAttribute (valueTableAttr es) = .ok a ∧ a.valueTable = some table ∧
      ∀ e ∈ es, ∀ v : Int, e.lower ≤ v → v ≤ e.upper → 0 ≤ v ∧ table[v.toNat]? = some (some (e.textOf v)) := by
  have hne' : es.flatMap CompuElem.values ≠ [] := by
    cases es with
    | nil => exact absurd rfl hne
    | cons d es =>
      intro hn
      obtain ⟨hd, hle, -⟩ := hg
      have := values_length d (by omega)
      rw [List.flatMap_cons, List.append_eq_nil_iff] at hn
      rw [hn.1] at this
      simp at this
      omega
  obtain ⟨a, h1, -, h2⟩ := valueTable_load es hp hne'
  refine ⟨a, _, h1, h2, fun e he v hv1 hv2 => ?_⟩
  obtain ⟨h3, h4⟩ := gapless_get 0 es hg e he v hv1 hv2
  refine ⟨h3, ?_⟩
  rw [List.getElem?_map]
  simp only [Int.sub_zero] at h4
  rw [h4]; rfl

/-- Off, three gears, on. -/
def auEnum : List CompuElem := [⟨0, 0, "Off".toList⟩, ⟨1, 3, "Gear".toList⟩, ⟨4, 4, "On".toList⟩]

example : Gapless 0 auEnum ∧ valueTableAttr auEnum = "VT(\"Off\",\"Gear1\",\"Gear2\",\"Gear3\",\"On\")".toList := by
  refine ⟨by simp [auEnum, Gapless], by decide +kernel⟩

theorem values_texts (e : CompuElem) (h : e.lower ≤ e.upper) : e.values = e.texts := by
  apply List.ext_getElem?
  intro i
  have hl := values_length e h
  by_cases hi : i < e.values.length
  · have h1 := values_get e (e.lower + i) (by omega) (by omega)
    rw [show (e.lower + (i : Int) - e.lower).toNat = i by omega] at h1
    rw [h1]
    simp only [CompuElem.texts, List.getElem?_map]
    rw [List.getElem?_range (by omega)]
    rfl
  · rw [List.getElem?_eq_none (by omega), List.getElem?_eq_none]
    simp only [CompuElem.texts, List.length_map, List.length_range]
    omega

theorem gapless_of_get (es : List CompuElem) (hr : ∀ e ∈ es, e.lower ≤ e.upper) (pre : List Str)
    (hd : (pre ++ es.flatMap CompuElem.values).Nodup)
    (h : ∀ e ∈ es, ∀ v : Int, e.lower ≤ v → v ≤ e.upper →
      0 ≤ v ∧ (pre ++ es.flatMap CompuElem.values)[v.toNat]? = some (e.textOf v)) : Gapless pre.length es := by
  induction es generalizing pre with
  | nil => trivial
  | cons d es ih =>
    have hle := hr d (by simp)
    have hlen := values_length d hle
    obtain ⟨h0, h1⟩ := h d (by simp) d.lower (by omega) hle
    have h2 := values_get d d.lower (by omega) hle
    have h3 : (pre ++ (d :: es).flatMap CompuElem.values)[pre.length]? = some (d.textOf d.lower) := by
      rw [List.getElem?_append_right (Nat.le_refl _), List.flatMap_cons, List.getElem?_append_left (by omega)]
      simpa using h2
    have h4 : d.lower.toNat < (pre ++ (d :: es).flatMap CompuElem.values).length :=
      (List.getElem?_eq_some_iff.mp h1).1
    have h5 := (List.getElem?_inj h4 hd).mp (h1.trans h3.symm)
    have h6 : d.lower = pre.length := by omega
    refine ⟨h6, by omega, ?_⟩
    have h7 := ih (fun e he => hr e (by simp [he])) (pre ++ d.values)
      (by simpa [List.append_assoc] using hd)
      (fun e he v hv1 hv2 => by
        have := h e (by simp [he]) v hv1 hv2
        simpa [List.append_assoc] using this)
    rw [show ((pre ++ d.values).length : Int) = d.upper + 1 by simp only [List.length_append]; omega] at h7
    exact h7

/-- C62 is violated by every enumeration that does not count its values from 0 on without gap (in the order of its
elements) and has no text twice: the limits are not used for the positions of the texts, so some value finds another
text, or none, at its position. With `C62_table_partial`, the table is right exactly for the gapless ones. -/
theorem C62_gap_violated (es : List CompuElem) (hr : ∀ e ∈ es, e.lower ≤ e.upper) (hp : ∀ e ∈ es, PlainText e.text)
    (hd : (es.flatMap CompuElem.texts).Nodup) (hg : ¬Gapless 0 es) :
    ∃ a table, typeAttribute (valueTableAttr es) = .ok a ∧ a.valueTable = some table ∧
      ∃ e ∈ es, ∃ v : Int, e.lower ≤ v ∧ v ≤ e.upper ∧ ¬(0 ≤ v ∧ table[v.toNat]? = some (some (e.textOf v))) := by
  have hv : es.flatMap CompuElem.texts = es.flatMap CompuElem.values := by
    clear hd hg hp
    induction es with
    | nil => rfl
    | cons d es ih =>
      rw [List.flatMap_cons, List.flatMap_cons, ih (fun e he => hr e (by simp [he])), values_texts d (hr d (by simp))]
  rw [hv] at hd
  have hne' : es.flatMap CompuElem.values ≠ [] := by
    cases es with
    | nil => exact absurd trivial hg
    | cons d es =>
      intro hn
      have h1 := hr d (by simp)
      have := values_length d h1
      rw [List.flatMap_cons, List.append_eq_nil_iff] at hn
      rw [hn.1] at this
      simp at this
      omega
  obtain ⟨a, h1, -, h2⟩ := valueTable_load es hp hne'
  refine ⟨a, _, h1, h2, Classical.byContradiction fun hn => hg ?_⟩
  refine gapless_of_get es hr [] (by simpa using hd) fun e he v hv1 hv2 => ?_
  have h3 : 0 ≤ v ∧ ((es.flatMap CompuElem.values).map some)[v.toNat]? = some (some (e.textOf v)) :=
    Classical.byContradiction fun h => hn ⟨e, he, v, hv1, hv2, h⟩
  refine ⟨h3.1, ?_⟩
  have h4 := h3.2
  rw [List.getElem?_map] at h4
  simpa using h4

/-- Low is 1, high is 2: not gapless from 0 on, and position 1 of the table has the text of 2. -/
example : ∃ es : List CompuElem, (∀ e ∈ es, e.lower ≤ e.upper) ∧ (∀ e ∈ es, PlainText e.text) ∧
    (es.flatMap CompuElem.texts).Nodup ∧ ¬Gapless 0 es ∧ valueTableAttr es = "VT(\"Low\",\"High\")".toList :=
  ⟨[⟨1, 1, "Low".toList⟩, ⟨2, 2, "High".toList⟩], by simp, by simp [PlainText], by decide +kernel, by simp [Gapless],
    by decide +kernel⟩

/-- C62 is violated by every enumeration with a value that is not smaller than the number of its values: the table has
as many entries as the enumeration has values, so it has none at the position of that value. -/
theorem C62_beyond_violated (es : List CompuElem) (hr : ∀ e ∈ es, e.lower ≤ e.upper) (hp : ∀ e ∈ es, PlainText e.text)
    (e : CompuElem) (he : e ∈ es) (v : Int) (_h1 : e.lower ≤ v) (_h2 : v ≤ e.upper)
    (hv : (es.map fun e => e.upper + 1 - e.lower).sum ≤ v) :
    ∃ a table, typeAttribute (valueTableAttr es) = .ok a ∧ a.valueTable = some table ∧
      (table.length : Int) = (es.map fun e => e.upper + 1 - e.lower).sum ∧ table[v.toNat]? = none := by
  have hlen : ∀ l : List CompuElem, (∀ e ∈ l, e.lower ≤ e.upper) →
      ((l.flatMap CompuElem.values).length : Int) = (l.map fun e => e.upper + 1 - e.lower).sum := by
    intro l
    induction l with
    | nil => simp
    | cons d l ih =>
      intro h
      have h1 := values_length d (h d (by simp))
      have h2 := ih (fun e he => h e (by simp [he]))
      simp only [List.flatMap_cons, List.length_append, List.map_cons, List.sum_cons]
      omega
  have hl := hlen es hr
  have hne : es.flatMap CompuElem.values ≠ [] := by
    intro hn
    have h3 := values_length e (hr e he)
    have h4 : e.values = [] := by
      cases hve : e.values with
      | nil => rfl
      | cons x xs =>
        have : x ∈ es.flatMap CompuElem.values := List.mem_flatMap.mpr ⟨e, he, by simp [hve]⟩
        rw [hn] at this
        cases this
    rw [h4] at h3
    have := hr e he
    simp at h3
    omega
  obtain ⟨a, h3, -, h4⟩ := valueTable_load es hp hne
  refine ⟨a, _, h3, h4, by simpa using hl, ?_⟩
  rw [List.getElem?_eq_none]
  simp only [List.length_map]
  omega

/-- Neutral is 1, reverse is 5. -/
example : ∃ es : List CompuElem, (∀ e ∈ es, e.lower ≤ e.upper ∧ PlainText e.text) ∧
    ⟨5, 5, "Reverse".toList⟩ ∈ es ∧ (es.map fun e => e.upper + 1 - e.lower).sum ≤ 5 ∧
    valueTableAttr es = "VT(\"Neutral\",\"Reverse\")".toList :=
  ⟨[⟨1, 1, "Neutral".toList⟩, ⟨5, 5, "Reverse".toList⟩], by simp [PlainText], by simp, by decide, by decide +kernel⟩

theorem splitOn_length (sep : Char) (s : Str) : (splitOn sep s).length = s.count sep + 1 := by
  induction s with
  | nil => rfl
  | cons c s ih =>
    unfold splitOn
    split
    · rename_i h
      subst h
      simp [ih]
    · rename_i h
      rw [List.count_cons_of_ne h]
      split
      · rename_i h1
        rw [h1] at ih
        simp at ih
      · rename_i h1
        rw [h1] at ih
        simpa using ih

theorem joinComma_commas (l : List Str) (hne : l ≠ []) :
    (joinComma l).count ',' + 1 = l.length + (l.map (List.count ',')).sum := by
  match l with
  | [] => exact absurd rfl hne
  | [a] => simp [joinComma]; omega
  | a :: b :: r =>
    have := joinComma_commas (b :: r) (by simp)
    simp only [joinComma, List.count_append, List.count_cons, List.length_cons, List.map_cons, List.sum_cons] at this ⊢
    simp only [beq_self_eq_true, if_true]
    omega

/-- C62 is violated by every enumeration with a comma in a text (quotes and parentheses apart): the table that a reader
gets has more entries than the enumeration has values. -/
theorem C62_comma_violated (es : List CompuElem) (hr : ∀ e ∈ es, e.lower ≤ e.upper)
    (hp : ∀ x ∈ es.flatMap CompuElem.texts, '"' ∉ x ∧ '(' ∉ x ∧ ')' ∉ x)
    (hc : ∃ x ∈ es.flatMap CompuElem.texts, ',' ∈ x) :
    ∃ a table, typeAttribute (valueTableAttr es) = .ok a ∧ a.valueTable = some table ∧
      (es.flatMap CompuElem.texts).length < table.length := by
  have hv : es.flatMap CompuElem.texts = es.flatMap CompuElem.values := by
    clear hp hc
    induction es with
    | nil => rfl
    | cons d es ih =>
      rw [List.flatMap_cons, List.flatMap_cons, ih (fun e he => hr e (by simp [he])), values_texts d (hr d (by simp))]
  rw [hv] at hp hc ⊢
  clear hv
  unfold valueTableAttr
  generalize es.flatMap CompuElem.values = vs at *
  have hq : ∀ (c : Char), (c = '(' ∨ c = ')') → ∀ x ∈ vs.map (fun x => '"' :: (x ++ ['"'])), c ∉ x := by
    intro c hc x hx
    obtain ⟨y, hy, rfl⟩ := List.mem_map.mp hx
    obtain ⟨h1, h2, h3⟩ := hp y hy
    rcases hc with rfl | rfl <;> simp [*]
  have hl := joinComma_not_mem '(' (by decide) _ (hq '(' (by simp))
  have hr := joinComma_not_mem ')' (by decide) _ (hq ')' (by simp))
  have hne : vs ≠ [] := by
    rintro rfl
    obtain ⟨x, hx, -⟩ := hc
    cases hx
  have hs := joinComma_commas (vs.map (fun x => '"' :: (x ++ ['"']))) (by simpa using hne)
  rw [← splitOn_length] at hs
  unfold typeAttribute
  simp only [List.length_cons, typeAttrLoop]
  rw [if_neg (by simp), matchPair_simple '(' ')' _ _ hl hr]
  simp only [List.length_append, List.length_cons, List.length_nil, if_pos trivial]
  refine ⟨_, _, rfl, rfl, ?_⟩
  rw [List.length_map, hs, List.length_map]
  obtain ⟨x, hx, hm⟩ := hc
  have h1 : 0 < x.count ',' := List.count_pos_iff.mpr hm
  obtain ⟨l, r, rfl⟩ := List.append_of_mem hx
  simp only [List.map_append, List.map_cons, List.sum_append, List.sum_cons, List.count_cons, List.count_append]
  omega

/-- A text with a comma becomes two entries, neither of them a text. -/
example : ∃ (es : List CompuElem) (a : TypeAttr), (∀ e ∈ es, e.lower ≤ e.upper) ∧ Gapless 0 es ∧
    (∀ x ∈ es.flatMap CompuElem.texts, '"' ∉ x ∧ '(' ∉ x ∧ ')' ∉ x) ∧ (∃ x ∈ es.flatMap CompuElem.texts, ',' ∈ x) ∧
    typeAttribute (valueTableAttr es) = .ok a ∧ a.valueTable = some [none, none] :=
  ⟨[⟨0, 0, "on, fast".toList⟩], ⟨some [none, none], "VT(\"on, fast\")".toList⟩, by simp, by simp [Gapless],
    by decide +kernel, by decide +kernel, by decide +kernel, rfl⟩

end Apx
