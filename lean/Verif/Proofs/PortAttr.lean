import Verif.Model.PortAttr
import Verif.Spec.PortAttr
import Verif.Proofs.Signature

namespace Apx

/-! ### The recursion bound is never reached -/

theorem lstrip_length (s : Str) : (lstrip s).length ≤ s.length := by
  unfold lstrip
  exact (List.dropWhile_suffix _).length_le

theorem matchDecStr_length (r : Str) (v : InitVal) (t : Str) (h : matchDecStr r = some (v, t)) :
    t.length ≤ r.length := by
  unfold matchDecStr at h
  have hd : ∀ (p : Char → Bool) (s : Str), (s.dropWhile p).length ≤ s.length :=
    fun p s => (List.dropWhile_suffix p).length_le
  split at h
  · split at h
    · simp at h
    · simp only [Option.some.injEq, Prod.mk.injEq] at h
      rw [← h.2]; have := hd isDec (by assumption); simp; omega
  · split at h
    · rename_i s _ rest hs
      simp only [Option.some.injEq, Prod.mk.injEq] at h
      have := congrArg List.length hs
      have h2 := hd (· != '"')
      have := hs ▸ h2 _
      rw [← h.2]; simp at this ⊢; omega
    · simp at h
  · split at h
    · simp at h
    · simp only [Option.some.injEq, Prod.mk.injEq] at h
      rw [← h.2]; exact hd _ _

theorem matchScalar_length (r : Str) (v : InitVal) (t : Str) (h : matchScalar r = some (v, t)) :
    t.length ≤ r.length := by
  unfold matchScalar at h
  split at h
  · split at h
    · exact matchDecStr_length _ _ _ h
    · simp only [Option.some.injEq, Prod.mk.injEq] at h
      rw [← h.2]
      have := (List.dropWhile_suffix isHex (l := by assumption)).length_le
      simp; omega
  · exact matchDecStr_length _ _ _ h

theorem parseInit_length (n : Nat) (s : Str) (v : Option InitVal) (r : Str)
    (h : parseInitF n s = .ok (v, r)) : r.length ≤ s.length := by
  cases n with
  | zero => simp [parseInitF] at h
  | succ n =>
    have hl := lstrip_length s
    simp only [parseInitF] at h
    split at h
    · have hm := matchPair_length (lstrip s) '{' '}'
      split at h
      · simp at h
      · rename_i m r2 he
        rw [he] at hm
        rw [bind_ok_iff] at h
        obtain ⟨l, _, h⟩ := h
        cases l <;> simp only [Except.ok.injEq, Prod.mk.injEq] at h <;> rw [← h.2] <;> simp at hm ⊢ <;> omega
    · split at h
      · rename_i he
        simp only [Except.ok.injEq, Prod.mk.injEq] at h
        have := matchScalar_length _ _ _ he
        rw [← h.2]; omega
      · simp only [Except.ok.injEq, Prod.mk.injEq] at h
        rw [← h.2]; omega

theorem matchPair_inner_length (s : Str) (l r : Char) (a b : Str) (h : matchPair s l r = (some a, b)) :
    a.length + b.length + 2 = s.length := by
  unfold matchPair at h
  split at h
  · simp at h
  · split at h
    · split at h
      · rename_i a' b' h'
        have := matchGo_length _ _ _ _ _ _ h'
        simp only [Prod.mk.injEq, Option.some.injEq] at h
        obtain ⟨rfl, rfl⟩ := h
        simp; omega
      · simp at h
    · simp at h

theorem parseInit_fuel_aux (n : Nat) :
    (∀ s m, 2 * s.length + 1 ≤ n → n ≤ m → parseInitF m s = parseInitF n s) ∧
    (∀ s m, 2 * s.length + 2 ≤ n → n ≤ m → parseItemsF m s = parseItemsF n s) := by
  induction n with
  | zero => constructor <;> (intro s m h; omega)
  | succ n ih =>
    constructor
    · intro s m h hm
      obtain ⟨m, rfl⟩ : ∃ k, m = k + 1 := ⟨m - 1, by omega⟩
      simp only [parseInitF]
      have hl := lstrip_length s
      split
      · split
        · rfl
        · rename_i m' r2 he
          have := matchPair_inner_length _ _ _ _ _ he
          rw [ih.2 m' m (by omega) (by omega)]
      · rfl
    · intro s m h hm
      obtain ⟨m, rfl⟩ : ∃ k, m = k + 1 := ⟨m - 1, by omega⟩
      simp only [parseItemsF]
      split
      · rfl
      · have hl := lstrip_length s
        rw [ih.1 (lstrip s) m (by omega) (by omega)]
        cases hp : parseInitF n (lstrip s) with
        | error e => rfl
        | ok p =>
          obtain ⟨v, r⟩ := p
          have h1 := parseInit_length _ _ _ _ hp
          have h2 := lstrip_length r
          simp only [ok_bind]
          split
          · rename_i hc
            have h3 := lstrip_length (lstrip r).tail
            have h4 : (lstrip r).length ≠ 0 := by
              intro h0; rw [List.length_eq_zero_iff] at h0; rw [h0] at hc; simp at hc
            rw [List.length_tail] at h3
            rw [ih.2 _ m (by omega) (by omega)]
          · rfl

/-- Any larger bound on the recursion depth gives the same result. -/
theorem parseInit_fuel (s : Str) (m : Nat) (h : 2 * s.length + 1 ≤ m) : parseInitF m s = parseInit s := by
  unfold parseInit
  rw [(parseInit_fuel_aux (2 * s.length + 1)).1 s m (by omega) h,
    (parseInit_fuel_aux (2 * s.length + 1)).1 s (2 * s.length + 2) (by omega) (by omega)]

theorem attrLoop_fuel (n : Nat) : ∀ (a : PortAttr) (s : Str) (m : Nat), s.length + 1 ≤ n → n ≤ m →
    attrLoop m a s = attrLoop n a s := by
  induction n with
  | zero => intro a s m h; omega
  | succ n ih =>
    intro a s m h hm
    obtain ⟨m, rfl⟩ : ∃ k, m = k + 1 := ⟨m - 1, by omega⟩
    simp only [attrLoop]
    split
    · rfl
    · have hl := lstrip_length s
      split
      · rename_i r he
        rw [he] at hl; simp only [List.length_cons] at hl
        cases hp : parseInit r with
        | error e => rfl
        | ok p =>
          have := parseInit_length _ _ _ _ hp
          simp only [ok_bind]
          exact ih _ _ _ (by omega) (by omega)
      · rfl
      · rename_i r he
        rw [he] at hl; simp only [List.length_cons] at hl
        exact ih _ _ _ (by omega) (by omega)
      · rfl

/-! ### Numerals -/

theorem digit_facts (c : Char) (d : Nat) (h : IsDigit c d) :
    isHex c = true ∧ hexVal c = d ∧ (d < 10 → isDec c = true ∧ c.toNat - 48 = d) := by
  have hd : d < 16 := by
    rcases h with h | h <;>
      (have := (List.getElem?_eq_some_iff.mp h).1; simpa using this)
  unfold IsDigit at h
  have key : ∀ d < 16, ∀ c : Char, "0123456789ABCDEF".toList[d]? = some c ∨ "0123456789abcdef".toList[d]? = some c →
      isHex c = true ∧ hexVal c = d ∧ (d < 10 → isDec c = true ∧ c.toNat - 48 = d) := by
    intro d hd c hc
    rcases hc with hc | hc
    all_goals
      (rcases (by omega : d = 0 ∨ d = 1 ∨ d = 2 ∨ d = 3 ∨ d = 4 ∨ d = 5 ∨ d = 6 ∨ d = 7 ∨ d = 8 ∨ d = 9 ∨ d = 10
        ∨ d = 11 ∨ d = 12 ∨ d = 13 ∨ d = 14 ∨ d = 15) with
        rfl | rfl | rfl | rfl | rfl | rfl | rfl | rfl | rfl | rfl | rfl | rfl | rfl | rfl | rfl | rfl) <;>
      (simp at hc; subst hc; decide)
  exact key d hd c h

theorem numeral_dec (s : Str) (n : Nat) (h : Numeral 10 s n) :
    s ≠ [] ∧ (∀ c ∈ s, isDec c = true) ∧ decNum s = n := by
  induction h with
  | digit c d hc hd =>
    have := digit_facts c d hc
    refine ⟨by simp, by simpa using (this.2.2 hd).1, by simpa [decNum] using (this.2.2 hd).2⟩
  | snoc s n c d _ hc hd ih =>
    have := digit_facts c d hc
    refine ⟨by simp, ?_, ?_⟩
    · intro x hx
      rcases List.mem_append.mp hx with hx | hx
      · exact ih.2.1 x hx
      · rw [List.mem_singleton.mp hx]; exact (this.2.2 hd).1
    · unfold decNum at ih ⊢
      rw [List.foldl_append, ih.2.2]
      simp [(this.2.2 hd).2]

theorem numeral_hex (s : Str) (n : Nat) (h : Numeral 16 s n) :
    s ≠ [] ∧ (∀ c ∈ s, isHex c = true) ∧ hexNum s = n := by
  induction h with
  | digit c d hc hd =>
    have := digit_facts c d hc
    refine ⟨by simp, by simpa using this.1, by simpa [hexNum] using this.2.1⟩
  | snoc s n c d _ hc hd ih =>
    have := digit_facts c d hc
    refine ⟨by simp, ?_, ?_⟩
    · intro x hx
      rcases List.mem_append.mp hx with hx | hx
      · exact ih.2.1 x hx
      · rw [List.mem_singleton.mp hx]; exact this.1
    · unfold hexNum at ih ⊢
      rw [List.foldl_append, ih.2.2]
      simp [this.2.1]

/-- What may follow a value: not a digit, a hexadecimal letter or `x`. -/
def Ends (rest : Str) : Prop := ∀ c t, rest = c :: t → isHex c = false ∧ c ≠ 'x'

theorem isDec_isHex (c : Char) (h : isHex c = false) : isDec c = false := by
  unfold isHex at h; simp at h; exact h.1.1

theorem takeWhile_all {α : Type} (p : α → Bool) (s rest : List α) (h : ∀ c ∈ s, p c = true)
    (hr : ∀ c t, rest = c :: t → p c = false) :
    (s ++ rest).takeWhile p = s ∧ (s ++ rest).dropWhile p = rest := by
  induction s with
  | nil =>
    cases rest with
    | nil => simp
    | cons c t => simp [hr c t rfl]
  | cons c s ih =>
    have hc := h c (by simp)
    have := ih (fun c hc => h c (by simp [hc]))
    simp [hc, this]

theorem matchDecStr_dec (s rest : Str) (hs : s ≠ []) (h : ∀ c ∈ s, isDec c = true) (hr : Ends rest) :
    matchDecStr (s ++ rest) = some (.int (decNum s), rest) := by
  have ht := takeWhile_all isDec s rest h (fun c t e => isDec_isHex c (hr c t e).1)
  obtain ⟨c, s', rfl⟩ := List.exists_cons_of_ne_nil hs
  have hc := h c (by simp)
  unfold matchDecStr
  split
  · rename_i e; simp only [List.cons_append, List.cons.injEq] at e; rw [e.1] at hc; exact absurd hc (by decide)
  · rename_i e; simp only [List.cons_append, List.cons.injEq] at e; rw [e.1] at hc; exact absurd hc (by decide)
  · rw [ht.1, ht.2]; simp

theorem matchScalar_dec (s rest : Str) (hs : s ≠ []) (h : ∀ c ∈ s, isDec c = true) (hr : Ends rest) :
    matchScalar (s ++ rest) = some (.int (decNum s), rest) := by
  unfold matchScalar
  split
  · rename_i t e
    exfalso
    obtain ⟨c, s', rfl⟩ := List.exists_cons_of_ne_nil hs
    simp only [List.cons_append, List.cons.injEq] at e
    cases s' with
    | nil => exact (hr _ _ e.2).2 rfl
    | cons d s' =>
      simp only [List.cons_append, List.cons.injEq] at e
      have := h d (by simp)
      rw [e.2.1] at this
      exact absurd this (by decide)
  · exact matchDecStr_dec s rest hs h hr

theorem matchScalar_neg (s rest : Str) (hs : s ≠ []) (h : ∀ c ∈ s, isDec c = true) (hr : Ends rest) :
    matchScalar ('-' :: (s ++ rest)) = some (.int (-(decNum s : Int)), rest) := by
  have ht := takeWhile_all isDec s rest h (fun c t e => isDec_isHex c (hr c t e).1)
  simp [matchScalar, matchDecStr, ht.1, ht.2, hs]

theorem matchScalar_hex (s rest : Str) (hs : s ≠ []) (h : ∀ c ∈ s, isHex c = true) (hr : Ends rest) :
    matchScalar ('0' :: 'x' :: (s ++ rest)) = some (.int (hexNum s), rest) := by
  have ht := takeWhile_all isHex s rest h (fun c t e => (hr c t e).1)
  simp [matchScalar, ht.1, ht.2, hs]

theorem matchScalar_str (s rest : Str) (h : '"' ∉ s) :
    matchScalar ('"' :: (s ++ '"' :: rest)) = some (.str s, rest) := by
  have ht := takeWhile_all (· != '"') s ('"' :: rest)
    (fun c hc => by simp only [bne_iff_ne]; intro e; exact h (e ▸ hc))
    (fun c t e => by simp only [List.cons.injEq] at e; simp [← e.1])
  simp [matchScalar, matchDecStr, ht.1, ht.2]

/-! ### Blanks and braces -/

theorem blank_space (s : Str) (h : Blank s) : ∀ c ∈ s, isSpace c = true := by
  intro c hc
  rcases h c hc with rfl | rfl <;> decide

theorem lstrip_blank (a s : Str) (h : Blank a) : lstrip (a ++ s) = lstrip s := by
  unfold lstrip
  have h := blank_space a h
  induction a with
  | nil => rfl
  | cons c a ih =>
    rw [List.cons_append, List.dropWhile_cons, if_pos (h c (by simp))]
    exact ih (fun _ _ => by simp_all [Blank]) (fun c hc => h c (by simp [hc]))

theorem lstrip_start (c : Char) (s : Str) (h : isSpace c = false) : lstrip (c :: s) = c :: s := by
  simp [lstrip, h]

/-- First characters of the text of a value. -/
def Start (c : Char) : Prop := isDec c = true ∨ c = '-' ∨ c = '"' ∨ c = '{'

theorem start_notSpace (c : Char) (h : Start c) : isSpace c = false := by
  rcases h with h | rfl | rfl | rfl
  · unfold isDec at h; simp at h; exact isSpace_digit c (by omega)
  all_goals decide

theorem spells_start (v : InitVal) (s : Str) (h : Spells v s) :
    ∃ c t, s = c :: t ∧ Start c := by
  cases h with
  | dec s n h =>
    obtain ⟨h1, h2, _⟩ := numeral_dec s n h
    obtain ⟨c, t, rfl⟩ := List.exists_cons_of_ne_nil h1
    exact ⟨c, t, rfl, Or.inl (h2 c (by simp))⟩
  | neg s n h => exact ⟨_, _, rfl, by simp [Start]⟩
  | hex s n h => exact ⟨_, _, rfl, Or.inl (by decide)⟩
  | str s h => exact ⟨_, _, rfl, by simp [Start]⟩
  | list l s h => exact ⟨_, _, rfl, by simp [Start]⟩

theorem matchGo_skip (l r : Char) (s t : Str) (k : Nat) (hl : l ∉ s) (hr : r ∉ s) :
    matchGo l r k (s ++ t) = (matchGo l r k t).map fun p => (s ++ p.1, p.2) := by
  induction s with
  | nil => simp
  | cons c s ih =>
    simp only [List.mem_cons, not_or] at hl hr
    simp only [List.cons_append, matchGo]
    rw [if_neg (fun h => hr.1 h.symm), if_neg (fun h => hl.1 h.symm), ih hl.2 hr.2]
    simp [Option.map_map, Function.comp_def]

theorem dec_not_mem (s : Str) (h : ∀ c ∈ s, isHex c = true) : '{' ∉ s ∧ '}' ∉ s :=
  ⟨fun hc => absurd (h _ hc) (by decide), fun hc => absurd (h _ hc) (by decide)⟩

theorem isDec_hex (c : Char) (h : isDec c = true) : isHex c = true := by
  unfold isHex; simp [h]

theorem blank_not_mem (s : Str) (h : Blank s) : '{' ∉ s ∧ '}' ∉ s := by
  constructor <;> (intro hc; rcases h _ hc with h | h <;> exact absurd h (by decide))

mutual
theorem spells_balanced (v : InitVal) (s : Str) (h : Spells v s) (k : Nat) (hk : 1 ≤ k) (t : Str) :
    matchGo '{' '}' k (s ++ t) = (matchGo '{' '}' k t).map fun p => (s ++ p.1, p.2) := by
  match h with
  | .dec s n h =>
    have := dec_not_mem s (fun c hc => isDec_hex c ((numeral_dec s n h).2.1 c hc))
    exact matchGo_skip _ _ _ _ _ this.1 this.2
  | .neg s n h =>
    have := dec_not_mem s (fun c hc => isDec_hex c ((numeral_dec s n h).2.1 c hc))
    exact matchGo_skip _ _ _ _ _ (by simp [this.1]) (by simp [this.2])
  | .hex s n h =>
    have := dec_not_mem s ((numeral_hex s n h).2.1)
    exact matchGo_skip _ _ _ _ _ (by simp [this.1]) (by simp [this.2])
  | .str s h h1 h2 =>
    exact matchGo_skip _ _ _ _ _ (by simp [h1]) (by simp [h2])
  | .list l s h =>
    simp only [List.cons_append, List.append_assoc, matchGo]
    rw [if_neg (by decide), if_pos trivial, items_balanced l s h (k + 1) (by omega)]
    simp only [List.nil_append, matchGo]
    rw [if_pos trivial, if_neg (by omega)]
    simp [Option.map_map, Function.comp_def]

theorem items_balanced (l : List InitVal) (s : Str) (h : SpellsItems l s) (k : Nat) (hk : 1 ≤ k) (t : Str) :
    matchGo '{' '}' k (s ++ t) = (matchGo '{' '}' k t).map fun p => (s ++ p.1, p.2) := by
  match h with
  | .last v s a b hv ha hb =>
    have ha := blank_not_mem a ha
    have hb := blank_not_mem b hb
    simp only [List.append_assoc]
    rw [matchGo_skip _ _ a _ _ ha.1 ha.2, spells_balanced v s hv k hk, matchGo_skip _ _ b _ _ hb.1 hb.2]
    simp [Option.map_map, Function.comp_def]
  | .cons v s a b l u hv ha hb hl =>
    have ha := blank_not_mem a ha
    have hb := blank_not_mem b hb
    simp only [List.append_assoc, List.cons_append]
    rw [matchGo_skip _ _ a _ _ ha.1 ha.2, spells_balanced v s hv k hk, matchGo_skip _ _ b _ _ hb.1 hb.2]
    rw [show ',' :: (u ++ t) = [','] ++ (u ++ t) from rfl, matchGo_skip _ _ [','] _ _ (by decide) (by decide),
      items_balanced l u hl k hk]
    simp [Option.map_map, Function.comp_def]
end

/-! ### Parsing a text of a value -/

theorem ends_blank (b rest : Str) (hb : Blank b) (h : Ends rest) : Ends (b ++ rest) := by
  intro c t e
  cases b with
  | nil => exact h c t e
  | cons d b =>
    simp only [List.cons_append, List.cons.injEq] at e
    rw [← e.1]
    rcases hb d (by simp) with rfl | rfl <;> decide

theorem parseInitF_scalar (n : Nat) (s rest : Str) (v : InitVal) (c : Char) (t : Str) (hs : s = c :: t)
    (hc : isSpace c = false) (hb : c ≠ '{') (h : matchScalar s = some (v, rest)) :
    parseInitF (n + 1) s = .ok (some v, rest) := by
  subst hs
  simp only [parseInitF, lstrip_start c t hc, List.head?_cons, Option.some.injEq]
  rw [if_neg hb, h]

theorem lstrip_lstrip (s : Str) : lstrip (lstrip s) = lstrip s := by
  induction s with
  | nil => rfl
  | cons c s ih =>
    by_cases h : isSpace c
    · have : lstrip (c :: s) = lstrip s := by simp [lstrip, h]
      rw [this]; exact ih
    · have : lstrip (c :: s) = c :: s := lstrip_start c s (by simpa using h)
      rw [this, this]

theorem parseItemsF_lstrip (n : Nat) (s : Str) (h : lstrip s ≠ []) :
    parseItemsF n (lstrip s) = parseItemsF n s := by
  cases n with
  | zero => rfl
  | succ n =>
    have h' : s ≠ [] := by rintro rfl; exact h rfl
    simp only [parseItemsF, lstrip_lstrip]
    rw [if_neg (by simpa using h), if_neg (by simpa using h')]

theorem items_lstrip (l : List InitVal) (s : Str) (h : SpellsItems l s) : lstrip s ≠ [] := by
  cases h with
  | last v s a b hv ha hb =>
    obtain ⟨c, t, hs, hc⟩ := spells_start v s hv
    rw [lstrip_blank a _ ha, hs, List.cons_append, lstrip_start c _ (start_notSpace c hc)]
    simp
  | cons v s a b l u hv ha hb hl =>
    obtain ⟨c, t, hs, hc⟩ := spells_start v s hv
    rw [lstrip_blank a _ ha, hs, List.cons_append, lstrip_start c _ (start_notSpace c hc)]
    simp

mutual
theorem parse_spells (v : InitVal) (s : Str) (h : Spells v s) (rest : Str) (hr : Ends rest) (n : Nat)
    (hn : 2 * s.length + 1 ≤ n) : parseInitF n (s ++ rest) = .ok (some v, rest) := by
  obtain ⟨n, rfl⟩ : ∃ k, n = k + 1 := ⟨n - 1, by omega⟩
  match h with
  | .dec s m h =>
    obtain ⟨h1, h2, h3⟩ := numeral_dec s m h
    have hm := matchScalar_dec s rest h1 h2 hr
    rw [h3] at hm
    obtain ⟨c, t, rfl⟩ := List.exists_cons_of_ne_nil h1
    have hc := h2 c (by simp)
    exact parseInitF_scalar n _ rest _ c (t ++ rest) rfl (start_notSpace c (Or.inl hc))
      (by rintro rfl; exact absurd hc (by decide)) hm
  | .neg s m h =>
    obtain ⟨h1, h2, h3⟩ := numeral_dec s m h
    have hm := matchScalar_neg s rest h1 h2 hr
    rw [h3] at hm
    exact parseInitF_scalar n _ rest _ '-' (s ++ rest) rfl (by decide) (by decide) hm
  | .hex s m h =>
    obtain ⟨h1, h2, h3⟩ := numeral_hex s m h
    have hm := matchScalar_hex s rest h1 h2 hr
    rw [h3] at hm
    exact parseInitF_scalar n _ rest _ '0' ('x' :: (s ++ rest)) rfl (by decide) (by decide) hm
  | .str s h _ _ =>
    have hm := matchScalar_str s rest h
    simp only [List.cons_append, List.append_assoc, List.nil_append]
    exact parseInitF_scalar n _ rest _ '"' _ rfl (by decide) (by decide) hm
  | .list l s h =>
    simp only [List.cons_append, List.append_assoc, List.nil_append, parseInitF]
    rw [lstrip_start _ _ (by decide)]
    simp only [List.head?_cons, if_true]
    have hm : matchPair ('{' :: (s ++ '}' :: rest)) '{' '}' = (some s, rest) := by
      simp only [matchPair, if_true]
      rw [items_balanced l s h 1 (by omega)]
      simp [matchGo]
    rw [hm]
    simp only [List.length_cons, List.length_append, List.length_nil] at hn
    have := parse_items l s h n (by omega)
    simp only [this, ok_bind]

theorem parse_items (l : List InitVal) (s : Str) (h : SpellsItems l s) (n : Nat)
    (hn : 2 * s.length + 2 ≤ n) : parseItemsF n s = .ok (some l) := by
  obtain ⟨n, rfl⟩ : ∃ k, n = k + 1 := ⟨n - 1, by omega⟩
  match h with
  | .last v s a b hv ha hb =>
    obtain ⟨c, t, hs, hc⟩ := spells_start v s hv
    have hl : lstrip (a ++ (s ++ b)) = s ++ b := by
      rw [lstrip_blank a _ ha, hs, List.cons_append, lstrip_start c _ (start_notSpace c hc)]
    simp only [parseItemsF]
    simp only [List.length_append] at hn
    rw [if_neg (by rw [hs]; simp), hl,
      parse_spells v s hv b (by have := ends_blank b [] hb (by simp [Ends]); simpa using this) n (by omega)]
    have hlb : lstrip b = [] := by
      have := lstrip_blank b [] hb
      simpa [lstrip] using this
    simp [hlb]
  | .cons v s a b l u hv ha hb hl' =>
    obtain ⟨c, t, hs, hc⟩ := spells_start v s hv
    have hl : lstrip (a ++ (s ++ (b ++ (',' :: u)))) = s ++ (b ++ (',' :: u)) := by
      rw [lstrip_blank a _ ha, hs, List.cons_append, lstrip_start c _ (start_notSpace c hc)]
    simp only [parseItemsF]
    simp only [List.length_append, List.length_cons] at hn
    rw [if_neg (by rw [hs]; simp), hl,
      parse_spells v s hv (b ++ ',' :: u) (ends_blank b _ hb (by
        intro c t e; simp only [List.cons.injEq] at e; rw [← e.1]; decide)) n (by omega)]
    have hlb : lstrip (b ++ ',' :: u) = ',' :: u := by
      rw [lstrip_blank b _ hb, lstrip_start _ _ (by decide)]
    simp only [ok_bind, hlb, List.head?_cons, if_true, List.tail_cons, Option.getD_some]
    rw [parseItemsF_lstrip n u (items_lstrip l u hl'), parse_items l u hl' n (by omega)]
    rfl
end

/-! ### The printer -/

theorem isDigit_digitChar (d : Nat) (h : d < 10) : IsDigit (digitChar d) d := by
  have : ∀ d < 10, IsDigit (digitChar d) d := by unfold IsDigit; decide
  exact this d h

theorem isDigit_hexDigit (d : Nat) (h : d < 16) : IsDigit (hexDigit d) d := by
  have : ∀ d < 16, IsDigit (hexDigit d) d := by unfold IsDigit; decide
  exact this d h

theorem numeral_natStr (n : Nat) : Numeral 10 (natStr n) n := by
  induction n using natStr.induct with
  | case1 n h =>
    rw [natStr, if_pos h]
    exact .digit _ _ (isDigit_digitChar n h) h
  | case2 n h ih =>
    rw [natStr, if_neg h]
    have := Numeral.snoc _ _ _ _ ih (isDigit_digitChar (n % 10) (by omega)) (by omega)
    rwa [show n / 10 * 10 + n % 10 = n by omega] at this

theorem numeral_hexStr (n : Nat) : Numeral 16 (hexStr n) n := by
  induction n using hexStr.induct with
  | case1 n h =>
    rw [hexStr, if_pos h]
    exact .digit _ _ (isDigit_hexDigit n h) h
  | case2 n h ih =>
    rw [hexStr, if_neg h]
    have := Numeral.snoc _ _ _ _ ih (isDigit_hexDigit (n % 16) (by omega)) (by omega)
    rwa [show n / 16 * 16 + n % 16 = n by omega] at this

mutual
theorem spells_derive (v : InitVal) (h : v.Plain) : Spells v v.derive := by
  match v with
  | .int i =>
    simp only [InitVal.derive]
    split
    · have := Spells.hex _ _ (numeral_hexStr i.toNat)
      rwa [show ((i.toNat : Nat) : Int) = i by omega] at this
    · unfold intStr
      split
      · have := Spells.neg _ _ (numeral_natStr i.natAbs)
        rwa [show -((i.natAbs : Nat) : Int) = i by omega] at this
      · have := Spells.dec _ _ (numeral_natStr i.natAbs)
        rwa [show ((i.natAbs : Nat) : Int) = i by omega] at this
  | .str s => exact .str s h.1 h.2.1 h.2.2
  | .list l => exact .list l _ (spells_deriveList l h.1 h.2)
  | .missing => exact h.elim

theorem spells_deriveList (l : List InitVal) (hl : l ≠ []) (h : AllPlain l) : SpellsItems l (deriveList l) := by
  match l with
  | [v] =>
    have := SpellsItems.last v _ [] [] (spells_derive v h.1) (by simp [Blank]) (by simp [Blank])
    simpa [deriveList] using this
  | v :: w :: l =>
    have := SpellsItems.cons v _ [] [] (w :: l) _ (spells_derive v h.1) (by simp [Blank]) (by simp [Blank])
      (spells_deriveList (w :: l) (by simp) h.2)
    simpa [deriveList] using this
end

theorem parseInit_spells (v : InitVal) (s : Str) (h : Spells v s) (a : Str) (ha : Blank a) (rest : Str)
    (hr : Ends rest) : parseInit (a ++ (s ++ rest)) = .ok (some v, rest) := by
  have hl : parseInitF (2 * (a ++ (s ++ rest)).length + 2) (a ++ (s ++ rest))
      = parseInitF (2 * (a ++ (s ++ rest)).length + 2) (s ++ rest) := by
    rw [show 2 * (a ++ (s ++ rest)).length + 2 = (2 * (a ++ (s ++ rest)).length + 1) + 1 by omega]
    simp only [parseInitF]
    rw [lstrip_blank a _ ha]
  unfold parseInit
  rw [hl]
  exact parse_spells v s h rest hr _ (by simp only [List.length_append]; omega)

end Apx
