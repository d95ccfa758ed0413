import Verif.Spec.Grammar
import Verif.Proofs.Signature

/-! The parser of data signatures accepts the language of `Spec/Grammar`. -/

namespace Apx

theorem isSpace_iff (c : Char) : isSpace c = true ↔ BlankText c := by
  unfold isSpace BlankText
  simp only [Bool.or_eq_true, Bool.and_eq_true, decide_eq_true_eq, List.mem_cons, List.not_mem_nil, or_false]
  omega

theorem digitVal_iff (c : Char) (d : Nat) : digitVal c = some d ↔ DigitIs c d := by
  unfold digitVal DigitIs
  split
  · simp only [Option.some.injEq]; omega
  · simp only [reduceCtorEq, false_iff]; omega

/-! ### Digits -/

theorem DigitIs.ne_underscore {c : Char} {d : Nat} (h : DigitIs c d) : c ≠ '_' := by
  intro e
  subst e
  have h2 := h.2
  have h1 := h.1
  have : ('_' : Char).toNat = 95 := by decide
  omega

/-- What `digitsGo` accepts after some digits have been read. -/
theorem digitsGo_ext (s : Str) : ∀ (p : Str) (acc : Nat), DigitsText p acc →
    (∀ v, digitsGo acc true s = some v → DigitsText (p ++ s) v) ∧
    (∀ v, digitsGo acc false s = some v → ∃ c d t, s = c :: t ∧ DigitIs c d ∧ DigitsText (p ++ '_' :: s) v) := by
  induction s with
  | nil =>
    intro p acc hp
    refine ⟨fun v h => ?_, fun v h => ?_⟩
    · simp [digitsGo] at h
      subst h
      simpa using hp
    · simp [digitsGo] at h
  | cons c s ih =>
    intro p acc hp
    refine ⟨fun v h => ?_, fun v h => ?_⟩
    · simp only [digitsGo] at h
      split at h
      · rename_i hc
        subst hc
        simp only [if_true] at h
        obtain ⟨c', d', t, rfl, hd, ht⟩ := (ih p acc hp).2 v h
        exact ht
      · split at h
        · rename_i d hd
          rw [digitVal_iff] at hd
          have := (ih (p ++ [c]) (acc * 10 + d) (by rw [Nat.mul_comm]; exact .more p acc c d hp hd)).1 v h
          simpa using this
        · cases h
    · simp only [digitsGo] at h
      split at h
      · simp at h
      · split at h
        · rename_i d hd
          rw [digitVal_iff] at hd
          refine ⟨c, d, s, rfl, hd, ?_⟩
          have := (ih (p ++ ['_', c]) (acc * 10 + d) (by rw [Nat.mul_comm]; exact .moreUnderscore p acc c d hp hd)).1 v h
          simpa using this
        · cases h

theorem digitsGo_sound (s : Str) (v : Nat) (h : digitsGo 0 false s = some v) : DigitsText s v := by
  cases s with
  | nil => simp [digitsGo] at h
  | cons c s =>
    simp only [digitsGo] at h
    split at h
    · simp at h
    · split at h
      · rename_i d hd
        rw [digitVal_iff] at hd
        have := (digitsGo_ext s [c] (0 * 10 + d) (by simpa using DigitsText.one c d hd)).1 v h
        simpa using this
      · cases h

theorem digitsGo_step (s t : Str) (acc : Nat) (last : Bool) (v : Nat) (h : digitsGo acc last s = some v)
    (hs : s ≠ [] ∨ last = true) : digitsGo acc last (s ++ t) = digitsGo v true t := by
  induction s generalizing acc last with
  | nil =>
    rcases hs with hs | rfl
    · exact (hs rfl).elim
    · simp [digitsGo] at h
      subst h
      rfl
  | cons c s ih =>
    simp only [digitsGo, List.cons_append] at h ⊢
    split
    · rename_i hc
      rw [if_pos hc] at h
      split
      · rename_i hl
        rw [if_pos hl] at h
        refine ih acc false h (Or.inl ?_)
        intro e
        subst e
        simp [digitsGo] at h
      · rename_i hl
        rw [if_neg hl] at h
        cases h
    · rename_i hc
      rw [if_neg hc] at h
      split
      · rename_i d hd
        simp only [hd] at h
        exact ih _ true h (Or.inr rfl)
      · rename_i hd
        simp only [hd] at h
        cases h

theorem DigitsText.ne_nil {s : Str} {v : Nat} (h : DigitsText s v) : s ≠ [] := by
  cases h <;> simp

theorem digitsGo_complete {s : Str} {v : Nat} (h : DigitsText s v) : digitsGo 0 false s = some v := by
  induction h with
  | one c d hd =>
    have := hd.ne_underscore
    rw [← digitVal_iff] at hd
    simp [digitsGo, this, hd]
  | more s n c d hs hd ih =>
    have hu := hd.ne_underscore
    rw [← digitVal_iff] at hd
    rw [digitsGo_step s [c] 0 false n ih (Or.inl hs.ne_nil)]
    simp [digitsGo, hu, hd, Nat.mul_comm]
  | moreUnderscore s n c d hs hd ih =>
    have hu := hd.ne_underscore
    rw [← digitVal_iff] at hd
    rw [digitsGo_step s ['_', c] 0 false n ih (Or.inl hs.ne_nil)]
    simp [digitsGo, hu, hd, Nat.mul_comm]

theorem digitsText_iff (s : Str) (v : Nat) : digitsGo 0 false s = some v ↔ DigitsText s v :=
  ⟨digitsGo_sound s v, digitsGo_complete⟩

theorem DigitsText.chars {s : Str} {v : Nat} (h : DigitsText s v) : ∀ c ∈ s, c = '_' ∨ ∃ d, DigitIs c d := by
  induction h with
  | one c d hd => simp; exact Or.inr ⟨d, hd⟩
  | more s n c d hs hd ih =>
    intro x hx
    simp only [List.mem_append, List.mem_singleton] at hx
    rcases hx with hx | rfl
    · exact ih x hx
    · exact Or.inr ⟨d, hd⟩
  | moreUnderscore s n c d hs hd ih =>
    intro x hx
    simp only [List.mem_append, List.mem_cons, List.not_mem_nil, or_false] at hx
    rcases hx with hx | rfl | rfl
    · exact ih x hx
    · exact Or.inl rfl
    · exact Or.inr ⟨d, hd⟩

theorem SignedText.chars {s : Str} {v : Int} (h : SignedText s v) :
    ∀ c ∈ s, c = '_' ∨ c = '+' ∨ c = '-' ∨ ∃ d, DigitIs c d := by
  have key : ∀ {t : Str} {n : Nat}, DigitsText t n → ∀ c ∈ t, c = '_' ∨ c = '+' ∨ c = '-' ∨ ∃ d, DigitIs c d := by
    intro t n ht c hc
    rcases ht.chars c hc with h | h
    · exact Or.inl h
    · exact Or.inr (Or.inr (Or.inr h))
  cases h with
  | unsigned s n hd => exact key hd
  | plus s n hd =>
    intro c hc
    rcases List.mem_cons.mp hc with rfl | hc
    · simp
    · exact key hd c hc
  | minus s n hd =>
    intro c hc
    rcases List.mem_cons.mp hc with rfl | hc
    · simp
    · exact key hd c hc

theorem SignedText.notSpace {s : Str} {v : Int} (h : SignedText s v) : ∀ c ∈ s, isSpace c = false := by
  intro c hc
  rcases h.chars c hc with rfl | rfl | rfl | ⟨d, h1, h2⟩
  · decide
  · decide
  · decide
  · unfold isSpace
    simp
    omega

theorem SignedText.ne_nil {s : Str} {v : Int} (h : SignedText s v) : s ≠ [] := by
  cases h with
  | unsigned s n hd => exact hd.ne_nil
  | _ => simp

theorem mem_takeWhile {α : Type} (p : α → Bool) (s : List α) : ∀ c ∈ s.takeWhile p, p c = true := by
  induction s with
  | nil => simp
  | cons x s ih =>
    intro c hc
    simp only [List.takeWhile] at hc
    split at hc
    · rename_i hx
      rcases List.mem_cons.mp hc with rfl | hc
      · exact hx
      · exact ih c hc
    · cases hc

theorem strip_parts (s : Str) : ∃ b1 b2, s = b1 ++ strip s ++ b2 ∧ (∀ c ∈ b1, isSpace c = true) ∧
    (∀ c ∈ b2, isSpace c = true) := by
  have h1 : s = s.takeWhile isSpace ++ lstrip s := (List.takeWhile_append_dropWhile).symm
  have h2 : lstrip s = strip s ++ ((lstrip s).reverse.takeWhile isSpace).reverse := by
    unfold strip rstripP
    rw [← List.reverse_append, List.takeWhile_append_dropWhile, List.reverse_reverse]
  refine ⟨s.takeWhile isSpace, ((lstrip s).reverse.takeWhile isSpace).reverse, ?_, ?_, ?_⟩
  · rw [List.append_assoc, ← h2, ← h1]
  · intro c hc
    exact mem_takeWhile _ _ c hc
  · intro c hc
    exact mem_takeWhile _ _ c (List.mem_reverse.mp hc)

theorem dropWhile_all_append {α : Type} (p : α → Bool) (a b : List α) (h : ∀ c ∈ a, p c = true) :
    (a ++ b).dropWhile p = b.dropWhile p := by
  induction a with
  | nil => rfl
  | cons c a ih =>
    simp only [List.cons_append, List.dropWhile, h c (by simp)]
    exact ih (fun x hx => h x (by simp [hx]))

theorem strip_blanks (b1 t b2 : Str) (h1 : ∀ c ∈ b1, isSpace c = true) (h2 : ∀ c ∈ b2, isSpace c = true)
    (ht : ∀ c ∈ t, isSpace c = false) (hn : t ≠ []) : strip (b1 ++ t ++ b2) = t := by
  unfold strip rstripP lstrip
  have e1 : (b1 ++ t ++ b2).dropWhile isSpace = t ++ b2 := by
    rw [List.append_assoc, dropWhile_all_append _ _ _ h1]
    cases t with
    | nil => exact (hn rfl).elim
    | cons c t => simp [ht c (by simp)]
  rw [e1, List.reverse_append, dropWhile_all_append _ _ _ (by simpa using h2),
    dropWhile_none _ _ (by simpa using ht), List.reverse_reverse]

/-- `int(s)` succeeds exactly for the texts of integers. -/
theorem pyInt_iff (s : Str) (v : Int) : pyInt s = .ok v ↔ IntText s v := by
  constructor
  · intro h
    obtain ⟨b1, b2, hs, hb1, hb2⟩ := strip_parts s
    refine ⟨b1, strip s, b2, hs, fun c hc => (isSpace_iff c).mp (hb1 c hc), fun c hc => (isSpace_iff c).mp (hb2 c hc), ?_⟩
    unfold pyInt at h
    split at h
    · rename_i t ht
      rw [ht]
      split at h
      · rename_i n hn
        cases h
        exact .minus t n (digitsGo_sound _ _ hn)
      · cases h
    · rename_i t ht
      rw [ht]
      split at h
      · rename_i n hn
        cases h
        exact .plus t n (digitsGo_sound _ _ hn)
      · cases h
    · split at h
      · rename_i n hn
        cases h
        exact .unsigned _ n (digitsGo_sound _ _ hn)
      · cases h
  · rintro ⟨b1, t, b2, rfl, hb1, hb2, ht⟩
    have hst := strip_blanks b1 t b2 (fun c hc => (isSpace_iff c).mpr (hb1 c hc)) (fun c hc => (isSpace_iff c).mpr (hb2 c hc))
      ht.notSpace ht.ne_nil
    unfold pyInt
    rw [hst]
    cases ht with
    | plus s n hd => simp [digitsGo_complete hd]
    | minus s n hd => simp [digitsGo_complete hd]
    | unsigned s n hd =>
      have hc := hd.chars
      split
      · rcases hc '-' (by simp) with h | ⟨d, h1, h2⟩
        · exact absurd h (by decide)
        · exact absurd h2 (by have : ('-' : Char).toNat = 45 := by decide
                              omega)
      · rcases hc '+' (by simp) with h | ⟨d, h1, h2⟩
        · exact absurd h (by decide)
        · exact absurd h2 (by have : ('+' : Char).toNat = 43 := by decide
                              omega)
      · simp [digitsGo_complete hd]

theorem IntText.chars {s : Str} {v : Int} (h : IntText s v) :
    ∀ c ∈ s, BlankText c ∨ c = '_' ∨ c = '+' ∨ c = '-' ∨ ∃ d, DigitIs c d := by
  obtain ⟨b1, t, b2, rfl, h1, h2, h3⟩ := h
  intro c hc
  simp only [List.mem_append] at hc
  rcases hc with (hc | hc) | hc
  · exact Or.inl (h1 c hc)
  · exact Or.inr (h3.chars c hc)
  · exact Or.inl (h2 c hc)

/-- A character that occurs in no integer. -/
def NotInt (c : Char) : Prop := ¬ BlankText c ∧ c ≠ '_' ∧ c ≠ '+' ∧ c ≠ '-' ∧ (c.toNat < 48 ∨ 57 < c.toNat)

theorem IntText.not_mem {s : Str} {v : Int} (h : IntText s v) (c : Char) (hc : NotInt c) : c ∉ s := by
  intro hm
  rcases h.chars c hm with h | h | h | h | ⟨d, h1, h2⟩
  · exact hc.1 h
  · exact hc.2.1 h
  · exact hc.2.2.1 h
  · exact hc.2.2.2.1 h
  · have := hc.2.2.2.2
    omega

instance (c : Char) : Decidable (BlankText c) := by unfold BlankText; infer_instance
instance (c : Char) : Decidable (NotInt c) := by unfold NotInt; infer_instance

/-! ### Pairs -/

/-- Text that closes `k` open pairs. -/
inductive Closes (l r : Char) : Nat → Str → Prop
  | zero (s : Str) : Nested l r s → Closes l r 0 s
  | succ (k : Nat) (s t : Str) : Nested l r s → Closes l r k t → Closes l r (k + 1) (s ++ r :: t)

theorem Closes.char {l r : Char} {k : Nat} {s : Str} (c : Char) (h1 : c ≠ l) (h2 : c ≠ r) (h : Closes l r k s) :
    Closes l r k (c :: s) := by
  cases h with
  | zero _ hs => exact .zero _ (.char c s h1 h2 hs)
  | succ k s t hs ht => exact .succ k (c :: s) t (.char c s h1 h2 hs) ht

theorem Closes.pair {l r : Char} {k : Nat} {n s : Str} (hn : Nested l r n) (h : Closes l r k s) :
    Closes l r k (l :: (n ++ r :: s)) := by
  cases h with
  | zero _ hs => exact .zero _ (.pair n s hn hs)
  | succ k s t hs ht =>
    have := Closes.succ k (l :: (n ++ r :: s)) t (.pair n s hn hs) ht
    simpa using this

theorem matchGo_sound (l r : Char) (s : Str) : ∀ (k : Nat) (a b : Str), matchGo l r (k + 1) s = some (a, b) →
    s = a ++ r :: b ∧ Closes l r k a := by
  induction s with
  | nil => intro k a b h; simp [matchGo] at h
  | cons c s ih =>
    intro k a b h
    simp only [matchGo] at h
    split at h
    · rename_i hc
      subst hc
      split at h
      · rename_i hk
        simp only [Option.some.injEq, Prod.mk.injEq] at h
        obtain ⟨rfl, rfl⟩ := h
        obtain rfl : k = 0 := by omega
        exact ⟨rfl, .zero _ .nil⟩
      · obtain ⟨k, rfl⟩ : ∃ j, k = j + 1 := ⟨k - 1, by omega⟩
        simp only [Nat.add_sub_cancel, Option.map_eq_some_iff, Prod.mk.injEq] at h
        obtain ⟨⟨a', b'⟩, h1, rfl, rfl⟩ := h
        obtain ⟨rfl, h2⟩ := ih k a' b' h1
        exact ⟨rfl, .succ k [] a' .nil h2⟩
    · rename_i hr
      split at h
      · rename_i hc
        subst hc
        simp only [Option.map_eq_some_iff, Prod.mk.injEq] at h
        obtain ⟨⟨a', b'⟩, h1, rfl, rfl⟩ := h
        obtain ⟨rfl, h2⟩ := ih (k + 1) a' b' h1
        refine ⟨rfl, ?_⟩
        cases h2 with
        | succ _ n t hn ht => exact Closes.pair hn ht
      · rename_i hl
        simp only [Option.map_eq_some_iff, Prod.mk.injEq] at h
        obtain ⟨⟨a', b'⟩, h1, rfl, rfl⟩ := h
        obtain ⟨rfl, h2⟩ := ih k a' b' h1
        exact ⟨rfl, h2.char c hl hr⟩

theorem matchGo_nested {l r : Char} (hlr : l ≠ r) {n : Str} (hn : Nested l r n) : ∀ (k : Nat) (s : Str),
    matchGo l r (k + 1) (n ++ s) = (matchGo l r (k + 1) s).map fun p => (n ++ p.1, p.2) := by
  induction hn with
  | nil => intro k s; simp
  | char c n h1 h2 _ ih =>
    intro k s
    simp only [List.cons_append, matchGo, if_neg h1, if_neg h2]
    rw [ih, Option.map_map]
    rfl
  | pair n t _ _ ih1 ih2 =>
    intro k s
    simp only [List.cons_append, List.append_assoc, matchGo, if_neg hlr, if_true]
    rw [ih1 (k + 1)]
    simp only [matchGo, if_true, Nat.add_sub_cancel]
    rw [if_neg (by omega), ih2 k]
    simp only [Option.map_map]
    rfl

/-- `match_pair` for different characters. -/
theorem matchPair_iff {l r : Char} (hlr : l ≠ r) (s a b : Str) :
    matchPair s l r = (some a, b) ↔ s = l :: (a ++ r :: b) ∧ Nested l r a := by
  constructor
  · intro h
    unfold matchPair at h
    split at h
    · cases h
    · split at h
      · rename_i hc
        subst hc
        split at h
        · rename_i a' b' hm
          simp only [Prod.mk.injEq, Option.some.injEq] at h
          obtain ⟨rfl, rfl⟩ := h
          obtain ⟨rfl, h2⟩ := matchGo_sound _ _ _ 0 _ _ hm
          cases h2
          exact ⟨rfl, by assumption⟩
        · cases h
      · cases h
  · rintro ⟨rfl, hn⟩
    have := matchGo_nested hlr hn 0 (r :: b)
    simp only [matchGo, if_true, Nat.zero_add, Nat.sub_self, Option.map_some, List.append_nil] at this
    simp [matchPair, this]

theorem matchGo_quote (q : Char) (s : Str) : ∀ (a b : Str), matchGo q q 1 s = some (a, b) → q ∉ a := by
  induction s with
  | nil => intro a b h; simp [matchGo] at h
  | cons c s ih =>
    intro a b h
    simp only [matchGo] at h
    split at h
    · simp only [Nat.sub_self, if_true, Option.some.injEq, Prod.mk.injEq] at h
      obtain ⟨rfl, rfl⟩ := h
      simp
    · rename_i hc
      simp only [Option.map_eq_some_iff, Prod.mk.injEq] at h
      obtain ⟨⟨a', b'⟩, h1, rfl, rfl⟩ := h
      simp only [List.mem_cons, not_or]
      exact ⟨fun e => hc e.symm, ih a' b' h1⟩

/-- `match_pair` for quotes. -/
theorem matchPair_quotes (q : Char) (s a b : Str) :
    matchPair s q q = (some a, b) ↔ s = q :: (a ++ q :: b) ∧ q ∉ a := by
  constructor
  · intro h
    unfold matchPair at h
    split at h
    · cases h
    · split at h
      · rename_i hc
        subst hc
        split at h
        · rename_i a' b' hm
          simp only [Prod.mk.injEq, Option.some.injEq] at h
          obtain ⟨rfl, rfl⟩ := h
          obtain ⟨rfl, h2⟩ := matchGo_sound _ _ _ 0 _ _ hm
          exact ⟨rfl, matchGo_quote _ _ _ _ hm⟩
        · cases h
      · cases h
  · rintro ⟨rfl, hn⟩
    exact matchPair_simple q q a b hn hn

theorem Nested.drop {l r : Char} (p : Str) {s : Str} (hp : l ∉ p ∧ r ∉ p) (h : Nested l r (p ++ s)) : Nested l r s := by
  induction p with
  | nil => exact h
  | cons c p ih =>
    simp only [List.mem_cons, not_or] at hp
    have hp' : l ∉ p ∧ r ∉ p := ⟨hp.1.2, hp.2.2⟩
    generalize hq : c :: p ++ s = q at h
    cases h with
    | nil => cases hq
    | char _ _ _ _ h' =>
      simp only [List.cons_append, List.cons.injEq] at hq
      rw [← hq.2] at h'
      exact ih hp' h'
    | pair =>
      simp only [List.cons_append, List.cons.injEq] at hq
      exact (hp.1.1 hq.1.symm).elim

theorem Nested.dropLast {l r c : Char} (h1 : c ≠ l) (h2 : c ≠ r) {q : Str} (h : Nested l r q) :
    ∀ s, q = s ++ [c] → Nested l r s := by
  induction h with
  | nil => intro s hs; simp at hs
  | char d t hd1 hd2 _ ih =>
    intro s hs
    cases s with
    | nil => exact .nil
    | cons x s =>
      simp only [List.cons_append, List.cons.injEq] at hs
      obtain ⟨rfl, rfl⟩ := hs
      exact .char d s hd1 hd2 (ih s rfl)
  | pair a t ha _ _ ih =>
    intro s hs
    rcases List.eq_nil_or_concat t with rfl | ⟨t', d, rfl⟩
    · have : ((l :: (a ++ r :: [])).getLast?) = some r := by
        rw [← List.cons_append]; exact List.getLast?_concat ..
      rw [hs] at this
      simp at this
      exact (h2 this).elim
    · have : l :: (a ++ r :: (t' ++ [d])) = (l :: (a ++ r :: t')) ++ [d] := by simp
      rw [List.concat_eq_append, this] at hs
      obtain ⟨rfl, h3⟩ := List.append_inj' hs rfl
      simp only [List.cons.injEq, and_true] at h3
      subst h3
      exact .pair a t' ha (ih t' List.concat_eq_append)

theorem Nested.prepend {l r : Char} (p : Str) {s : Str} (hp : l ∉ p ∧ r ∉ p) (h : Nested l r s) : Nested l r (p ++ s) := by
  induction p with
  | nil => exact h
  | cons c p ih =>
    simp only [List.mem_cons, not_or] at hp
    exact .char c _ (fun e => hp.1.1 e.symm) (fun e => hp.2.1 e.symm) (ih ⟨hp.1.2, hp.2.2⟩)

theorem Nested.of_not_mem {l r : Char} (p : Str) (hp : l ∉ p ∧ r ∉ p) : Nested l r p := by
  simpa using Nested.prepend p hp .nil

theorem splitOn_inv (sep : Char) (s x : Str) (xs : List Str) (h : splitOn sep s = x :: xs) :
    sep ∉ x ∧ ((xs = [] ∧ s = x) ∨ ∃ t, s = x ++ sep :: t ∧ splitOn sep t = xs) := by
  induction s generalizing x xs with
  | nil =>
    simp only [splitOn, List.cons.injEq] at h
    obtain ⟨rfl, rfl⟩ := h
    simp
  | cons c s ih =>
    simp only [splitOn] at h
    split at h
    · rename_i hc
      subst hc
      simp only [List.cons.injEq] at h
      obtain ⟨rfl, rfl⟩ := h
      exact ⟨by simp, Or.inr ⟨s, rfl, rfl⟩⟩
    · rename_i hc
      split at h
      · rename_i he
        cases s <;> simp [splitOn] at he
        split at he
        · simp at he
        · split at he <;> simp at he
      · rename_i y ys he
        simp only [List.cons.injEq] at h
        obtain ⟨rfl, rfl⟩ := h
        obtain ⟨h1, h2⟩ := ih y ys he
        refine ⟨by simp only [List.mem_cons, not_or]; exact ⟨fun e => hc e.symm, h1⟩, ?_⟩
        rcases h2 with ⟨rfl, rfl⟩ | ⟨t, rfl, h3⟩
        · exact Or.inl ⟨rfl, rfl⟩
        · exact Or.inr ⟨t, rfl, h3⟩

theorem splitOn_nonempty (sep : Char) (s : Str) : splitOn sep s ≠ [] := by
  cases s with
  | nil => simp [splitOn]
  | cons c s =>
    simp only [splitOn]
    split
    · simp
    · split <;> simp

/-! ### Ranges and lengths -/

theorem parseExtended_iff (text : Str) (mn mx : Int) : parseExtended text = .ok (mn, mx) ↔
    ∃ a b, IntText a mn ∧ IntText b mx ∧ (text = a ++ ',' :: b ∨ ∃ junk, text = a ++ ',' :: b ++ ',' :: junk) := by
  constructor
  · intro h
    unfold parseExtended at h
    split at h
    · rename_i a b xs hs
      rw [bind_ok_iff] at h
      obtain ⟨v, h1, h⟩ := h
      rw [bind_ok_iff] at h
      obtain ⟨w, h2, h⟩ := h
      cases h
      rw [pyInt_iff] at h1 h2
      refine ⟨a, b, h1, h2, ?_⟩
      obtain ⟨-, ⟨h3, -⟩ | ⟨t, rfl, h4⟩⟩ := splitOn_inv _ _ _ _ hs
      · cases h3
      · obtain ⟨-, ⟨h5, rfl⟩ | ⟨u, rfl, h6⟩⟩ := splitOn_inv _ _ _ _ h4
        · exact Or.inl rfl
        · exact Or.inr ⟨u, by simp⟩
    · cases h
  · rintro ⟨a, b, ha, hb, h⟩
    have ha' := ha.not_mem ',' (by decide)
    have hb' := hb.not_mem ',' (by decide)
    rw [← pyInt_iff] at ha hb
    unfold parseExtended
    rcases h with rfl | ⟨junk, rfl⟩
    · rw [splitOn_append _ _ _ ha', splitOn_none _ _ hb']
      simp [ha, hb]
    · rw [List.append_assoc, List.cons_append, splitOn_append _ _ _ ha', splitOn_append _ _ _ hb']
      simp [ha, hb]

theorem parseRange_sound (s : Str) (mn mx : Option Int) (rest : Str) (h : parseRange s = .ok (mn, mx, rest)) :
    ∃ t, s = t ++ rest ∧ RangeText t mn mx := by
  unfold parseRange at h
  split at h
  · split at h
    · cases h
    · rename_i data r hm
      rw [bind_ok_iff] at h
      obtain ⟨⟨a, b⟩, h1, h⟩ := h
      cases h
      obtain ⟨rfl, hn⟩ := (matchPair_iff (by decide) _ _ _).mp hm
      obtain ⟨x, y, hx, hy, rfl | ⟨junk, rfl⟩⟩ := (parseExtended_iff _ _ _).mp h1
      · exact ⟨_, by simp, .two x y a b hx hy⟩
      · refine ⟨'(' :: (x ++ ',' :: y ++ ',' :: junk ++ [')']), by simp, .more x y junk a b hx hy ?_⟩
        have : Nested '(' ')' ((x ++ ',' :: (y ++ [','])) ++ junk) := by simpa using hn
        refine Nested.drop _ ?_ this
        simp only [List.mem_append, List.mem_cons, List.not_mem_nil, or_false, not_or]
        exact ⟨⟨hx.not_mem _ (by decide), by decide, hy.not_mem _ (by decide), by decide⟩,
          ⟨hx.not_mem _ (by decide), by decide, hy.not_mem _ (by decide), by decide⟩⟩
  · cases h
    exact ⟨[], rfl, .none⟩

theorem parseRange_complete {t : Str} {mn mx : Option Int} (h : RangeText t mn mx) (rest : Str)
    (hr : rest.head? ≠ some '(') : parseRange (t ++ rest) = .ok (mn, mx, rest) := by
  cases h with
  | none => simp only [List.nil_append, parseRange]; rw [if_neg hr]
  | two a b mn mx ha hb =>
    have e : '(' :: (a ++ ',' :: b ++ [')']) ++ rest = '(' :: ((a ++ ',' :: b) ++ ')' :: rest) := by simp
    rw [e]
    have hm : matchPair ('(' :: ((a ++ ',' :: b) ++ ')' :: rest)) '(' ')' = (some (a ++ ',' :: b), rest) := by
      apply matchPair_simple <;>
      · simp only [List.mem_append, List.mem_cons, not_or]
        exact ⟨ha.not_mem _ (by decide), by decide, hb.not_mem _ (by decide)⟩
    unfold parseRange
    rw [if_pos (by rfl), hm]
    simp only [(parseExtended_iff _ _ _).mpr ⟨a, b, ha, hb, Or.inl rfl⟩, ok_bind]
  | more a b junk mn mx ha hb hj =>
    have e : '(' :: (a ++ ',' :: b ++ ',' :: junk ++ [')']) ++ rest = '(' :: ((a ++ ',' :: b ++ ',' :: junk) ++ ')' :: rest) := by
      simp
    rw [e]
    have hm : matchPair ('(' :: ((a ++ ',' :: b ++ ',' :: junk) ++ ')' :: rest)) '(' ')'
        = (some (a ++ ',' :: b ++ ',' :: junk), rest) := by
      rw [matchPair_iff (by decide)]
      refine ⟨rfl, ?_⟩
      have : a ++ ',' :: b ++ ',' :: junk = (a ++ ',' :: (b ++ [','])) ++ junk := by simp
      rw [this]
      refine Nested.prepend _ ?_ hj
      simp only [List.mem_append, List.mem_cons, List.not_mem_nil, or_false, not_or]
      exact ⟨⟨ha.not_mem _ (by decide), by decide, hb.not_mem _ (by decide), by decide⟩,
        ⟨ha.not_mem _ (by decide), by decide, hb.not_mem _ (by decide), by decide⟩⟩
    unfold parseRange
    rw [if_pos (by rfl), hm]
    simp only [(parseExtended_iff _ _ _).mpr ⟨a, b, ha, hb, Or.inr ⟨junk, rfl⟩⟩, ok_bind]

theorem parseArray_sound (s : Str) (n : Option Nat) (rest : Str) (h : parseArray s = .ok (n, rest)) :
    ∃ t, s = t ++ rest ∧ ArrayText t n := by
  unfold parseArray at h
  split at h
  · split at h
    · cases h
    · rename_i value r hm
      rw [bind_ok_iff] at h
      obtain ⟨v, h1, h⟩ := h
      split at h
      · cases h
      · cases h
        obtain ⟨rfl, hn⟩ := (matchPair_iff (by decide) _ _ _).mp hm
        rw [pyInt_iff] at h1
        refine ⟨'[' :: (value ++ [']']), by simp, .len value v.toNat ?_⟩
        rw [Int.toNat_of_nonneg (by omega)]
        exact h1
  · cases h
    exact ⟨[], rfl, .none⟩

theorem parseArray_complete {t : Str} {n : Option Nat} (h : ArrayText t n) (rest : Str)
    (hr : rest.head? ≠ some '[') : parseArray (t ++ rest) = .ok (n, rest) := by
  cases h with
  | none => simp only [List.nil_append, parseArray]; rw [if_neg hr]
  | len a n ha =>
    have e : '[' :: (a ++ [']']) ++ rest = '[' :: (a ++ ']' :: rest) := by simp
    rw [e]
    unfold parseArray
    rw [if_pos (by rfl), matchPair_simple _ _ _ _ (ha.not_mem _ (by decide)) (ha.not_mem _ (by decide))]
    simp only [(pyInt_iff _ _).mpr ha, ok_bind]
    rw [if_neg (by omega)]
    simp

theorem codeOfLetter_iff (c : Char) (tc : TypeCode) : codeOfLetter c = some tc ↔ c = letterOf tc := by
  constructor
  · intro h
    unfold codeOfLetter at h
    repeat' split at h
    all_goals first
      | (cases h; assumption)
      | cases h
  · rintro rfl
    cases tc <;> decide

theorem parseRef_sound (s : Str) (e : Elem) (rest : Str) (h : parseRef s = .ok (e, rest)) :
    ∃ t, s = t ++ rest ∧ SigText ('T' :: t) e := by
  unfold parseRef at h
  split at h
  · cases h
  · rename_i data r hm
    obtain ⟨rfl, hn⟩ := (matchPair_iff (by decide) _ _ _).mp hm
    split at h
    · rename_i d2 r3 hq
      split at h
      · rename_i hl
        cases h
        rw [List.length_eq_zero_iff] at hl
        subst hl
        obtain ⟨rfl, hq2⟩ := (matchPair_quotes _ _ _ _).mp hq
        refine ⟨'[' :: '"' :: (d2 ++ ['"', ']']), by simp, .refName d2 hq2 ?_⟩
        have h1 : Nested '[' ']' (['"'] ++ (d2 ++ ['"'])) := hn
        have h2 := Nested.drop ['"'] (by decide) h1
        exact Nested.dropLast (by decide) (by decide) h2 d2 rfl
      · cases h
    · rw [bind_ok_iff] at h
      obtain ⟨i, h1, h⟩ := h
      cases h
      exact ⟨'[' :: (data ++ [']']), by simp, .refId data i ((pyInt_iff _ _).mp h1)⟩

theorem parseRef_name_complete (s rest : Str) (hq : QuoteFree s) (hn : Nested '[' ']' s) :
    parseRef ('[' :: '"' :: (s ++ ['"', ']']) ++ rest) = .ok (.refName s, rest) := by
  have e : '[' :: '"' :: (s ++ ['"', ']']) ++ rest = '[' :: (('"' :: (s ++ ['"'])) ++ ']' :: rest) := by simp
  have hn' : Nested '[' ']' ('"' :: (s ++ ['"'])) := by
    refine .char _ _ (by decide) (by decide) ?_
    induction hn with
    | nil => exact .char _ _ (by decide) (by decide) .nil
    | char c s h1 h2 _ ih => exact .char c _ h1 h2 (ih (fun h => hq (by simp [h])) (by simp))
    | pair a t ha _ _ ih =>
      have := Nested.pair a (t ++ ['"']) ha (ih (fun h => hq (by simp [h])) (by simp))
      simpa using this
  rw [e]
  unfold parseRef
  rw [(matchPair_iff (by decide) _ _ _).mpr ⟨rfl, hn'⟩]
  simp only []
  rw [matchPair_simple '"' '"' s [] hq hq]
  simp

theorem parseRef_id_complete (s rest : Str) (i : Int) (h : IntText s i) :
    parseRef ('[' :: (s ++ [']']) ++ rest) = .ok (.refId i, rest) := by
  have e : '[' :: (s ++ [']']) ++ rest = '[' :: (s ++ ']' :: rest) := by simp
  rw [e]
  unfold parseRef
  rw [matchPair_simple '[' ']' _ _ (h.not_mem _ (by decide)) (h.not_mem _ (by decide))]
  simp only []
  rw [matchPair_other]
  · simp [(pyInt_iff _ _).mpr h]
  · intro hh
    have : '"' ∈ s := by
      cases s with
      | nil => simp at hh
      | cons c t => simp at hh; simp [hh]
    exact h.not_mem '"' (by decide) this

/-! ### Signatures -/

theorem matchPair_quote_sound (s : Str) (name : Option Str) (t : Str) (h : matchPair s '"' '"' = (name, t)) (ht : t ≠ []) :
    (name = none ∧ t = s) ∨ ∃ n, name = some n ∧ s = '"' :: (n ++ '"' :: t) ∧ QuoteFree n := by
  cases name with
  | some n => exact Or.inr ⟨n, rfl, (matchPair_quotes _ _ _ _).mp h⟩
  | none =>
    left
    refine ⟨rfl, ?_⟩
    unfold matchPair at h
    split at h
    · cases h; exact (ht rfl).elim
    · split at h
      · split at h
        · cases h
        · cases h; exact (ht rfl).elim
      · cases h; rfl

theorem parseSigF_none (n : Nat) (s r : Str) (h : parseSigF n s = .ok (none, r)) : r = s := by
  cases n with
  | zero => simp [parseSigF] at h
  | succ n =>
    cases s with
    | nil => simp [parseSigF] at h
    | cons c s =>
      simp only [parseSigF] at h
      split at h
      · rw [bind_ok_iff] at h
        obtain ⟨_, _, h⟩ := h
        cases h
      · split at h
        · rw [bind_ok_iff] at h
          obtain ⟨_, _, h⟩ := h
          cases h
        · split at h
          · cases h; rfl
          · rw [bind_ok_iff] at h
            obtain ⟨_, _, h⟩ := h
            cases h

theorem parse_sound (n : Nat) :
    (∀ s e r, parseSigF n s = .ok (some e, r) → ∃ t, s = t ++ r ∧ SigText t e) ∧
    (∀ s fs r, parseRecF n s = .ok (fs, r) → ∃ t, s = t ++ r ∧ FieldsText t fs) := by
  induction n with
  | zero => simp [parseSigF, parseRecF]
  | succ n ih =>
    constructor
    · intro s e r h
      cases s with
      | nil => simp [parseSigF] at h
      | cons c s =>
        simp only [parseSigF] at h
        split at h
        · rename_i hc
          subst hc
          rw [bind_ok_iff] at h
          obtain ⟨⟨fs, r'⟩, h1, h⟩ := h
          cases h
          obtain ⟨t, rfl, ht⟩ := ih.2 _ _ _ h1
          exact ⟨'{' :: t, rfl, .record t fs ht⟩
        · split at h
          · rename_i hc
            subst hc
            rw [bind_ok_iff] at h
            obtain ⟨⟨e', r'⟩, h1, h⟩ := h
            cases h
            obtain ⟨t, rfl, ht⟩ := parseRef_sound _ _ _ h1
            exact ⟨'T' :: t, rfl, ht⟩
          · split at h
            · cases h
            · rename_i tc hc
              rw [codeOfLetter_iff] at hc
              subst hc
              rw [bind_ok_iff] at h
              obtain ⟨⟨e', r'⟩, h1, h⟩ := h
              cases h
              unfold parsePrim at h1
              rw [bind_ok_iff] at h1
              obtain ⟨⟨mn, mx, r1⟩, h2, h1⟩ := h1
              rw [bind_ok_iff] at h1
              obtain ⟨⟨a, r2⟩, h3, h1⟩ := h1
              cases h1
              obtain ⟨t1, rfl, ht1⟩ := parseRange_sound _ _ _ _ h2
              obtain ⟨t2, rfl, ht2⟩ := parseArray_sound _ _ _ h3
              exact ⟨letterOf tc :: (t1 ++ t2), by simp, .prim tc t1 t2 mn mx a ht1 ht2⟩
    · intro s fs r h
      simp only [parseRecF] at h
      split at h
      · cases h
      · split at h
        · cases h
        · rename_i hs hl
          cases hm : matchPair s '"' '"' with
          | mk name t =>
            rw [hm] at h hl
            simp only at h hl
            have hname := matchPair_quote_sound s name t hm (by intro e; subst e; simp at hl)
            rw [bind_ok_iff] at h
            obtain ⟨⟨ce, r1⟩, h1, h⟩ := h
            cases ce with
            | none =>
              simp only [] at h
              split at h
              · rename_i hh
                cases h
                have := parseSigF_none _ _ _ h1
                subst this
                obtain ⟨x, hx⟩ : ∃ x, r1 = '}' :: x := by
                  cases r1 with
                  | nil => simp at hh
                  | cons c x => simp at hh; exact ⟨x, by rw [hh]⟩
                subst hx
                rcases hname with ⟨rfl, rfl⟩ | ⟨m, rfl, rfl, hq⟩
                · exact ⟨['}'], rfl, .close⟩
                · exact ⟨'"' :: (m ++ ['"', '}']), by simp, .closeNamed m hq⟩
              · cases h
            | some e =>
              simp only [] at h
              rw [bind_ok_iff] at h
              obtain ⟨⟨fs', r2⟩, h2, h⟩ := h
              cases h
              obtain ⟨t1, rfl, ht1⟩ := ih.1 _ _ _ h1
              obtain ⟨t2, rfl, ht2⟩ := ih.2 _ _ _ h2
              rcases hname with ⟨rfl, rfl⟩ | ⟨m, rfl, rfl, hq⟩
              · exact ⟨t1 ++ t2, by simp, .nameless t1 t2 e fs' ht1 ht2⟩
              · exact ⟨'"' :: (m ++ '"' :: (t1 ++ t2)), by simp, .field m t1 t2 e fs' hq ht1 ht2⟩

theorem SigText.head {s : Str} {e : Elem} (h : SigText s e) :
    ∃ c t, s = c :: t ∧ c ≠ '"' ∧ c ≠ '(' ∧ c ≠ '[' ∧ c ≠ '}' := by
  cases h with
  | prim tc r a => exact ⟨_, _, rfl, by cases tc <;> decide⟩
  | refName s => exact ⟨_, _, rfl, by decide⟩
  | refId s => exact ⟨_, _, rfl, by decide⟩
  | record s => exact ⟨_, _, rfl, by decide⟩

theorem FieldsText.stops {s : Str} {fs : Fields} (h : FieldsText s fs) (rest : Str) : Stops (s ++ rest) := by
  cases h with
  | close => simp [Stops]
  | closeNamed => simp [Stops]
  | field => simp [Stops]
  | nameless s t e fs hs _ =>
    obtain ⟨c, u, rfl, h1, h2, h3, h4⟩ := hs.head
    simp [Stops, h2, h3]

mutual
theorem SigText.parse {s : Str} {e : Elem} (h : SigText s e) : ∀ (rest : Str) (n : Nat), Stops rest →
    2 * (s ++ rest).length + 1 ≤ n → parseSigF n (s ++ rest) = .ok (some e, rest) := by
  intro rest n hr hn
  obtain ⟨n, rfl⟩ : ∃ k, n = k + 1 := ⟨n - 1, by omega⟩
  match h with
  | .prim tc r a mn mx al h1 h2 =>
    have hl : letterOf tc ≠ '{' ∧ letterOf tc ≠ 'T' := by cases tc <;> decide
    simp only [List.cons_append, parseSigF, if_neg hl.1, if_neg hl.2, (codeOfLetter_iff _ _).mpr rfl, parsePrim]
    have ha : (a ++ rest).head? ≠ some '(' := by
      cases h2 with
      | none => exact hr.1
      | len => simp
    rw [List.append_assoc, parseRange_complete h1 _ ha]
    simp only [ok_bind]
    rw [parseArray_complete h2 _ hr.2]
    simp only [ok_bind]
  | .refName s h1 h2 =>
    have hc : ('T' : Char) ≠ '{' := by decide
    simp only [List.cons_append, parseSigF, if_neg hc, if_true]
    have := parseRef_name_complete s rest h1 h2
    simp only [List.cons_append] at this
    rw [this]
    rfl
  | .refId s i h1 =>
    have hc : ('T' : Char) ≠ '{' := by decide
    simp only [List.cons_append, parseSigF, if_neg hc, if_true]
    have := parseRef_id_complete s rest i h1
    simp only [List.cons_append] at this
    rw [this]
    rfl
  | .record s fs h1 =>
    simp only [List.cons_append, parseSigF, if_true]
    rw [FieldsText.parse h1 rest n (by simp at hn ⊢; omega)]
    rfl
theorem FieldsText.parse {s : Str} {fs : Fields} (h : FieldsText s fs) : ∀ (rest : Str) (n : Nat),
    2 * (s ++ rest).length + 2 ≤ n → parseRecF n (s ++ rest) = .ok (fs, rest) := by
  intro rest n hn
  obtain ⟨n, rfl⟩ : ∃ k, n = k + 1 := ⟨n - 1, by omega⟩
  have hclose : ∀ (n : Nat) (rest : Str), 1 ≤ n → parseSigF n ('}' :: rest) = .ok (none, '}' :: rest) := by
    intro n rest hn
    obtain ⟨n, rfl⟩ : ∃ k, n = k + 1 := ⟨n - 1, by omega⟩
    simp [parseSigF, codeOfLetter]
  match h with
  | .close =>
    simp only [List.cons_append, List.nil_append, parseRecF]
    rw [if_neg (by simp), matchPair_other _ _ _ (by simp)]
    simp only [List.length_cons, Nat.add_eq_zero_iff, Nat.succ_ne_self, and_false, if_false]
    rw [hclose n rest (by simp at hn; omega)]
    simp
  | .closeNamed m hq =>
    have e : '"' :: (m ++ ['"', '}']) ++ rest = '"' :: (m ++ '"' :: ('}' :: rest)) := by simp
    rw [e]
    simp only [parseRecF]
    rw [if_neg (by simp), matchPair_simple '"' '"' m _ hq hq]
    simp only [List.length_cons, Nat.add_eq_zero_iff, Nat.succ_ne_self, and_false, if_false]
    rw [hclose n rest (by simp at hn; omega)]
    simp
  | .field m s t e fs hq h1 h2 =>
    have e : '"' :: (m ++ '"' :: (s ++ t)) ++ rest = '"' :: (m ++ '"' :: (s ++ (t ++ rest))) := by simp
    rw [e] at hn ⊢
    simp only [parseRecF]
    rw [if_neg (by simp), matchPair_simple '"' '"' m _ hq hq]
    obtain ⟨c, u, hs, -⟩ := h1.head
    simp only
    rw [if_neg (by rw [hs]; simp), SigText.parse h1 (t ++ rest) n (h2.stops rest) (by simp at hn ⊢; omega)]
    simp only [ok_bind]
    rw [FieldsText.parse h2 rest n (by simp at hn ⊢; omega)]
    rfl
  | .nameless s t e fs h1 h2 =>
    rw [List.append_assoc] at hn ⊢
    obtain ⟨c, u, hs, hc, -⟩ := h1.head
    simp only [parseRecF]
    rw [if_neg (by rw [hs]; simp), matchPair_other _ _ _ (by rw [hs]; simp [hc])]
    simp only
    rw [if_neg (by rw [hs]; simp), SigText.parse h1 (t ++ rest) n (h2.stops rest) (by omega)]
    simp only [ok_bind]
    rw [FieldsText.parse h2 rest n (by rw [hs] at hn; simp at hn ⊢; omega)]
    rfl
end

end Apx
