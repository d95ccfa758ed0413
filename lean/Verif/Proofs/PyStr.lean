import Verif.Model.PyStr

namespace Apx

theorem matchGo_one (l r : Char) (a b : Str) (hl : l ∉ a) (hr : r ∉ a) :
    matchGo l r 1 (a ++ r :: b) = some (a, b) := by
  induction a with
  | nil => simp [matchGo]
  | cons c a ih =>
    simp only [List.mem_cons, not_or] at hl hr
    simp only [List.cons_append, matchGo]
    rw [if_neg (fun h => hr.1 h.symm), if_neg (fun h => hl.1 h.symm), ih hl.2 hr.2]
    rfl

theorem matchPair_simple (l r : Char) (a b : Str) (hl : l ∉ a) (hr : r ∉ a) :
    matchPair (l :: (a ++ r :: b)) l r = (some a, b) := by
  simp [matchPair, matchGo_one l r a b hl hr]

theorem matchPair_other (s : Str) (l r : Char) (h : s.head? ≠ some l) : matchPair s l r = (none, s) := by
  cases s with
  | nil => rfl
  | cons c t =>
    simp only [matchPair]
    rw [if_neg (by simpa using h)]

/-- Where a quoted text ends nothing else matters: the text before the first closing quote. -/
theorem matchGo_length (l r : Char) (n : Nat) (s a b : Str) (h : matchGo l r n s = some (a, b)) :
    a.length + b.length + 1 = s.length := by
  induction s generalizing n a b with
  | nil => simp [matchGo] at h
  | cons c s ih =>
    have key : ∀ m, (matchGo l r m s).map (fun (p : Str × Str) => (c :: p.1, p.2)) = some (a, b) →
        a.length + b.length + 1 = (c :: s).length := by
      intro m hm
      rw [Option.map_eq_some_iff] at hm
      obtain ⟨⟨a', b'⟩, h1, h2⟩ := hm
      simp only [Prod.mk.injEq] at h2
      obtain ⟨rfl, rfl⟩ := h2
      have := ih m _ _ h1
      simp; omega
    simp only [matchGo] at h
    split at h
    · split at h
      · simp only [Option.some.injEq, Prod.mk.injEq] at h
        obtain ⟨rfl, rfl⟩ := h
        simp
      · exact key _ h
    · split at h
      · exact key _ h
      · exact key _ h

theorem matchPair_length (s : Str) (l r : Char) : (matchPair s l r).2.length ≤ s.length := by
  unfold matchPair
  split
  · simp
  · split
    · split
      · rename_i a b h
        have := matchGo_length _ _ _ _ _ _ h
        simp; omega
      · simp
    · simp

theorem matchPair_some_length (s : Str) (l r : Char) (a b : Str) (h : matchPair s l r = (some a, b)) :
    b.length < s.length := by
  unfold matchPair at h
  split at h
  · simp at h
  · split at h
    · split at h
      · rename_i a' b' h'
        have := matchGo_length _ _ _ _ _ _ h'
        simp only [Prod.mk.injEq, Option.some.injEq] at h
        obtain ⟨rfl, rfl⟩ := h
        simp; omega
      · simp at h
    · simp at h

theorem digitChar_toNat (d : Nat) (h : d < 10) : (digitChar d).toNat = 48 + d := by
  unfold digitChar
  have hv : (48 + d).isValidChar := by unfold Nat.isValidChar; omega
  simp only [Char.ofNat, hv, dif_pos]
  rfl

theorem digitVal_digitChar (d : Nat) (h : d < 10) : digitVal (digitChar d) = some d := by
  unfold digitVal
  rw [digitChar_toNat d h, if_pos (by omega)]
  simp

theorem digitChar_ne (d : Nat) (h : d < 10) (c : Char) (hc : c.toNat < 48 ∨ 57 < c.toNat) :
    digitChar d ≠ c := by
  intro e
  have := digitChar_toNat d h
  rw [e] at this
  omega

theorem natStr_chars (n : Nat) : ∀ c ∈ natStr n, 48 ≤ c.toNat ∧ c.toNat ≤ 57 := by
  induction n using natStr.induct with
  | case1 n h =>
    rw [natStr, if_pos h]
    intro c hc
    simp only [List.mem_singleton] at hc
    subst hc
    rw [digitChar_toNat n h]; omega
  | case2 n h ih =>
    rw [natStr, if_neg h]
    intro c hc
    simp only [List.mem_append, List.mem_singleton] at hc
    rcases hc with hc | rfl
    · exact ih c hc
    · rw [digitChar_toNat _ (by omega)]; omega

theorem natStr_ne_nil (n : Nat) : natStr n ≠ [] := by
  rw [natStr]; split <;> simp

theorem digitsGo_append (s : Str) (acc : Nat) (last : Bool) (d : Nat) (hd : d < 10)
    (m : Nat) (h : digitsGo acc last s = some m) (hs : s ≠ [] ∨ last = true) :
    digitsGo acc last (s ++ [digitChar d]) = some (m * 10 + d) := by
  have hu : digitChar d ≠ '_' := digitChar_ne d hd _ (by decide)
  induction s generalizing acc last with
  | nil =>
    simp only [digitsGo] at h
    split at h
    · simp only [Option.some.injEq] at h; subst h
      simp [digitsGo, hu, digitVal_digitChar d hd]
    · simp at h
  | cons c s ih =>
    simp only [digitsGo, List.cons_append] at h ⊢
    split at h
    · rename_i hc
      rw [if_pos hc]
      split at h
      · rename_i hl
        rw [if_pos hl]
        by_cases hs : s = []
        · subst hs; simp [digitsGo] at h
        · exact ih _ _ h (Or.inl hs)
      · simp at h
    · rename_i hc
      rw [if_neg hc]
      split at h
      · exact ih _ _ h (Or.inr rfl)
      · simp at h

theorem digitsGo_natStr (n : Nat) : digitsGo 0 false (natStr n) = some n := by
  induction n using natStr.induct with
  | case1 n h =>
    rw [natStr, if_pos h]
    simp [digitsGo, digitChar_ne n h '_' (by decide), digitVal_digitChar n h]
  | case2 n h ih =>
    rw [natStr, if_neg h, digitsGo_append _ _ _ _ (by omega) _ ih (Or.inl (natStr_ne_nil _))]
    congr 1; omega

theorem isSpace_digit (c : Char) (h : 45 ≤ c.toNat ∧ c.toNat ≤ 57) : isSpace c = false := by
  unfold isSpace
  simp; omega

theorem dropWhile_none {α : Type} (p : α → Bool) (s : List α) (h : ∀ c ∈ s, p c = false) :
    s.dropWhile p = s := by
  cases s with
  | nil => rfl
  | cons c s => simp [List.dropWhile, h c (by simp)]

theorem strip_none (s : Str) (h : ∀ c ∈ s, isSpace c = false) : strip s = s := by
  unfold strip rstripP lstrip
  rw [dropWhile_none _ _ h, dropWhile_none _ _ (by simpa using h)]
  simp

theorem intStr_chars (v : Int) : ∀ c ∈ intStr v, c.toNat = 45 ∨ (48 ≤ c.toNat ∧ c.toNat ≤ 57) := by
  intro c hc
  unfold intStr at hc
  split at hc
  · rcases List.mem_cons.mp hc with rfl | hc
    · left; rfl
    · right; exact natStr_chars _ c hc
  · right; exact natStr_chars _ c hc

theorem intStr_not_mem (v : Int) (c : Char) (h : c.toNat < 45 ∨ 57 < c.toNat ∨ c.toNat = 46 ∨ c.toNat = 47) :
    c ∉ intStr v := by
  intro hc
  rcases intStr_chars v c hc with h' | h' <;> omega

theorem intStr_ne_nil (v : Int) : intStr v ≠ [] := by
  unfold intStr; split
  · simp
  · exact natStr_ne_nil _

/-- Printing an integer and reading it back with `int()` gives the integer. -/
theorem pyInt_intStr (v : Int) : pyInt (intStr v) = .ok v := by
  unfold pyInt
  rw [strip_none _ (fun c hc => isSpace_digit c (by rcases intStr_chars v c hc with h | h <;> omega))]
  by_cases hv : v < 0
  · have e : intStr v = '-' :: natStr v.natAbs := by unfold intStr; rw [if_pos hv]
    rw [e]
    simp only [digitsGo_natStr]
    congr 1; omega
  · have e : intStr v = natStr v.natAbs := by unfold intStr; rw [if_neg hv]
    rw [e]
    have hd := natStr_chars v.natAbs
    have hg := digitsGo_natStr v.natAbs
    generalize natStr v.natAbs = t at hd hg ⊢
    split
    · have := hd '-' (by simp)
      exact absurd this (by decide)
    · have := hd '+' (by simp)
      exact absurd this (by decide)
    · rw [hg]
      simp only [Except.ok.injEq]; omega

theorem splitOn_none (sep : Char) (a : Str) (h : sep ∉ a) : splitOn sep a = [a] := by
  induction a with
  | nil => rfl
  | cons c a ih =>
    simp only [List.mem_cons, not_or] at h
    simp only [splitOn]
    rw [if_neg (fun e => h.1 e.symm), ih h.2]

theorem splitOn_append (sep : Char) (a b : Str) (h : sep ∉ a) :
    splitOn sep (a ++ sep :: b) = a :: splitOn sep b := by
  induction a with
  | nil => simp [splitOn]
  | cons c a ih =>
    simp only [List.mem_cons, not_or] at h
    simp only [splitOn, List.cons_append]
    rw [if_neg (fun e => h.1 e.symm), ih h.2]

end Apx
