import Verif.Props.GenText

/-! C68: exactly which definitions are emitted correctly. -/

namespace Apx

/-- The emitted literal from the inside of its first line on. -/
def litBody : Str → Str
  | [] => "\\n\";".toList
  | c :: t =>
    if c = '"' then '\\' :: '"' :: litBody t
    else if c = '\n' then '\\' :: 'n' :: '"' :: '\n' :: '"' :: litBody t
    else c :: litBody t

theorem litBody_eq (t : Str) : definitionLiteral t = '"' :: litBody t := by
  have key : ∀ t : Str, ∃ l ls, splitOn '\n' t = l :: ls ∧
      escapeQuotes l ++ ('\\' :: 'n' :: '"' :: (match ls with
        | [] => [';']
        | _ :: _ => '\n' :: (joinLines (ls.map literalLine) ++ [';']))) = litBody t := by
    intro t
    induction t with
    | nil => exact ⟨[], [], rfl, rfl⟩
    | cons c t ih =>
      obtain ⟨l, ls, h1, h2⟩ := ih
      by_cases hn : c = '\n'
      · subst hn
        refine ⟨[], l :: ls, by simp [splitOn, h1], ?_⟩
        have hq : ¬ ('\n' : Char) = '"' := by decide
        simp only [litBody, if_neg hq, if_true, ← h2, escapeQuotes, List.nil_append]
        cases ls with
        | nil => simp [joinLines, literalLine]
        | cons m ls => simp [joinLines, literalLine]
      · refine ⟨c :: l, ls, by simp [splitOn, hn, h1], ?_⟩
        simp only [litBody, if_neg hn, escapeQuotes, ← h2]
        split <;> rfl
  obtain ⟨l, ls, h1, h2⟩ := key t
  unfold definitionLiteral
  rw [h1, ← h2]
  cases ls with
  | nil => simp [joinLines, literalLine]
  | cons m ls => simp [joinLines, literalLine]

/-- Outside a literal nothing of the text is read. -/
theorem litBody_outside (t d : Str) (h : cLiterals false (litBody t) = some d) : d = [] := by
  induction t with
  | nil => simp [litBody, cLiterals] at h
  | cons c t ih =>
    unfold litBody at h
    by_cases h1 : c = '"'
    · rw [if_pos h1] at h; simp [cLiterals] at h
    rw [if_neg h1] at h
    by_cases h2 : c = '\n'
    · rw [if_pos h2] at h; simp [cLiterals] at h
    rw [if_neg h2] at h
    by_cases h3 : c = ';'
    · subst h3; simp [cLiterals] at h; exact h
    by_cases h4 : c = ' '
    · subst h4; exact ih (by simpa [cLiterals] using h)
    rw [cLiterals] at h <;> simp_all

/-- A C compiler never reads more characters than there are. -/
theorem litBody_length (k : Nat) : ∀ (t d : Str), t.length ≤ k → cLiterals true (litBody t) = some d →
    d.length ≤ t.length + 1 := by
  induction k with
  | zero =>
    intro t d hk h
    have : t = [] := List.eq_nil_of_length_eq_zero (by omega)
    subst this
    simp [litBody, cLiterals] at h
    rw [← h]; simp
  | succ k ih =>
    intro t d hk h
    match t with
    | [] =>
      simp [litBody, cLiterals] at h
      rw [← h]; simp
    | c :: t =>
      simp only [List.length_cons] at hk ⊢
      unfold litBody at h
      by_cases h1 : c = '"'
      · rw [if_pos h1] at h
        simp only [cLiterals, Option.map_eq_some_iff] at h
        obtain ⟨e, h, rfl⟩ := h
        have := ih t e (by omega) h
        simp only [List.length_cons]; omega
      rw [if_neg h1] at h
      by_cases h2 : c = '\n'
      · rw [if_pos h2] at h
        simp only [cLiterals, Option.map_eq_some_iff] at h
        obtain ⟨e, h, rfl⟩ := h
        have := ih t e (by omega) h
        simp only [List.length_cons]; omega
      rw [if_neg h2] at h
      by_cases h3 : c = '\\'
      · subst h3
        match t with
        | [] =>
          simp [litBody, cLiterals] at h
          rw [← h]; simp
        | x :: t =>
          simp only [List.length_cons] at hk ⊢
          unfold litBody at h
          by_cases g1 : x = '"'
          · rw [if_pos g1] at h
            simp only [cLiterals, Option.map_eq_some_iff] at h
            obtain ⟨e, h, rfl⟩ := h
            rw [litBody_outside t e h]
            simp
          rw [if_neg g1] at h
          by_cases g2 : x = '\n'
          · rw [if_pos g2] at h
            rw [cLiterals, cLiterals_plain _ _ (by decide)] at h
            simp only [cLiterals, Option.map_eq_some_iff] at h
            obtain ⟨e, ⟨e', h, rfl⟩, rfl⟩ := h
            have := ih t e' (by omega) h
            simp only [List.length_cons]; omega
          rw [if_neg g2] at h
          by_cases g3 : x = 'n'
          · subst g3
            simp only [cLiterals, Option.map_eq_some_iff] at h
            obtain ⟨e, h, rfl⟩ := h
            have := ih t e (by omega) h
            simp only [List.length_cons]; omega
          by_cases g4 : x = '\\'
          · subst g4
            simp only [cLiterals, Option.map_eq_some_iff] at h
            obtain ⟨e, h, rfl⟩ := h
            have := ih t e (by omega) h
            simp only [List.length_cons]; omega
          rw [cLiterals] at h <;> simp_all
      by_cases h4 : c = '\r'
      · subst h4; simp [cLiterals] at h
      rw [cLiterals_plain _ _ ⟨h1, h3, h2, h4⟩] at h
      simp only [Option.map_eq_some_iff] at h
      obtain ⟨e, h, rfl⟩ := h
      have := ih t e (by omega) h
      simp only [List.length_cons]; omega

/-- What is read back as the text has neither backslashes nor carriage returns. -/
theorem litBody_same (t : Str) (h : cLiterals true (litBody t) = some (t ++ ['\n'])) : '\\' ∉ t ∧ '\r' ∉ t := by
  induction t with
  | nil => simp
  | cons c t ih =>
    unfold litBody at h
    by_cases h1 : c = '"'
    · rw [if_pos h1] at h
      subst h1
      simp only [cLiterals, Option.map_eq_some_iff, List.cons_append, List.cons.injEq, true_and] at h
      obtain ⟨e, h, rfl⟩ := h
      have := ih h
      simp [this]
    rw [if_neg h1] at h
    by_cases h2 : c = '\n'
    · rw [if_pos h2] at h
      subst h2
      simp only [cLiterals, Option.map_eq_some_iff, List.cons_append, List.cons.injEq, true_and] at h
      obtain ⟨e, h, rfl⟩ := h
      have := ih h
      simp [this]
    rw [if_neg h2] at h
    by_cases h3 : c = '\\'
    · exfalso
      subst h3
      match t with
      | [] =>
        simp [litBody, cLiterals] at h
      | x :: t =>
        unfold litBody at h
        by_cases g1 : x = '"'
        · rw [if_pos g1] at h
          simp only [cLiterals, Option.map_eq_some_iff, List.cons_append, List.cons.injEq, true_and] at h
          obtain ⟨e, h, he⟩ := h
          rw [litBody_outside t e h] at he
          cases he
        rw [if_neg g1] at h
        by_cases g2 : x = '\n'
        · rw [if_pos g2] at h
          rw [cLiterals, cLiterals_plain _ _ (by decide)] at h
          subst g2
          simp [cLiterals] at h
        rw [if_neg g2] at h
        by_cases g3 : x = 'n'
        · subst g3
          simp [cLiterals] at h
        by_cases g4 : x = '\\'
        · subst g4
          simp only [cLiterals, Option.map_eq_some_iff, List.cons_append, List.cons.injEq, true_and] at h
          obtain ⟨e, h, rfl⟩ := h
          have := litBody_length t.length t _ (by omega) h
          simp at this
          omega
        rw [cLiterals] at h <;> simp_all
    by_cases h4 : c = '\r'
    · subst h4; simp [cLiterals] at h
    rw [cLiterals_plain _ _ ⟨h1, h3, h2, h4⟩] at h
    simp only [Option.map_eq_some_iff, List.cons_append, List.cons.injEq, true_and] at h
    obtain ⟨e, h, rfl⟩ := h
    have := ih h
    refine ⟨?_, ?_⟩
    · simp only [List.mem_cons, not_or]; exact ⟨fun e => h3 e.symm, this.1⟩
    · simp only [List.mem_cons, not_or]; exact ⟨fun e => h4 e.symm, this.2⟩

/-- C68, exactly: a C compiler reads the definition from the emitted literal if and only if the definition has neither
backslashes nor carriage returns. -/
theorem C68_exactly (g : Generated) (text : Str) (ht : g.node.definitionText false = .ok text) :
    ∃ lit, emitDefinition g = .ok (lit, (text ++ ['\n']).length) ∧
      (cLiterals false lit = some (text ++ ['\n']) ↔ '\\' ∉ text ∧ '\r' ∉ text) := by
  refine ⟨definitionLiteral text, by simp [emitDefinition, ht, ok_bind, definitionLen], ?_, ?_⟩
  · intro h
    rw [litBody_eq, cLiterals] at h
    exact litBody_same text h
  · rintro ⟨h1, h2⟩
    obtain ⟨lit, h3, h4⟩ := C68_literal_partial g text ht h1 h2
    simp only [emitDefinition, ht, ok_bind, Except.ok.injEq, Prod.mk.injEq] at h3
    rw [h3.1]
    exact h4

/-- C68 is violated by every definition with a backslash, for example in a name: it is not escaped, so that the C
compiler reads something else, or nothing. -/
theorem C68_backslash_violated (g : Generated) (text : Str) (ht : g.node.definitionText false = .ok text) (h : '\\' ∈ text) :
    ∃ lit len, emitDefinition g = .ok (lit, len) ∧ cLiterals false lit ≠ some (text ++ ['\n']) := by
  obtain ⟨lit, h1, h2⟩ := C68_exactly g text ht
  exact ⟨lit, _, h1, fun h3 => (h2.mp h3).1 h⟩

theorem utf8_length_ge (s : Str) : s.length ≤ (utf8Encode s).length := by
  induction s with
  | nil => simp
  | cons c s ih =>
    rw [utf8Encode_cons]
    simp only [List.length_append, List.length_cons, String.length_utf8EncodeChar]
    have := c.utf8Size_pos
    omega

theorem utf8_length_gt (s : Str) (h : ∃ c ∈ s, 128 ≤ c.toNat) : s.length < (utf8Encode s).length := by
  induction s with
  | nil => obtain ⟨c, hc, _⟩ := h; cases hc
  | cons c s ih =>
    rw [utf8Encode_cons]
    simp only [List.length_append, List.length_cons, String.length_utf8EncodeChar]
    have hp := c.utf8Size_pos
    obtain ⟨x, hx, hx2⟩ := h
    rcases List.mem_cons.mp hx with rfl | hx
    · have h2 : x.utf8Size ≠ 1 := by
        rw [Ne, Char.utf8Size_eq_one_iff, UInt32.le_iff_toNat_le]
        have : x.val.toNat = x.toNat := rfl
        have h127 : (127 : UInt32).toNat = 127 := rfl
        omega
      have := utf8_length_ge s
      omega
    · have := ih ⟨x, hx, hx2⟩
      omega

/-- C68 is violated by every definition that is not ASCII: the emitted length counts characters, but the string the
compiler reads from the literal has more bytes in UTF-8, so that the definition lacks its end. -/
theorem C68_unicode_violated (g : Generated) (text : Str) (ht : g.node.definitionText false = .ok text)
    (h1 : '\\' ∉ text) (h2 : '\r' ∉ text) (hu : ∃ c ∈ text, 128 ≤ c.toNat) :
    ∃ lit len s, emitDefinition g = .ok (lit, len) ∧ cLiterals false lit = some s ∧ len < (utf8Encode s).length := by
  obtain ⟨lit, h3, h4⟩ := C68_literal_partial g text ht h1 h2
  refine ⟨lit, _, _, h3, h4, utf8_length_gt _ ?_⟩
  obtain ⟨c, hc, h⟩ := hu
  exact ⟨c, List.mem_append_left _ hc, h⟩

/-- The hypotheses hold of nodes with the port names `\nP` and `å`. -/
example : (match generate gtBack, generate gtAring with
    | .ok g, .ok g' => (match g.node.definitionText false, g'.node.definitionText false with
      | .ok t, .ok t' => decide ('\\' ∈ t ∧ '\\' ∉ t' ∧ '\r' ∉ t' ∧ 'å' ∈ t' ∧ 128 ≤ 'å'.toNat)
      | _, _ => false)
    | _, _ => false) = true := by decide +kernel

end Apx
