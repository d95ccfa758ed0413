import Verif.Proofs.Grammar

/-! C64: which texts are data signatures. -/

namespace Apx

/-- C64: a text is accepted as data signature exactly if it is in the language given by the grammar
`SigText`, and then the data element is the one the grammar gives. -/
theorem C64_accepts (s : Str) (e : Elem) : dataSignature s = .ok e ↔ SigText s e := by
  constructor
  · intro h
    unfold dataSignature at h
    rw [bind_ok_iff] at h
    obtain ⟨⟨oe, r⟩, h1, h⟩ := h
    simp only at h
    split at h
    · cases h
    · rename_i hl
      split at h
      · cases h
        obtain ⟨t, rfl, ht⟩ := (parse_sound _).1 _ _ _ h1
        have : r = [] := by
          cases r with
          | nil => rfl
          | cons c r => simp at hl
        subst this
        simpa using ht
      · cases h
  · intro h
    have := h.parse [] (2 * s.length + 2) (by simp [Stops]) (by simp)
    rw [List.append_nil] at this
    unfold dataSignature parseSig
    rw [this]
    simp

/-- C64: the grammar gives a text one meaning at most. -/
theorem C64_unambiguous (s : Str) (e e' : Elem) (h : SigText s e) (h' : SigText s e') : e = e' := by
  have h1 := (C64_accepts s e).mpr h
  rw [(C64_accepts s e').mpr h'] at h1
  exact (Except.ok.inj h1).symm

/-- C64: any other text is refused with an exception. -/
theorem C64_refuses (s : Str) (h : ∀ e, ¬ SigText s e) : ∃ x, dataSignature s = .error x := by
  cases hd : dataSignature s with
  | error x => exact ⟨x, rfl⟩
  | ok e => exact (h e ((C64_accepts s e).mp hd)).elim

/-- C64: a negative array length is refused. (Only a type number may be negative, see C46.) -/
theorem C64_negative_length (c : Char) (hc : c ≠ 'T') (a : Str) (n : Int) (ha : IntText a n) (hn : n < 0) :
    ∃ x, dataSignature (c :: '[' :: (a ++ [']'])) = .error x := by
  cases hd : dataSignature (c :: '[' :: (a ++ [']'])) with
  | error x => exact ⟨x, rfl⟩
  | ok e =>
    exfalso
    have hs := (C64_accepts _ _).mp hd
    generalize ht : c :: '[' :: (a ++ [']']) = t at hs
    cases hs with
    | prim tc r b mn mx al h1 h2 =>
      simp only [List.cons.injEq] at ht
      obtain ⟨-, ht⟩ := ht
      cases h1 with
      | none =>
        cases h2 with
        | none => simp at ht
        | len b k hb =>
          simp only [List.nil_append, List.cons.injEq, true_and] at ht
          have := List.append_cancel_right ht
          subst this
          have h3 := (pyInt_iff _ _).mpr ha
          rw [(pyInt_iff _ _).mpr hb] at h3
          simp only [Except.ok.injEq] at h3
          omega
      | two => simp at ht
      | more => simp at ht
    | refName s hq _ =>
      simp only [List.cons.injEq, true_and] at ht
      have : '"' ∈ a ++ [']'] := by rw [ht.2]; simp
      simp only [List.mem_append, List.mem_singleton] at this
      rcases this with h | h
      · exact ha.not_mem _ (by decide) h
      · exact absurd h (by decide)
    | refId s i hi =>
      simp only [List.cons.injEq, true_and] at ht
      exact hc ht.1
    | record s fs hf =>
      simp only [List.cons.injEq] at ht
      have := (hf.stops []).2
      rw [List.append_nil, ← ht.2] at this
      simp at this

/-! The language is as expected on examples. -/

example : SigText "C".toList (.prim .u8 none none none) := (C64_accepts _ _).mp (by decide +kernel)
example : SigText "{\"a\"S(0,1000)[ 12 ]\"b\"T[\"X[1]\"]}".toList
    (.record (.cons (some ['a']) (.prim .u16 (some 0) (some 1000) (some 12))
      (.cons (some ['b']) (.refName "X[1]".toList) .nil)) none) := (C64_accepts _ _).mp (by decide +kernel)
example : ∀ e, ¬ SigText "C(0)".toList e := by
  intro e h
  have : (dataSignature "C(0)".toList).toOption.isNone := by decide +kernel
  rw [(C64_accepts _ _).mpr h] at this
  cases this
example : ∃ x, dataSignature "C[-1]".toList = .error x :=
  C64_negative_length 'C' (by decide) "-1".toList (-1) ((pyInt_iff _ _).mp (by decide +kernel)) (by decide)
example : IntText " -1_0 ".toList (-10) := (pyInt_iff _ _).mp (by decide +kernel)

end Apx
