import Verif.Model.Proto

/-! C91: finding the end of a line. -/

namespace Apx

theorem readLineLoop_found (buf : Bytes) (start i n k : Nat) (hk : i ≤ k) (hn : k < i + n) (hb : buf[k]? = some 10)
    (hf : ∀ j, i ≤ j → j < k → buf[j]? ≠ some 10) : readLineLoop buf start i n = .ok k := by
  induction n generalizing i with
  | zero => omega
  | succ n ih =>
    have hlt := (List.getElem?_eq_some_iff.1 hb).1
    rw [readLineLoop]
    by_cases h : i = k
    · subst h; simp [hb]
    · have hi : i < buf.length := by omega
      rw [List.getElem?_eq_getElem hi]
      have hne := hf i (Nat.le_refl i) (by omega)
      rw [List.getElem?_eq_getElem hi] at hne
      simp only [ne_eq, Option.some.injEq] at hne
      simp only [hne, if_false]
      exact ih (i + 1) (by omega) (by omega) (fun j h1 h2 => hf j (by omega) h2)

theorem readLineLoop_none (buf : Bytes) (start i n : Nat) (he : i + n ≤ buf.length)
    (hf : ∀ j, i ≤ j → j < i + n → buf[j]? ≠ some 10) : readLineLoop buf start i n = .ok start := by
  induction n generalizing i with
  | zero => rfl
  | succ n ih =>
    rw [readLineLoop]
    have hi : i < buf.length := by omega
    have hne := hf i (Nat.le_refl i) (by omega)
    rw [List.getElem?_eq_getElem hi] at hne ⊢
    simp only [ne_eq, Option.some.injEq] at hne
    simp only [hne, if_false]
    exact ih (i + 1) (by omega) (fun j h1 h2 => hf j (by omega) (by omega))

/-- C91: if there is a newline between the two positions, the position of the first one is returned. -/
theorem C91_found_partial (buf : Bytes) (iBegin iEnd k : Nat) (h1 : iBegin ≤ k) (h2 : k < iEnd) (hb : buf[k]? = some 10)
    (hf : ∀ j, iBegin ≤ j → j < k → buf[j]? ≠ some 10) : readLine buf iBegin iEnd = .ok k :=
  readLineLoop_found buf iBegin iBegin _ k h1 (by omega) hb hf

/-- C91: if there is none, the first position is returned. -/
theorem C91_none_partial (buf : Bytes) (iBegin iEnd : Nat) (he : iEnd ≤ buf.length)
    (hf : ∀ j, iBegin ≤ j → j < iEnd → buf[j]? ≠ some 10) : readLine buf iBegin iEnd = .ok iBegin := by
  by_cases h : iBegin ≤ iEnd
  · exact readLineLoop_none buf iBegin iBegin _ (by omega) (fun j h1 h2 => hf j h1 (by omega))
  · unfold readLine
    rw [show iEnd - iBegin = 0 by omega]
    rfl

/-- C91: any other result than the first position is that of a newline, with none before it. -/
theorem C91_line_partial (buf : Bytes) (iBegin iEnd k : Nat) (h : readLine buf iBegin iEnd = .ok k) (hne : k ≠ iBegin) :
    iBegin < k ∧ k < iEnd ∧ buf[k]? = some 10 ∧ ∀ j, iBegin ≤ j → j < k → buf[j]? ≠ some 10 := by
  suffices hs : ∀ (n i : Nat), readLineLoop buf iBegin i n = .ok k → i ≤ k ∧ k < i + n ∧ buf[k]? = some 10 ∧
      ∀ j, i ≤ j → j < k → buf[j]? ≠ some 10 by
    obtain ⟨a1, a2, a3, a4⟩ := hs _ _ h
    exact ⟨by omega, by omega, a3, a4⟩
  intro n
  induction n with
  | zero =>
    intro i h
    simp only [readLineLoop, Except.ok.injEq] at h
    exact absurd h.symm hne
  | succ n ih =>
    intro i h
    rw [readLineLoop] at h
    cases hb : buf[i]? with
    | none => rw [hb] at h; simp at h
    | some c =>
      rw [hb] at h
      by_cases hc : c = 10
      · subst hc
        simp only [if_true, Except.ok.injEq] at h
        subst h
        exact ⟨Nat.le_refl i, by omega, hb, fun j h1 h2 => by omega⟩
      · simp only [hc, if_false] at h
        obtain ⟨a1, a2, a3, a4⟩ := ih (i + 1) h
        refine ⟨by omega, by omega, a3, fun j h1 h2 => ?_⟩
        by_cases hj : j = i
        · subst hj; rw [hb]; simp [hc]
        · exact a4 j (by omega) h2

/-- C91 fails at the first position: an empty line and data without any newline give the same result. -/
theorem C91_empty_line_violated (rest : Bytes) (data : Bytes) (hd : ∀ c ∈ data, c ≠ 10) :
    readLine (10 :: rest) 0 (rest.length + 1) = .ok 0 ∧ readLine data 0 data.length = .ok 0 := by
  refine ⟨C91_found_partial _ 0 _ 0 (Nat.le_refl 0) (by omega) rfl (fun j h1 h2 => by omega), ?_⟩
  refine C91_none_partial data 0 data.length (Nat.le_refl _) ?_
  intro j _ hj
  rw [List.getElem?_eq_getElem hj]
  simp only [ne_eq, Option.some.injEq]
  exact hd _ (List.getElem_mem hj)

example : readLine ("RMF/1.0\nNumHeader-Format:32\n\n".toList.map fun c => UInt8.ofNat c.toNat) 8 29 = .ok 27 ∧
    readLine [65, 66] 0 2 = .ok 0 ∧ readLine [10, 66] 0 2 = .ok 0 := by decide +kernel

end Apx
