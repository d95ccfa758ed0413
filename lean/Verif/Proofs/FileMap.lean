import Verif.Spec.FileMap

namespace Apx

theorem bisectLeftLoop_spec (a : List Int) (x : Int) (hs : a.Pairwise (· ≤ ·)) (n : Nat) :
    ∀ lo hi, hi - lo ≤ n → lo ≤ hi → hi ≤ a.length →
      (∀ j (hj : j < a.length), j < lo → a[j] < x) →
      (∀ j (hj : j < a.length), hi ≤ j → x ≤ a[j]) →
      bisectLeftLoop a x lo hi ≤ a.length ∧
      (∀ j (hj : j < a.length), j < bisectLeftLoop a x lo hi → a[j] < x) ∧
      (∀ j (hj : j < a.length), bisectLeftLoop a x lo hi ≤ j → x ≤ a[j]) := by
  induction n with
  | zero =>
    intro lo hi hn hle hhi h1 h2
    rw [bisectLeftLoop, if_neg (by omega)]
    refine ⟨by omega, h1, fun j hj hlo => h2 j hj (by omega)⟩
  | succ n ih =>
    intro lo hi hn hle hhi h1 h2
    rw [bisectLeftLoop]
    by_cases hlt : lo < hi
    · rw [if_pos hlt]
      simp only
      have hm : (lo + hi) / 2 < a.length := by omega
      rw [show a.getD ((lo + hi) / 2) 0 = a[(lo + hi) / 2] by simp [List.getD, hm]]
      have hsorted := List.pairwise_iff_getElem.mp hs
      by_cases hx : a[(lo + hi) / 2] < x
      · rw [if_pos hx]
        refine ih _ _ (by omega) (by omega) hhi ?_ h2
        intro j hj hjm
        by_cases hjeq : j = (lo + hi) / 2
        · subst hjeq; exact hx
        · have := hsorted j ((lo + hi) / 2) hj hm (by omega)
          omega
      · rw [if_neg hx]
        refine ih _ _ (by omega) (by omega) (by omega) h1 ?_
        intro j hj hjm
        by_cases hjeq : j = (lo + hi) / 2
        · subst hjeq; omega
        · have := hsorted ((lo + hi) / 2) j hm hj (by omega)
          omega
    · rw [if_neg hlt]
      refine ⟨by omega, h1, fun j hj hlo => h2 j hj (by omega)⟩

theorem bisectLeft_spec (a : List Int) (x : Int) (hs : a.Pairwise (· ≤ ·)) :
    bisectLeft a x ≤ a.length ∧
      (∀ j (hj : j < a.length), j < bisectLeft a x → a[j] < x) ∧
      (∀ j (hj : j < a.length), bisectLeft a x ≤ j → x ≤ a[j]) :=
  bisectLeftLoop_spec a x hs _ 0 a.length (Nat.le_refl _) (by omega) (Nat.le_refl _)
    (fun _ _ h => absurd h (by omega)) (fun _ _ h => absurd h (by omega))

theorem bisectRightLoop_spec (a : List Int) (x : Int) (hs : a.Pairwise (· ≤ ·)) (n : Nat) :
    ∀ lo hi, hi - lo ≤ n → lo ≤ hi → hi ≤ a.length →
      (∀ j (hj : j < a.length), j < lo → a[j] ≤ x) →
      (∀ j (hj : j < a.length), hi ≤ j → x < a[j]) →
      bisectRightLoop a x lo hi ≤ a.length ∧
      (∀ j (hj : j < a.length), j < bisectRightLoop a x lo hi → a[j] ≤ x) ∧
      (∀ j (hj : j < a.length), bisectRightLoop a x lo hi ≤ j → x < a[j]) := by
  induction n with
  | zero =>
    intro lo hi hn hle hhi h1 h2
    rw [bisectRightLoop, if_neg (by omega)]
    refine ⟨by omega, h1, fun j hj hlo => h2 j hj (by omega)⟩
  | succ n ih =>
    intro lo hi hn hle hhi h1 h2
    rw [bisectRightLoop]
    by_cases hlt : lo < hi
    · rw [if_pos hlt]
      simp only
      have hm : (lo + hi) / 2 < a.length := by omega
      rw [show a.getD ((lo + hi) / 2) 0 = a[(lo + hi) / 2] by simp [List.getD, hm]]
      have hsorted := List.pairwise_iff_getElem.mp hs
      by_cases hx : x < a[(lo + hi) / 2]
      · rw [if_pos hx]
        refine ih _ _ (by omega) (by omega) (by omega) h1 ?_
        intro j hj hjm
        by_cases hjeq : j = (lo + hi) / 2
        · subst hjeq; exact hx
        · have := hsorted ((lo + hi) / 2) j hm hj (by omega)
          omega
      · rw [if_neg hx]
        refine ih _ _ (by omega) (by omega) hhi ?_ h2
        intro j hj hjm
        by_cases hjeq : j = (lo + hi) / 2
        · subst hjeq; omega
        · have := hsorted j ((lo + hi) / 2) hj hm (by omega)
          omega
    · rw [if_neg hlt]
      refine ⟨by omega, h1, fun j hj hlo => h2 j hj (by omega)⟩

theorem bisectRight_spec (a : List Int) (x : Int) (hs : a.Pairwise (· ≤ ·)) :
    bisectRight a x ≤ a.length ∧
      (∀ j (hj : j < a.length), j < bisectRight a x → a[j] ≤ x) ∧
      (∀ j (hj : j < a.length), bisectRight a x ≤ j → x < a[j]) :=
  bisectRightLoop_spec a x hs _ 0 a.length (Nat.le_refl _) (by omega) (Nat.le_refl _)
    (fun _ _ h => absurd h (by omega)) (fun _ _ h => absurd h (by omega))

theorem insertIdx_take_drop {α} (l : List α) (i : Nat) (x : α) (h : i ≤ l.length) :
    l.insertIdx i x = l.take i ++ x :: l.drop i := by
  induction l generalizing i with
  | nil => simp at h; subst h; rfl
  | cons a l ih =>
    cases i with
    | zero => rfl
    | succ i => simp at h; simp [List.insertIdx_succ_cons, ih i h]

namespace FileMap

/-- Representation invariant: keys ascending and equal to the items' addresses. -/
structure Inv (m : FileMap) : Prop where
  sorted : m.keys.Pairwise (· ≤ ·)
  agree : m.items.map (·.address) = m.keys.map some

theorem Inv.len {m : FileMap} (h : Inv m) : m.items.length = m.keys.length := by
  have := congrArg List.length h.agree
  simpa using this

theorem Inv.addr {m : FileMap} (h : Inv m) (j : Nat) (hj : j < m.items.length)
    (hk : j < m.keys.length) : m.items[j].address = some m.keys[j] := by
  have := congrArg (·[j]?) h.agree
  simp only [List.getElem?_map] at this
  rw [List.getElem?_eq_getElem hj, List.getElem?_eq_getElem hk] at this
  simpa using this

theorem inv_empty : Inv FileMap.empty := ⟨by simp [FileMap.empty], rfl⟩

theorem Inv.mem_addr {m : FileMap} (h : Inv m) {f : FileEnt} (hf : f ∈ m.items) :
    ∃ a, f.address = some a := by
  obtain ⟨j, hj, rfl⟩ := List.mem_iff_getElem.mp hf
  exact ⟨_, h.addr j hj (by rw [← h.len]; exact hj)⟩

/-- Splitting a map at an address. -/
theorem Inv.split {m : FileMap} (h : Inv m) (k : Int) :
    let i := bisectLeft m.keys k
    i ≤ m.keys.length ∧ i ≤ m.items.length ∧
    (∀ f ∈ m.items.take i, ∃ a, f.address = some a ∧ a < k) ∧
    (∀ f ∈ m.items.drop i, ∃ a, f.address = some a ∧ k ≤ a) ∧
    (∀ a ∈ m.keys.take i, a < k) ∧ (∀ a ∈ m.keys.drop i, k ≤ a) := by
  obtain ⟨h1, h2, h3⟩ := bisectLeft_spec m.keys k h.sorted
  have hl := h.len
  refine ⟨h1, by omega, ?_, ?_, ?_, ?_⟩
  · intro f hf
    obtain ⟨j, hj, rfl⟩ := List.mem_iff_getElem.mp hf
    simp at hj
    rw [List.getElem_take]
    exact ⟨_, h.addr j (by omega) (by omega), h2 j (by omega) (by omega)⟩
  · intro f hf
    obtain ⟨j, hj, rfl⟩ := List.mem_iff_getElem.mp hf
    simp at hj
    rw [List.getElem_drop]
    exact ⟨_, h.addr _ (by omega) (by omega), h3 _ (by omega) (by omega)⟩
  · intro f hf
    obtain ⟨j, hj, rfl⟩ := List.mem_iff_getElem.mp hf
    simp at hj
    rw [List.getElem_take]
    exact h2 j (by omega) (by omega)
  · intro f hf
    obtain ⟨j, hj, rfl⟩ := List.mem_iff_getElem.mp hf
    simp at hj
    rw [List.getElem_drop]
    exact h3 _ (by omega) (by omega)

/-- Inserting at the bisection point keeps the invariant. -/
theorem inv_insertAt {m : FileMap} (h : Inv m) (f : FileEnt) (k : Int) (hk : f.address = some k) :
    Inv ⟨m.keys.insertIdx (bisectLeft m.keys k) k, m.items.insertIdx (bisectLeft m.keys k) f⟩ := by
  obtain ⟨h1, h2, -, -, h5, h6⟩ := h.split k
  constructor
  · simp only
    rw [insertIdx_take_drop _ _ _ h1, List.pairwise_append]
    have hs := h.sorted
    rw [← List.take_append_drop (bisectLeft m.keys k) m.keys, List.pairwise_append] at hs
    refine ⟨hs.1, ?_, ?_⟩
    · rw [List.pairwise_cons]
      exact ⟨h6, hs.2.1⟩
    · intro a ha b hb
      rcases List.mem_cons.mp hb with rfl | hb
      · exact Int.le_of_lt (h5 a ha)
      · exact hs.2.2 a ha b hb
  · simp only
    rw [insertIdx_take_drop _ _ _ h1, insertIdx_take_drop _ _ _ h2]
    have ha := h.agree
    simp only [List.map_append, List.map_cons, hk, List.map_take, List.map_drop, ha]

theorem inv_eraseIdx {m : FileMap} (h : Inv m) (i : Nat) :
    Inv ⟨m.keys.eraseIdx i, m.items.eraseIdx i⟩ := by
  constructor
  · exact h.sorted.sublist (List.eraseIdx_sublist ..)
  · simp only
    rw [List.eraseIdx_eq_take_drop_succ, List.eraseIdx_eq_take_drop_succ]
    have ha := h.agree
    simp only [List.map_append, List.map_take, List.map_drop, ha]

theorem assign_ok {m : FileMap} {f g : FileEnt} {s e b : Nat}
    (h : assignFileAddress m f s e b = .ok g) :
    ∃ p, g = { f with address := some p } ∧ placement m s e b = .ok (some p) ∧ p + f.length ≤ e := by
  unfold assignFileAddress at h
  split at h
  · simp at h
  · split at h
    · simp at h
    · split at h
      · simp at h
      · split at h
        · simp at h
        · simp at h
        · rename_i p hp
          split at h
          · rename_i hle
            simp only [Except.ok.injEq] at h
            exact ⟨p, h.symm, hp, hle⟩
          · simp at h

/-- What a successful insert does. -/
theorem insert_ok {m m' : FileMap} {f f' : FileEnt} (h : m.insert f = .ok (m', f')) :
    ∃ k, f'.address = some k ∧ m' = ⟨m.keys.insertIdx (bisectLeft m.keys k) k,
      m.items.insertIdx (bisectLeft m.keys k) f'⟩ ∧
      ((f' = f ∧ f.address = some k) ∨
        (f.address = none ∧ f' = { f with address := some k } ∧ assignFileAddressDefault m f = .ok f')) := by
  unfold insert at h
  split at h
  · simp at h
  · cases hfa : f.address with
    | some a =>
      rw [hfa] at h
      simp only [bind, Except.bind, hfa] at h
      simp only [Except.ok.injEq, Prod.mk.injEq] at h
      obtain ⟨h1, h2⟩ := h
      subst h2
      exact ⟨a, hfa, h1.symm, .inl ⟨rfl, rfl⟩⟩
    | none =>
      rw [hfa] at h
      simp only [bind, Except.bind] at h
      cases hd : assignFileAddressDefault m f with
      | error e => rw [hd] at h; simp at h
      | ok g =>
        rw [hd] at h
        simp only at h
        have hg : ∃ p, g = { f with address := some p } := by
          have aux : ∀ s e b, assignFileAddress m f s e b = .ok g → ∃ p, g = { f with address := some p } :=
            fun s e b ha => by obtain ⟨p, h, -⟩ := assign_ok ha; exact ⟨p, h⟩
          unfold assignFileAddressDefault at hd
          split at hd
          · exact aux _ _ _ hd
          · split at hd
            · exact aux _ _ _ hd
            · exact aux _ _ _ hd
        obtain ⟨p, rfl⟩ := hg
        simp only [Except.ok.injEq, Prod.mk.injEq] at h
        obtain ⟨h1, h2⟩ := h
        subst h2
        exact ⟨p, rfl, h1.symm, .inr ⟨rfl, rfl, rfl⟩⟩

theorem inv_insert {m m' : FileMap} {f f' : FileEnt} (h : Inv m) (hi : m.insert f = .ok (m', f')) :
    Inv m' := by
  obtain ⟨k, h1, h2, -⟩ := insert_ok hi
  subst h2
  exact inv_insertAt h f' k h1

/-- The items of the map after an insert: the file at its place, everything else as before. -/
theorem insert_items {m m' : FileMap} {f f' : FileEnt} (h : Inv m) (hi : m.insert f = .ok (m', f')) :
    ∃ l1 l2, m.items = l1 ++ l2 ∧ m'.items = l1 ++ f' :: l2 ∧ m'.keys.length = m.keys.length + 1 := by
  obtain ⟨k, h1, h2, -⟩ := insert_ok hi
  subst h2
  obtain ⟨h1, h2, -⟩ := h.split k
  refine ⟨_, _, (List.take_append_drop (bisectLeft m.keys k) m.items).symm,
    insertIdx_take_drop _ _ _ h2, ?_⟩
  simp [List.length_insertIdx, h1]

/-- What `index` returns points to the file itself. -/
theorem index_ok {m : FileMap} {f : FileEnt} {i : Nat} (h : m.index f = .ok i) :
    ∃ hi : i < m.items.length, m.items[i].id = f.id := by
  unfold index at h
  split at h
  · split at h <;> simp at h
  · rename_i k hk
    simp only at h
    split at h
    · rename_i d hd
      simp only [Except.ok.injEq] at h
      obtain ⟨hlt, hp, -⟩ := List.findIdx?_eq_some_iff_getElem.mp hd
      simp only [List.length_take, List.length_drop] at hlt
      simp only [List.getElem_take, List.getElem_drop, beq_iff_eq] at hp
      subst h
      refine ⟨by omega, ?_⟩
      have : d + bisectLeft m.keys k = bisectLeft m.keys k + d := by omega
      simp only [this]
      exact hp
    · simp at h

theorem remove_ok {m m' : FileMap} {f : FileEnt} (h : m.remove f = .ok m') :
    ∃ i, m.index f = .ok i ∧ m' = ⟨m.keys.eraseIdx i, m.items.eraseIdx i⟩ := by
  unfold remove at h
  split at h
  · simp at h
  · cases hi : m.index f with
    | error e => rw [hi] at h; simp [bind, Except.bind] at h
    | ok i =>
      rw [hi] at h
      simp only [bind, Except.bind, Except.ok.injEq] at h
      exact ⟨i, rfl, h.symm⟩

/-- `index` finds a file that is in the map with its current address. -/
theorem index_of_mem {m : FileMap} (hinv : Inv m) {f g : FileEnt} (hg : g ∈ m.items)
    (hid : g.id = f.id) (ha : g.address = f.address) :
    ∃ i, m.index f = .ok i := by
  obtain ⟨k, hk⟩ := hinv.mem_addr hg
  have hfk : f.address = some k := by rw [← ha, hk]
  unfold index
  rw [hfk]
  simp only
  obtain ⟨l1, l2, l3⟩ := bisectLeft_spec m.keys k hinv.sorted
  obtain ⟨r1, r2, r3⟩ := bisectRight_spec m.keys k hinv.sorted
  obtain ⟨j, hj, hjg⟩ := List.mem_iff_getElem.mp hg
  have hjk : j < m.keys.length := by rw [← hinv.len]; exact hj
  have hkey := hinv.addr j hj hjk
  rw [hjg, hk] at hkey
  have hkey : k = m.keys[j] := by simpa using hkey
  have hlo : bisectLeft m.keys k ≤ j := by
    apply Decidable.byContradiction; intro hx
    have := l2 j hjk (by omega)
    omega
  have hhi : j < bisectRight m.keys k := by
    apply Decidable.byContradiction; intro hx
    have := r3 j hjk (by omega)
    omega
  have hmem : g ∈ (m.items.drop (bisectLeft m.keys k)).take (bisectRight m.keys k - bisectLeft m.keys k) := by
    refine List.mem_iff_getElem.mpr ⟨j - bisectLeft m.keys k, by simp; omega, ?_⟩
    rw [List.getElem_take, List.getElem_drop]
    have : bisectLeft m.keys k + (j - bisectLeft m.keys k) = j := by omega
    simp only [this]; exact hjg
  cases hf : List.findIdx? (fun g => g.id == f.id)
      ((m.items.drop (bisectLeft m.keys k)).take (bisectRight m.keys k - bisectLeft m.keys k)) with
  | some d => exact ⟨_, rfl⟩
  | none =>
    have := List.findIdx?_eq_none_iff.mp hf g hmem
    simp [hid] at this

/-- `index` raises for a file whose identity is not in the map. -/
theorem index_of_not_mem {m : FileMap} {f : FileEnt} (h : ∀ g ∈ m.items, g.id ≠ f.id) :
    m.index f = .error (if f.address = none ∧ m.keys.length ≠ 0 then .typeError else .valueError) := by
  unfold index
  cases hfa : f.address with
  | none => by_cases hz : m.keys.length = 0 <;> simp [hz]
  | some k =>
    simp only
    cases hf : List.findIdx? (fun g => g.id == f.id)
        ((m.items.drop (bisectLeft m.keys k)).take (bisectRight m.keys k - bisectLeft m.keys k)) with
    | none => simp
    | some d =>
      obtain ⟨hlt, hp, -⟩ := List.findIdx?_eq_some_iff_getElem.mp hf
      simp only [beq_iff_eq] at hp
      exact absurd hp (h _ (List.mem_of_mem_drop (List.mem_of_mem_take (List.getElem_mem hlt))))

end FileMap
end Apx
