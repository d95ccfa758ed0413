import Verif.Props.GenText

/-! C69, C70: for which nodes the callback code goes wrong. -/

namespace Apx

theorem insertByKey_sorted {α : Type} (key : α → Nat) (x : α) (l : List α)
    (h : l.Pairwise fun a b => key a ≤ key b) : (insertByKey key x l).Pairwise fun a b => key a ≤ key b := by
  induction l with
  | nil => simp [insertByKey]
  | cons y l ih =>
    rw [insertByKey]
    have hy := List.pairwise_cons.mp h
    split
    · rename_i hk
      refine List.pairwise_cons.mpr ⟨fun z hz => ?_, h⟩
      rcases List.mem_cons.mp hz with rfl | hz
      · exact hk
      · exact Nat.le_trans hk (hy.1 z hz)
    · rename_i hk
      refine List.pairwise_cons.mpr ⟨fun z hz => ?_, ih hy.2⟩
      rcases List.mem_cons.mp ((insertByKey_perm key x l).mem_iff.mp hz) with rfl | hz
      · omega
      · exact hy.1 z hz

theorem sortedByKey_pairwise {α : Type} (key : α → Nat) (l : List α) :
    (sortedByKey key l).Pairwise fun a b => key a ≤ key b := by
  induction l with
  | nil => exact List.Pairwise.nil
  | cons x l ih => exact insertByKey_sorted key x _ ih

/-- In a sorted list, an entry with a callback lies between the first and the last such entry. -/
theorem callback_between (es : List CbEntry) (hs : es.Pairwise fun a b => a.offset ≤ b.offset) (e : CbEntry)
    (he : e ∈ es) (hc : e.callback.isSome = true) :
    ∃ f, firstCallback es = some f ∧ f.offset ≤ e.offset ∧ e.offset ≤ lastCallbackOffset es := by
  have hf : ∃ f, firstCallback es = some f ∧ f.offset ≤ e.offset := by
    induction es with
    | nil => cases he
    | cons x es ih =>
      unfold firstCallback
      rw [List.find?_cons]
      cases hx : x.callback.isSome with
      | true =>
        refine ⟨x, rfl, ?_⟩
        rcases List.mem_cons.mp he with rfl | he
        · exact Nat.le_refl _
        · exact (List.pairwise_cons.mp hs).1 e he
      | false =>
        rcases List.mem_cons.mp he with rfl | he
        · rw [hx] at hc; cases hc
        · exact ih (List.pairwise_cons.mp hs).2 he
  obtain ⟨f, h1, h2⟩ := hf
  refine ⟨f, h1, h2, ?_⟩
  have hm : e ∈ es.filter fun e => e.callback.isSome := List.mem_filter.mpr ⟨he, hc⟩
  have hpf : (es.filter fun e => e.callback.isSome).Pairwise fun a b => a.offset ≤ b.offset := hs.filter _
  unfold lastCallbackOffset
  generalize es.filter (fun e => e.callback.isSome) = l at hm hpf
  rcases List.eq_nil_or_concat l with rfl | ⟨pre, z, rfl⟩
  · cases hm
  · rw [List.concat_eq_append] at hm hpf ⊢
    rw [List.getLast?_append]
    simp only [List.getLast?_singleton, Option.some_or, Option.elim_some]
    rcases List.mem_append.mp hm with hm | hm
    · exact (List.pairwise_append.mp hpf).2.2 e hm z (by simp)
    · simp only [List.mem_singleton] at hm
      subst hm
      exact Nat.le_refl _

theorem not_nodup_map {α β : Type} (f : α → β) (l : List α) (a b : α) (ha : a ∈ l) (hb : b ∈ l) (hab : a ≠ b)
    (hf : f a = f b) : ¬ (l.map f).Nodup := by
  intro h
  induction l with
  | nil => cases ha
  | cons x l ih =>
    rw [List.map_cons, List.nodup_cons] at h
    rcases List.mem_cons.mp ha with h1 | h1
    · rcases List.mem_cons.mp hb with h2 | h2
      · exact hab (h1.trans h2.symm)
      · exact h.1 (by rw [← h1, hf]; exact List.mem_map_of_mem h2)
    · rcases List.mem_cons.mp hb with h2 | h2
      · exact h.1 (by rw [← h2, ← hf]; exact List.mem_map_of_mem h1)
      · exact ih h1 h2 h.2

/-- Code of a new generator has, if there are bytes to receive, a case for each port with a callback. -/
theorem callback_case (g : Generated) (cb : Str → Option Str) (name : Option Str) (hin : 0 < g.inLen) (s : Signal)
    (hs : s ∈ g.require) (hcb : (cb s.name).isSome) :
    ∃ c, (GenState.new.generate g name (some cb)).2 = .ok c ∧
      c.macros = sortedByKey CbEntry.offset (g.require.map (mkEntry cb)) ∧
      ∀ t ∈ g.require, (cb t.name).isSome → mkEntry cb t ∈ c.cases := by
  have hpw := sortedByKey_pairwise CbEntry.offset (g.require.map (mkEntry cb))
  have hm : ∀ t ∈ g.require, mkEntry cb t ∈ sortedByKey CbEntry.offset (g.require.map (mkEntry cb)) := fun t ht =>
    (sortedByKey_perm _ _).mem_iff.mpr (List.mem_map_of_mem ht)
  obtain ⟨f, h1, -, -⟩ := callback_between _ hpw _ (hm s hs) hcb
  have hna : ∀ x y, notifyAfter g.inLen x y = some (notifyName x) := fun x y => by rw [notifyAfter, if_pos hin]
  have hgen : ∃ c, (GenState.new.generate g name (some cb)).2 = .ok c ∧
      c.macros = sortedByKey CbEntry.offset (g.require.map (mkEntry cb)) ∧
      c.cases = (sortedByKey CbEntry.offset (g.require.map (mkEntry cb))).filter fun e =>
        f.offset ≤ e.offset ∧ e.offset ≤ lastCallbackOffset (sortedByKey CbEntry.offset (g.require.map (mkEntry cb))) := by
    unfold GenState.generate
    simp only [GenState.new, List.nil_append, hna, notifyCases, h1, switchCases_some]
    exact ⟨_, rfl, rfl, rfl⟩
  obtain ⟨c, k1, k2, k3⟩ := hgen
  refine ⟨c, k1, k2, fun t ht htc => ?_⟩
  obtain ⟨f', j1, j2, j3⟩ := callback_between _ hpw _ (hm t ht) htc
  rw [h1] at j1
  cases j1
  rw [k3]
  exact List.mem_filter.mpr ⟨hm t ht, decide_eq_true ⟨j2, j3⟩⟩

/-- C69 is violated by every node with two ports with callbacks whose names differ only in case: the two cases of the
`switch` have one label, whatever is written nothing is called. -/
theorem C69_every_case_violated (g : Generated) (cb : Str → Option Str) (name : Option Str) (hin : 0 < g.inLen)
    (s t : Signal) (hs : s ∈ g.require) (ht : t ∈ g.require) (hsc : (cb s.name).isSome) (htc : (cb t.name).isSome)
    (hne : s.name ≠ t.name) (hm : macroName s.name = macroName t.name) :
    ∃ c, (GenState.new.generate g name (some cb)).2 = .ok c ∧ ∀ off len, c.written off len = none := by
  obtain ⟨c, k1, k2, k3⟩ := callback_case g cb name hin s hs hsc
  refine ⟨c, k1, fun off len => ?_⟩
  simp only [CallbackCode.written]
  rw [if_neg]
  rw [List.map_map]
  refine not_nodup_map _ _ (mkEntry cb s) (mkEntry cb t) (k3 s hs hsc) (k3 t ht htc) ?_ ?_
  · intro h
    exact hne (congrArg CbEntry.name h)
  · simp only [Function.comp_apply, CallbackCode.expand, CallbackCode.offsetMacro, macroValue, mkEntry, hm]

/-- C69 is violated by every node with a port of no bytes: if this port and the next one have callbacks (or any two that
start at one place), two cases of the `switch` have one label. -/
theorem C69_every_empty_violated (g : Generated) (cb : Str → Option Str) (name : Option Str) (hin : 0 < g.inLen)
    (hn : (g.require.map fun s => macroName s.name).Nodup)
    (s t : Signal) (hs : s ∈ g.require) (ht : t ∈ g.require) (hsc : (cb s.name).isSome) (htc : (cb t.name).isSome)
    (hne : s.name ≠ t.name) (ho : s.offset = t.offset) :
    ∃ c, (GenState.new.generate g name (some cb)).2 = .ok c ∧ ∀ off len, c.written off len = none := by
  obtain ⟨c, k1, k2, k3⟩ := callback_case g cb name hin s hs hsc
  refine ⟨c, k1, fun off len => ?_⟩
  have hnes : ((g.require.map (mkEntry cb)).map fun e => macroName e.name).Nodup := by
    rw [List.map_map]
    exact hn
  have hom : ∀ x ∈ g.require, c.offsetMacro x.name = x.offset := fun x hx => by
    unfold CallbackCode.offsetMacro
    rw [k2]
    exact macroValue_perm CbEntry.offset _ _ ((sortedByKey_perm _ _).trans (sortedByKey_perm _ _)) hnes (mkEntry cb x)
      (List.mem_map_of_mem hx)
  simp only [CallbackCode.written]
  rw [if_neg]
  rw [List.map_map]
  refine not_nodup_map _ _ (mkEntry cb s) (mkEntry cb t) (k3 s hs hsc) (k3 t ht htc) ?_ ?_
  · intro h
    exact hne (congrArg CbEntry.name h)
  · show c.offsetMacro s.name = c.offsetMacro t.name
    rw [hom s hs, hom t ht, ho]

theorem switchCases_none (last : Nat) (es : List CbEntry) (e : CbEntry) (he : e ∈ es) (ho : e.offset ≤ last) :
    switchCases none last es = .error .attributeError := by
  induction es with
  | nil => cases he
  | cons x es ih =>
    rw [switchCases]
    split
    · rfl
    · rename_i hx
      rcases List.mem_cons.mp he with rfl | he
      · exact absurd ho hx
      · exact ih he

/-- C69 is violated whenever none of the callbacks given is for a port of the node: the generator raises an exception,
if the node has bytes to receive at all. -/
theorem C69_every_unmatched_violated (n : Node) (g : Generated) (hg : generate n = .ok g) (cb : Str → Option Str)
    (name : Option Str) (hin : 0 < g.inLen) (hcb : ∀ s ∈ g.require, cb s.name = none) :
    (GenState.new.generate g name (some cb)).2 = .error .attributeError := by
  obtain ⟨n', h1, h2⟩ := bind_ok_iff.mp hg
  obtain ⟨rs, h3, h2⟩ := bind_ok_iff.mp h2
  obtain ⟨ps, h4, h2⟩ := bind_ok_iff.mp h2
  obtain ⟨ib, h5, h2⟩ := bind_ok_iff.mp h2
  obtain ⟨ob, h6, h2⟩ := bind_ok_iff.mp h2
  have hr : g.require = rs := by
    simp only [Except.ok.injEq] at h2
    rw [← h2]
  have hlen : g.inLen = totalLen g.require := by
    simp only [Except.ok.injEq] at h2
    rw [← h2]
  have hfst : ∃ s ∈ g.require, s.offset = 0 := by
    rw [hr]
    cases hp : n'.requires with
    | nil =>
      rw [hp] at h3
      cases h3
      rw [hlen, hr] at hin
      cases hin
    | cons p ps =>
      rw [hp] at h3
      obtain ⟨s, j1, j2⟩ := bind_ok_iff.mp h3
      obtain ⟨ss, j3, j4⟩ := bind_ok_iff.mp j2
      cases j4
      refine ⟨s, List.mem_cons_self, ?_⟩
      unfold genSignal at j1
      simp only [bind_ok_iff] at j1
      obtain ⟨_, _, _, _, _, _, _, _, j1⟩ := j1
      unfold mkSignal at j1
      simp only [bind_ok_iff] at j1
      obtain ⟨_, _, j1⟩ := j1
      split at j1
      · simp only [Except.ok.injEq] at j1
        subst j1
        rfl
      · cases j1
  obtain ⟨s, hs, hs0⟩ := hfst
  have hes : ∀ e ∈ sortedByKey CbEntry.offset (g.require.map (mkEntry cb)), e.callback = none := by
    intro e he
    obtain ⟨x, hx, rfl⟩ := List.mem_map.mp ((sortedByKey_perm _ _).mem_iff.mp he)
    exact hcb x hx
  have hf : firstCallback (sortedByKey CbEntry.offset (g.require.map (mkEntry cb))) = none := by
    unfold firstCallback
    rw [List.find?_eq_none]
    intro e he
    simp [hes e he]
  have hna : ∀ x y, notifyAfter g.inLen x y = some (notifyName x) := fun x y => by rw [notifyAfter, if_pos hin]
  have hsw := switchCases_none (lastCallbackOffset (sortedByKey CbEntry.offset (g.require.map (mkEntry cb)))) _
    (mkEntry cb s) ((sortedByKey_perm CbEntry.offset _).mem_iff.mpr (List.mem_map_of_mem hs))
    (by show s.offset ≤ _; omega)
  unfold GenState.generate
  simp only [GenState.new, List.nil_append, hna, notifyCases, hf, hsw]

/-- C70 is violated by every node without bytes to receive that is given callbacks: a handler is assigned that is not
defined. -/
theorem C70_every_no_ports_violated (g : Generated) (hin : g.inLen = 0) (cb : Str → Option Str) (name : Option Str) :
    ∃ c f, (GenState.new.generate g name (some cb)).2 = .ok c ∧ c.handler = some f ∧ c.notify = none := by
  unfold GenState.generate
  simp only [GenState.new, List.nil_append, notifyAfter, hin, Nat.lt_irrefl, if_false, notifyCases, gt_iff_lt]
  exact ⟨_, _, rfl, rfl, rfl⟩

/-- C70 is violated whenever a generator is used twice: what is emitted for the second node declares the callbacks of the
first one and has members for its ports; and if the second node has no bytes to receive, the function of the first one
is defined once more. -/
theorem C70_every_again_violated (st : GenState) (g g' : Generated) (name name' : Option Str) (cb cb' : Str → Option Str)
    (c : CallbackCode) (hc : ((st.generate g name (some cb)).1.generate g' name' (some cb')).2 = .ok c) :
    (∀ s ∈ g.require, ∀ f, cb s.name = some f → f ∈ c.prototypes ∧ s.name ∈ c.members) ∧
      (0 < g.inLen → g'.inLen = 0 → c.notify = some (notifyName (name.getD g.node.name))) := by
  have hst : ∀ s ∈ g.require, ∀ f, cb s.name = some f →
      f ∈ (st.generate g name (some cb)).1.functions ∧ s.name ∈ (st.generate g name (some cb)).1.localVars := by
    intro s hs f hf
    have h1 : f ∈ (sortedByKey CbEntry.offset (st.pending ++ g.require.map (mkEntry cb))).filterMap CbEntry.callback := by
      refine List.mem_filterMap.mpr ⟨mkEntry cb s, (sortedByKey_perm _ _).mem_iff.mpr ?_, hf⟩
      exact List.mem_append_right _ (List.mem_map_of_mem hs)
    have h2 : s.name ∈ (g.require.filter fun s => (cb s.name).isSome).map Signal.name :=
      List.mem_map_of_mem (List.mem_filter.mpr ⟨hs, by simp [hf]⟩)
    simp only [GenState.generate]
    split <;> exact ⟨List.mem_append_right _ h1, List.mem_append_right _ h2⟩
  have hno : 0 < g.inLen → (st.generate g name (some cb)).1.notify = some (notifyName (name.getD g.node.name)) := by
    intro h
    simp only [GenState.generate, notifyAfter, gt_iff_lt, if_pos h]
    split <;> rfl
  generalize (st.generate g name (some cb)).1 = st' at hc hst hno
  simp only [GenState.generate] at hc
  split at hc
  · cases hc
  · simp only [Except.ok.injEq] at hc
    subst hc
    refine ⟨fun s hs f hf => ⟨List.mem_append_left _ (hst s hs f hf).1, ?_⟩, fun h h' => ?_⟩
    · exact (sortedByName_perm _ _).mem_iff.mpr (List.mem_append_left _ (hst s hs f hf).2)
    · simp only [notifyAfter, h', gt_iff_lt, Nat.lt_irrefl, if_false]
      exact hno h

section Examples

theorem exists_ok_of_decide {α : Type} {x : Py α} (P : α → Prop) [DecidablePred P]
    (h : (match x with | .ok a => decide (P a) | .error _ => false) = true) : ∃ a, x = .ok a ∧ P a := by
  cases x with
  | error e => cases h
  | ok a => exact ⟨a, rfl, of_decide_eq_true h⟩

example : ∃ g, generate (gtNode [(['a'], ['S']), (['A'], ['C'])]) = .ok g ∧ 0 < g.inLen ∧
    g.require.map Signal.name = [['a'], ['A']] ∧ macroName ['a'] = macroName ['A'] := by
  refine exists_ok_of_decide (fun g : Generated => 0 < g.inLen ∧ g.require.map Signal.name = [['a'], ['A']] ∧
    macroName ['a'] = macroName ['A']) ?_
  decide +kernel

example : ∃ g, generate (gtNode [(['A'], ['C', '[', '0', ']']), (['B'], ['C'])]) = .ok g ∧ 0 < g.inLen ∧
    g.require.map (fun s => (s.name, s.offset)) = [(['A'], 0), (['B'], 0)] := by
  refine exists_ok_of_decide (fun g : Generated => 0 < g.inLen ∧
    g.require.map (fun s => (s.name, s.offset)) = [(['A'], 0), (['B'], 0)]) ?_
  decide +kernel

example : ∃ g, generate (gtNode []) = .ok g ∧ g.inLen = 0 := by
  refine exists_ok_of_decide (fun g : Generated => g.inLen = 0) ?_
  decide +kernel

end Examples

end Apx
