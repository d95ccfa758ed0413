import Verif.Proofs.FileMap2

/-! C13-C18: the file map. -/

namespace Apx.FileMap

/-- Invariant of every world reached from an empty map. -/
structure World.Good (w : World) : Prop where
  inv : Inv w.map
  ids : ∀ i, (w.objs i).id = i
  same : ∀ f ∈ w.map.items, w.objs f.id = f ∧ f.isApx = true

theorem insert_isApx {m m' : FileMap} {f f' : FileEnt} (h : m.insert f = .ok (m', f')) :
    f.isApx = true := by
  unfold insert at h
  split at h
  · simp at h
  · rename_i hx; simpa using hx

theorem World.step_good {w : World} (h : w.Good) (op : Op) : (w.step op).1.Good := by
  cases op with
  | insert i =>
    unfold World.step
    simp only
    cases hi : w.map.insert (w.objs i) with
    | error e => exact h
    | ok mf =>
      obtain ⟨m, f⟩ := mf
      simp only
      have hinv := inv_insert h.inv hi
      have hap := insert_isApx hi
      obtain ⟨l1, l2, h1, h2, -⟩ := insert_items h.inv hi
      obtain ⟨k, hk, -, hcase⟩ := insert_ok hi
      have hfid : f.id = i := by
        rcases hcase with ⟨rfl, -⟩ | ⟨-, rfl, -⟩
        · exact h.ids i
        · exact h.ids i
      have hfapx : f.isApx = true := by
        rcases hcase with ⟨rfl, -⟩ | ⟨-, rfl, -⟩
        · exact hap
        · exact hap
      refine ⟨hinv, ?_, ?_⟩
      · intro j
        by_cases hj : j = i
        · simp [hj, hfid]
        · simp [hj, h.ids]
      · intro g hg
        simp only at hg ⊢
        rw [h2] at hg
        have hold : ∀ g ∈ w.map.items, (if g.id = i then f else w.objs g.id) = g ∧ g.isApx = true := by
          intro g hg
          obtain ⟨hs, ha⟩ := h.same g hg
          refine ⟨?_, ha⟩
          by_cases hgi : g.id = i
          · rw [if_pos hgi]
            rw [hgi] at hs
            rcases hcase with ⟨hf, -⟩ | ⟨hn, -, -⟩
            · rw [hf, hs]
            · obtain ⟨a, haddr⟩ := h.inv.mem_addr hg
              rw [hs, haddr] at hn; simp at hn
          · rw [if_neg hgi]; exact hs
        simp only [List.mem_append, List.mem_cons] at hg
        rcases hg with hg | rfl | hg
        · exact hold g (by rw [h1]; simp [hg])
        · exact ⟨by rw [if_pos hfid], hfapx⟩
        · exact hold g (by rw [h1]; simp [hg])
  | remove i =>
    unfold World.step
    simp only
    cases hi : w.map.remove (w.objs i) with
    | error e => exact h
    | ok m =>
      obtain ⟨j, -, rfl⟩ := remove_ok hi
      exact ⟨inv_eraseIdx h.inv j, h.ids, fun f hf => h.same f (List.mem_of_mem_eraseIdx hf)⟩

theorem World.run_good {w : World} (h : w.Good) (ops : List Op) : (w.run ops).1.Good := by
  induction ops generalizing w with
  | nil => exact h
  | cons op ops ih => exact ih (World.step_good h op)

theorem World.step_len {w : World} (h : w.Good) (op : Op) :
    ((w.step op).1.map.len : Int) = w.map.len + op.delta (w.step op).2 := by
  cases op with
  | insert i =>
    unfold World.step
    simp only
    cases hi : w.map.insert (w.objs i) with
    | error e => simp [Op.delta]
    | ok mf =>
      obtain ⟨m, f⟩ := mf
      obtain ⟨l1, l2, h1, h2, h3⟩ := insert_items h.inv hi
      simp [len, h3, Op.delta]
  | remove i =>
    unfold World.step
    simp only
    cases hi : w.map.remove (w.objs i) with
    | error e => simp [Op.delta]
    | ok m =>
      obtain ⟨j, hj, rfl⟩ := remove_ok hi
      obtain ⟨hlt, -⟩ := index_ok hj
      have := h.inv.len
      simp [len, List.length_eraseIdx, Op.delta]
      rw [if_pos (by omega)]
      omega

theorem start_good (objs : Nat → FileEnt) (hid : ∀ i, (objs i).id = i) : World.Good ⟨empty, objs⟩ :=
  ⟨inv_empty, hid, by simp [empty]⟩

/-- C13: after any history of inserts and removes (of any file objects, with or without preset
addresses, raising or not) the map's files are in ascending address order, and `len` is the
number of successful inserts minus successful removes. -/
theorem C13_sorted_any_history (objs : Nat → FileEnt) (hid : ∀ i, (objs i).id = i)
    (ops : List Op) :
    let r := World.run ⟨empty, objs⟩ ops
    r.1.map.items.Pairwise AddrLe ∧ (r.1.map.len : Int) = r.2 ∧
      r.1.map.items.length = r.1.map.len := by
  have hg := World.run_good (start_good objs hid) ops
  refine ⟨hg.inv.addrLe, ?_, hg.inv.len⟩
  suffices ∀ (w : World), w.Good → ((w.run ops).1.map.len : Int) = w.map.len + (w.run ops).2 by
    have := this _ (start_good objs hid)
    simpa [len, empty] using this
  clear hg
  induction ops with
  | nil => intro w _; simp [World.run]
  | cons op ops ih =>
    intro w hw
    have h1 := World.step_len hw op
    have h2 := ih _ (World.step_good hw op)
    simp only [World.run]
    rw [h2, h1]
    omega

/-- Example objects used below: a definition file, two port data files, a user file. -/
def exObjs : Nat → FileEnt
  | 0 => ⟨0, true, "a.apx".toList, 40, none⟩
  | 1 => ⟨1, true, "a.out".toList, 5, none⟩
  | 2 => ⟨2, true, "b.in".toList, 7, none⟩
  | 3 => ⟨3, true, "user".toList, 9, some 17⟩
  | n => ⟨n, true, "z.out".toList, 0, none⟩

theorem exObjs_id (i : Nat) : (exObjs i).id = i := by
  match i with
  | 0 | 1 | 2 | 3 => rfl
  | n + 4 => rfl

example : (World.run ⟨empty, exObjs⟩ [.insert 1, .insert 0, .insert 2, .insert 3, .remove 1, .remove 1]).1.map.items.map
    (fun f => (f.id, f.address)) = [(3, some 17), (2, some 1024), (0, some 67108864)] := by
  decide +kernel

/-- Histories in which every inserted file has no address yet (so the map places it). -/
inductive AutoReach (objs : Nat → FileEnt) : World → Prop
  | start : AutoReach objs ⟨empty, objs⟩
  | insert (w : World) (i : Nat) : AutoReach objs w → (w.objs i).address = none →
      AutoReach objs (w.step (.insert i)).1
  | remove (w : World) (i : Nat) : AutoReach objs w → AutoReach objs (w.step (.remove i)).1

theorem autoReach_laid {objs : Nat → FileEnt} (hid : ∀ i, (objs i).id = i)
    (hpos : ∀ i, 0 < (objs i).length) {w : World} (h : AutoReach objs w) :
    w.Good ∧ Laid w.map ∧ ∀ i, (w.objs i).length = (objs i).length := by
  induction h with
  | start => exact ⟨start_good objs hid, laid_empty, fun _ => rfl⟩
  | insert w i _ hnone ih =>
    obtain ⟨hg, hl, hlen⟩ := ih
    refine ⟨World.step_good hg _, ?_⟩
    unfold World.step
    simp only
    cases hi : w.map.insert (w.objs i) with
    | error e => exact ⟨hl, hlen⟩
    | ok mf =>
      obtain ⟨m, f⟩ := mf
      refine ⟨laid_insert hl hnone (by rw [hlen]; exact hpos i) hi, fun j => ?_⟩
      simp only
      by_cases hj : j = i
      · subst hj
        rw [if_pos rfl]
        obtain ⟨k, hk, -, hcase⟩ := insert_ok hi
        rcases hcase with ⟨rfl, -⟩ | ⟨-, rfl, -⟩ <;> exact hlen j
      · rw [if_neg hj]; exact hlen j
  | remove w i _ ih =>
    obtain ⟨hg, hl, hlen⟩ := ih
    refine ⟨World.step_good hg _, ?_⟩
    unfold World.step
    simp only
    cases hi : w.map.remove (w.objs i) with
    | error e => exact ⟨hl, hlen⟩
    | ok m => exact ⟨laid_remove hl hi, hlen⟩

/-- C14, for files of positive length: in any history of automatic placements and removals all
files in the map are pairwise disjoint and each lies, aligned, in the region of its name.
Missing from the full property: files of length zero, for which it is false
(`C14_auto_placement_violated`). -/
theorem C14_auto_placement_partial (objs : Nat → FileEnt) (hid : ∀ i, (objs i).id = i)
    (hpos : ∀ i, 0 < (objs i).length) (w : World) (h : AutoReach objs w) :
    w.map.items.Pairwise Disjoint ∧ ∀ f ∈ w.map.items, InRegion f := by
  obtain ⟨-, hl, -⟩ := autoReach_laid hid hpos h
  exact ⟨hl.before.imp Before.disjoint, hl.region⟩

/-- Three port data files, the first of length zero. -/
def zeroObjs : Nat → FileEnt
  | 0 => ⟨0, true, "a.out".toList, 0, none⟩
  | 1 => ⟨1, true, "b.out".toList, 5, none⟩
  | n => ⟨n, true, "c.out".toList, 5, none⟩

/-- C14, violation: after a zero-length file the next two files are given the same addresses. -/
theorem C14_auto_placement_violated :
    ∃ objs : Nat → FileEnt, (∀ i, (objs i).id = i) ∧ ∃ w, AutoReach objs w ∧
      ∃ f g, [f, g].Sublist w.map.items ∧ f.id ≠ g.id ∧ ¬ Disjoint f g := by
  refine ⟨zeroObjs, ?_, _, .insert _ 2 (.insert _ 1 (.insert _ 0 .start (by rfl)) (by decide +kernel)) (by decide +kernel), ?_⟩
  · intro i
    match i with
    | 0 | 1 => rfl
    | n + 2 => rfl
  · refine ⟨⟨2, true, "c.out".toList, 5, some 0⟩, ⟨1, true, "b.out".toList, 5, some 0⟩, ?_, by decide, ?_⟩
    · decide +kernel
    · intro h
      exact h 3 ⟨⟨0, rfl, by decide, by decide⟩, ⟨0, rfl, by decide, by decide⟩⟩

/-- Re-inserting a file that was removed keeps its old address even if another file was placed
there in the meantime (this history is outside C14's hypothesis "no preset address"). -/
theorem C14_reinsert_overlap :
    ∃ objs : Nat → FileEnt, (∀ i, (objs i).id = i) ∧ (∀ i, 0 < (objs i).length) ∧
      ∃ ops f g, [f, g].Sublist (World.run ⟨empty, objs⟩ ops).1.map.items ∧ f.id ≠ g.id ∧
        ¬ Disjoint f g := by
  refine ⟨fun i => ⟨i, true, "x.out".toList, 4, none⟩, fun _ => rfl, fun _ => Nat.succ_pos 3,
    [.insert 0, .remove 0, .insert 1, .insert 0],
    ⟨0, true, "x.out".toList, 4, some 0⟩, ⟨1, true, "x.out".toList, 4, some 0⟩, ?_, by decide, ?_⟩
  · decide +kernel
  · intro h
    exact h 3 ⟨⟨0, rfl, by decide, by decide⟩, ⟨0, rfl, by decide, by decide⟩⟩

/-- Positive-length objects for the example below. -/
def exObjs' (i : Nat) : FileEnt :=
  ⟨i, true, (if i % 3 = 0 then "n.apx".toList else if i % 3 = 1 then "n.out".toList else "n".toList), i + 1, none⟩

/-- A non-trivial automatic history meets the hypotheses of C14. -/
example : (∀ i, (exObjs' i).id = i) ∧ (∀ i, 0 < (exObjs' i).length) ∧
    ∃ w, AutoReach exObjs' w ∧ w.map.items.map (fun f => (f.id, f.address)) =
      [(4, some 0), (7, some 1024), (3, some 67108864), (2, some 536870912)] := by
  refine ⟨fun i => rfl, fun i => by simp [exObjs'], _,
    .insert _ 2 (.insert _ 3 (.insert _ 7 (.insert _ 4 .start (by decide +kernel)) (by decide +kernel))
      (by decide +kernel)) (by decide +kernel), ?_⟩
  decide +kernel

/-- C15: in any map reached by any history, if its files have positive length and do not overlap,
`findByAddress(x)` returns `f` if and only if `f` is a file of the map that contains `x`
(hence `None` if and only if no file contains `x`). -/
theorem C15_findByAddress (objs : Nat → FileEnt) (hid : ∀ i, (objs i).id = i) (ops : List Op)
    (m : FileMap) (hm : m = (World.run ⟨empty, objs⟩ ops).1.map)
    (hpos : ∀ f ∈ m.items, 0 < f.length) (hd : m.items.Pairwise Disjoint) (x : Int) :
    (∀ f, m.findByAddress x = some f ↔ f ∈ m.items ∧ Occupies f x) ∧
    (m.findByAddress x = none ↔ ∀ f ∈ m.items, ¬ Occupies f x) := by
  have hg := World.run_good (start_good objs hid) ops
  have hinv := hg.inv
  rw [← hm] at hinv
  have hb : m.items.Pairwise Before := by
    have h2 := hinv.addrLe
    rw [List.pairwise_iff_getElem] at *
    intro i j hi hj hij
    exact before_of_disjoint (h2 i j hi hj hij) (hd i j hi hj hij) (hpos _ (List.getElem_mem hj))
  have key := fun f => find_before hinv hb hpos x f
  refine ⟨key, ?_⟩
  constructor
  · intro hn f hf hocc
    have := (key f).mpr ⟨hf, hocc⟩
    rw [hn] at this; simp at this
  · intro hn
    cases hx : m.findByAddress x with
    | none => rfl
    | some f =>
      obtain ⟨h1, h2⟩ := (key f).mp hx
      exact absurd h2 (hn f h1)

example : let m := (World.run ⟨empty, exObjs⟩ [.insert 1, .insert 0, .insert 2, .insert 3]).1.map
    (∀ f ∈ m.items, 0 < f.length) ∧ (m.findByAddress 1030).map (·.id) = some 2 ∧
    (m.findByAddress 1031) = none := by decide +kernel

/-- C15 with a zero-length file at the same start address: the file containing the address is
missed. -/
theorem C15_zero_length_violated :
    ∃ objs : Nat → FileEnt, (∀ i, (objs i).id = i) ∧ ∃ ops f,
      let m := (World.run ⟨empty, objs⟩ ops).1.map
      m.items.Pairwise Disjoint ∧ f ∈ m.items ∧ Occupies f 2 ∧ m.findByAddress 2 = none := by
  refine ⟨fun i => if i = 0 then ⟨i, true, [], 8, some 0⟩ else ⟨i, true, [], 0, some 1⟩, ?_,
    [.insert 0, .insert 1], ⟨0, true, [], 8, some 0⟩, ?_⟩
  · intro i; simp only; split <;> rfl
  · have : (World.run ⟨empty, fun i => if i = 0 then ⟨i, true, [], 8, some 0⟩ else ⟨i, true, [], 0, some 1⟩⟩
        [.insert 0, .insert 1]).1.map = ⟨[0, 1], [⟨0, true, [], 8, some 0⟩, ⟨1, true, [], 0, some 1⟩]⟩ := by
      decide +kernel
    simp only [this]
    refine ⟨?_, by simp, ⟨0, rfl, by decide, by decide⟩, by decide +kernel⟩
    simp only [List.pairwise_cons, List.mem_singleton, forall_eq, List.not_mem_nil, false_implies, implies_true,
      List.Pairwise.nil, and_true]
    rintro x ⟨-, ⟨a, ha, h1, h2⟩⟩
    simp at h2; omega

/-- C15, exactly, in any map reached by any history, whatever its files: of the files that begin at `x` or after it only
the first is looked at, and of those that begin before `x` only the last. -/
theorem C15_exactly (objs : Nat → FileEnt) (hid : ∀ i, (objs i).id = i) (ops : List Op)
    (m : FileMap) (hm : m = (World.run ⟨empty, objs⟩ ops).1.map) (x : Int) :
    ∃ below rest, m.items = below ++ rest ∧ (∀ f ∈ below, ∃ a, f.address = some a ∧ a < x) ∧
      (∀ f ∈ rest, ∃ a, f.address = some a ∧ x ≤ a) ∧
      ∀ f, m.findByAddress x = some f ↔ (rest.head? = some f ∧ Occupies f x) ∨
        ((∀ g, rest.head? = some g → ¬ Occupies g x) ∧ below.getLast? = some f ∧ Occupies f x) := by
  have hinv := (World.run_good (start_good objs hid) ops).inv
  rw [← hm] at hinv
  obtain ⟨s1, s2, s3, s4, -, -⟩ := hinv.split x
  have hl := hinv.len
  have hhits : ∀ g : FileEnt, hits g x = true ↔ Occupies g x := by
    intro g
    unfold hits Occupies
    cases hg : g.address with
    | none => simp
    | some a => simp
  refine ⟨m.items.take (bisectLeft m.keys x), m.items.drop (bisectLeft m.keys x), (List.take_append_drop _ _).symm, s3, s4, ?_⟩
  clear s3 s4
  generalize hc : bisectLeft m.keys x = c at *
  intro f
  have hprev : m.findPrevious c x = some f ↔ (m.items.take c).getLast? = some f ∧ Occupies f x := by
    unfold findPrevious
    by_cases h0 : c > 0
    · rw [if_pos h0, List.getLast?_eq_getElem?, List.length_take, Nat.min_eq_left s2, List.getElem?_take_of_lt (by omega)]
      cases hi : m.items[c - 1]? with
      | none => simp
      | some g =>
        simp only [Option.some.injEq]
        by_cases hh : hits g x = true
        · rw [if_pos hh]
          simp only [Option.some.injEq]
          exact ⟨fun h => ⟨h, h ▸ (hhits g).mp hh⟩, fun h => h.1⟩
        · rw [if_neg hh]
          simp only [reduceCtorEq, false_iff, not_and]
          rintro rfl h
          exact hh ((hhits _).mpr h)
    · rw [if_neg h0]
      have : c = 0 := by omega
      simp [this]
  have hhead : (m.items.drop c).head? = m.items[c]? := List.head?_drop
  unfold findByAddress
  rw [hc, hhead]
  by_cases hk : m.keys.length = 0
  · rw [if_pos hk]
    have hm0 : m.items = [] := List.length_eq_zero_iff.mp (by omega)
    simp [hm0]
  · rw [if_neg hk]
    dsimp only
    cases hi : m.items[c]? with
    | none =>
      simp only [hprev, reduceCtorEq, false_and, false_implies, implies_true, true_and, false_or]
    | some g =>
      simp only [Option.some.injEq]
      by_cases hh : hits g x = true
      · rw [if_pos hh]
        have ho := (hhits g).mp hh
        simp only [Option.some.injEq]
        constructor
        · rintro rfl
          exact .inl ⟨rfl, ho⟩
        · rintro (⟨h, _⟩ | ⟨h, _⟩)
          · exact h
          · exact absurd ho (h g rfl)
      · rw [if_neg hh, hprev]
        constructor
        · rintro ⟨h1, h2⟩
          exact .inr ⟨fun k hk h => hh ((hhits g).mpr (hk ▸ h)), h1, h2⟩
        · rintro (⟨rfl, h⟩ | ⟨_, h⟩)
          · exact absurd ((hhits _).mpr h) hh
          · exact h

/-- C13: after any history, indexing the map with 0, 1, .., `len` - 1 yields its files in ascending address
order, each once, and any other index raises IndexError (so iterating over the map yields its files). -/
theorem C13_iterate (objs : Nat → FileEnt) (hid : ∀ i, (objs i).id = i) (ops : List Op) :
    let m := (World.run ⟨empty, objs⟩ ops).1.map
    (List.range m.len).map m.getItem = m.items.map Except.ok ∧
      ∀ i, m.len ≤ i → m.getItem i = .error .indexError := by
  intro m
  have hl : m.items.length = m.len := (C13_sorted_any_history objs hid ops).2.2
  constructor
  · apply List.ext_getElem
    · simp [hl]
    · intro i h1 h2
      simp only [List.length_map] at h2
      simp [getItem, List.getElem?_eq_getElem h2]
  · intro i hi
    simp [getItem, List.getElem?_eq_none (show m.items.length ≤ i by omega)]

example : let m := (World.run ⟨empty, exObjs⟩ [.insert 1, .insert 0, .insert 2]).1.map
    m.len = 3 ∧ ((m.getItem 1).toOption.map (·.id)) ≠ ((m.getItem 0).toOption.map (·.id)) := by decide +kernel

/-- C16, violation: whatever the map holds, a file is not found by its name if the file with the lowest address has
another name. -/
theorem C16_findByName_violated (m : FileMap) (first f : FileEnt) (h : m.items.head? = some first) (_hf : f ∈ m.items)
    (hn : first.name ≠ f.name) : m.findByName f.name = none := by
  unfold findByName
  cases hi : m.items with
  | nil => rfl
  | cons g gs =>
    rw [hi] at h
    simp only [List.head?_cons, Option.some.injEq] at h
    subst h
    simp [hn]

/-- A map holding a file of the requested name for which `findByName` returns
`None`. -/
example :
    ∃ objs : Nat → FileEnt, (∀ i, (objs i).id = i) ∧ ∃ ops f,
      f ∈ (World.run ⟨empty, objs⟩ ops).1.map.items ∧
      (World.run ⟨empty, objs⟩ ops).1.map.findByName f.name = none :=
  ⟨exObjs, exObjs_id, [.insert 1, .insert 2], ⟨2, true, "b.in".toList, 7, some 1024⟩,
    by decide +kernel, by decide +kernel⟩

/-- C16, the part that holds: what is returned is a file of the map with that name, and the file
with the lowest address is found. Missing: all files at higher addresses. -/
theorem C16_findByName_partial (m : FileMap) (name : Str) :
    (∀ f, m.findByName name = some f → f ∈ m.items ∧ f.name = name) ∧
    (∀ f, m.items.head? = some f → f.name = name → m.findByName name = some f) := by
  unfold findByName
  cases m.items with
  | nil => simp
  | cons g gs =>
    constructor
    · intro f hf
      simp only at hf
      split at hf
      · simp at hf; subst hf; simp_all
      · simp at hf
    · intro f hf hn
      simp at hf; subst hf
      simp [hn]

example : (FileMap.mk [0] [⟨1, true, "q".toList, 1, some 0⟩]).findByName "q".toList =
    some ⟨1, true, "q".toList, 1, some 0⟩ := by decide

/-- C17, violation: the port data region is empty, yet inserting a five byte port data file raises
`UnboundLocalError`, because a definition file was inserted before. -/
theorem C17_room_violated :
    ∃ objs : Nat → FileEnt, (∀ i, (objs i).id = i) ∧ ∃ w, AutoReach objs w ∧
      (w.objs 1).isApx = true ∧ (w.objs 1).address = none ∧ (w.objs 1).length = 5 ∧
      regionOf (w.objs 1).name = ⟨0, 67108864, 1024⟩ ∧
      (∀ f ∈ w.map.items, ∀ x, Occupies f x → 67108864 ≤ x) ∧
      w.map.insert (w.objs 1) = .error .unboundLocal := by
  refine ⟨exObjs, exObjs_id, _, .insert _ 0 .start rfl, by decide +kernel, by decide +kernel, by decide +kernel, ?_, ?_, by decide +kernel⟩
  · have : (((World.mk empty exObjs).step (.insert 0)).1.objs 1).name = "a.out".toList := by decide +kernel
    rw [this]; decide
  · have : ((World.mk empty exObjs).step (.insert 0)).1.map.items = [⟨0, true, "a.apx".toList, 40, some 67108864⟩] := by
      decide +kernel
    rw [this]
    intro f hf x ⟨a, ha, h1, h2⟩
    simp at hf; subst hf; simp at ha; omega

/-- C17, exactly when it holds: inserting a file (without address) whose region contains no file
and is large enough returns normally if and only if the map is empty or some file lies below the
region; otherwise `UnboundLocalError` is raised. The file then sits at the start of its region. -/
theorem C17_room_partial (objs : Nat → FileEnt) (hid : ∀ i, (objs i).id = i) (ops : List Op)
    (m : FileMap) (hm : m = (World.run ⟨empty, objs⟩ ops).1.map)
    (f : FileEnt) (hapx : f.isApx = true) (hnone : f.address = none)
    (hempty : ∀ g ∈ m.items, ∀ a, g.address = some a →
      a < (regionOf f.name).start ∨ (regionOf f.name).stop ≤ a)
    (hfits : (regionOf f.name).start + f.length ≤ (regionOf f.name).stop) :
    ((m.items = [] ∨ ∃ g ∈ m.items, ∃ a, g.address = some a ∧ a < (regionOf f.name).start) →
      ∃ m', m.insert f = .ok (m', { f with address := some ((regionOf f.name).start : Int) })) ∧
    (¬ (m.items = [] ∨ ∃ g ∈ m.items, ∃ a, g.address = some a ∧ a < (regionOf f.name).start) →
      m.insert f = .error .unboundLocal) := by
  have hg := World.run_good (start_good objs hid) ops
  have hinv := hg.inv
  rw [← hm] at hinv
  have hreg := region_le f.name
  have hins : ∀ g, assignFileAddressDefault m f = .ok g → ∀ k, g.address = some k →
      m.insert f = .ok (⟨m.keys.insertIdx (bisectLeft m.keys k) k, m.items.insertIdx (bisectLeft m.keys k) g⟩, g) := by
    intro g hd k hk
    unfold insert
    rw [hapx, hnone]
    simp only [Bool.not_true, Bool.false_eq_true, if_false, hd, bind, Except.bind, hk]
  have hfits' : ((regionOf f.name).start : Int) + f.length ≤ ((regionOf f.name).stop : Int) := by
    exact_mod_cast hfits
  have hplace : placement m (regionOf f.name).start (regionOf f.name).stop (regionOf f.name).align =
      .ok (some ((regionOf f.name).start : Int)) →
      ∃ m', m.insert f = .ok (m', { f with address := some ((regionOf f.name).start : Int) }) := by
    intro hp
    refine ⟨_, hins _ ?_ _ rfl⟩
    rw [assignDefault_region, assign_region, hp]
    simp only
    rw [if_pos hfits']
  constructor
  · intro hor
    apply hplace
    by_cases hne : m.items = []
    · have : m.keys.length = 0 := by rw [← hinv.len, hne]; rfl
      unfold placement; rw [if_pos this]
    · obtain ⟨g, hgm, a, hga, hlt⟩ := hor.resolve_left hne
      rcases placement_eq hinv hne _ _ (regionOf f.name).align hreg.1 with ⟨h0, -⟩ | ⟨q, b, hq, hc, hqb, hbe, hp⟩
      · exfalso
        obtain ⟨-, -, -, h4, -, -⟩ := hinv.split ((regionOf f.name).stop : Int)
        rw [h0] at h4
        obtain ⟨a', ha', hle⟩ := h4 g (by simpa using hgm)
        rw [hga] at ha'; simp at ha'
        omega
      · rw [hp]
        rcases hempty q (List.mem_of_getElem? hq) b hqb with h | h
        · rw [if_pos h]
        · omega
  · intro hnor
    have hne : m.items ≠ [] := fun h => hnor (.inl h)
    have hp : placement m (regionOf f.name).start (regionOf f.name).stop (regionOf f.name).align = .ok none := by
      rcases placement_eq hinv hne _ _ (regionOf f.name).align hreg.1 with ⟨-, hp⟩ | ⟨q, b, hq, hc, hqb, hbe, hp⟩
      · exact hp
      · exfalso
        rcases hempty q (List.mem_of_getElem? hq) b hqb with h | h
        · exact hnor (.inr ⟨q, List.mem_of_getElem? hq, b, hqb, h⟩)
        · omega
    unfold insert
    rw [hapx, hnone]
    simp only [Bool.not_true, Bool.false_eq_true, if_false, assignDefault_region, assign_region, hp, bind, Except.bind]

/-- C17 for the first region: a port data file never fits "below" anything, so once any other file
but no port data file is present, no port data file can be inserted at all. -/
example : (World.run ⟨empty, exObjs⟩ [.insert 0]).1.map.insert (exObjs 1) = .error .unboundLocal ∧
    (World.run ⟨empty, exObjs⟩ [.insert 1, .insert 0]).2 = 2 := by decide +kernel

/-- C18: removing a file that is in the map deletes exactly one entry, which is that file, and
keeps everything else in place. -/
theorem C18_remove_present (objs : Nat → FileEnt) (hid : ∀ i, (objs i).id = i) (ops : List Op)
    (i : Nat) (w : World) (hw : w = (World.run ⟨empty, objs⟩ ops).1)
    (hi : ∃ f ∈ w.map.items, f.id = i) :
    ∃ l1 f l2 m', w.map.items = l1 ++ f :: l2 ∧ f = w.objs i ∧ f.id = i ∧
      w.map.remove (w.objs i) = .ok m' ∧ m'.items = l1 ++ l2 ∧ m'.len + 1 = w.map.len := by
  have hg := World.run_good (start_good objs hid) ops
  rw [← hw] at hg
  obtain ⟨g, hgm, hgi⟩ := hi
  obtain ⟨hsame, hapx⟩ := hg.same g hgm
  rw [hgi] at hsame
  obtain ⟨j, hj⟩ := index_of_mem hg.inv (f := w.objs i) hgm (by rw [hsame]) (by rw [hsame])
  obtain ⟨hlt, hidj⟩ := index_ok hj
  have hfj : w.map.items[j] = w.objs i := by
    have := (hg.same _ (List.getElem_mem hlt)).1
    rw [hidj, hg.ids i] at this
    exact this.symm
  refine ⟨w.map.items.take j, w.map.items[j], w.map.items.drop (j + 1), ⟨w.map.keys.eraseIdx j, w.map.items.eraseIdx j⟩, ?_, hfj, by rw [hfj]; exact hg.ids i, ?_, ?_, ?_⟩
  · rw [List.getElem_cons_drop, List.take_append_drop]
  · unfold remove
    rw [hj]
    have : (w.objs i).isApx = true := by rw [hsame]; exact hapx
    rw [this]; rfl
  · exact List.eraseIdx_eq_take_drop_succ ..
  · have := hg.inv.len
    simp only [len, List.length_eraseIdx]
    rw [if_pos (by omega)]
    omega

/-- C18: removing a file that is not in the map raises and changes nothing: `ValueError` if the
file has an address or the map is empty, else `TypeError` (the file never had an address). -/
theorem C18_remove_absent (objs : Nat → FileEnt) (hid : ∀ i, (objs i).id = i) (ops : List Op)
    (i : Nat) (w : World) (hw : w = (World.run ⟨empty, objs⟩ ops).1)
    (hapx : (w.objs i).isApx = true) (hi : ∀ f ∈ w.map.items, f.id ≠ i) :
    w.map.remove (w.objs i) =
      .error (if (w.objs i).address = none ∧ w.map.len ≠ 0 then .typeError else .valueError) ∧
    (w.step (.remove i)).1 = w := by
  have hg := World.run_good (start_good objs hid) ops
  rw [← hw] at hg
  have h1 : w.map.remove (w.objs i) =
      .error (if (w.objs i).address = none ∧ w.map.len ≠ 0 then .typeError else .valueError) := by
    unfold remove
    rw [hapx, index_of_not_mem (f := w.objs i) (fun g hgm => by rw [hg.ids i]; exact hi g hgm)]
    rfl
  refine ⟨h1, ?_⟩
  unfold World.step
  simp only [h1]

example : let w := (World.run ⟨empty, fun i => ⟨i, true, [], 3, some 7⟩⟩ [.insert 1, .insert 2, .insert 3]).1
    w.map.items.map (·.id) = [3, 2, 1] ∧
    (w.map.remove (w.objs 2)).map (fun m => m.items.map (·.id)) = .ok [3, 1] ∧
    (w.map.remove (w.objs 9)) = .error .valueError := by decide +kernel

end Apx.FileMap
