import Verif.Props.FileMap

/-! C14: where automatic placement fails, for all maps. -/

namespace Apx.FileMap

/-- The last file below the end of a region is empty and lies in the region at the aligned address `p`. -/
def EmptyLast (m : FileMap) (r : Region) (p : Int) : Prop :=
  ∃ l1 y l2, m.items = l1 ++ y :: l2 ∧ (∀ q ∈ l2, ∃ a, q.address = some a ∧ (r.stop : Int) ≤ a) ∧
    y.address = some p ∧ y.length = 0 ∧ p % (r.align : Int) = 0 ∧ (r.start : Int) ≤ p ∧ p < r.stop

theorem align_same (p : Int) (b : Nat) (hb : 0 < b) (h : p % (b : Int) = 0) : (p + b - 1) - (p + b - 1) % b = p := by
  have e : (p + b - 1) % (b : Int) = b - 1 := by
    rw [show p + (b : Int) - 1 = (b - 1) + p by omega, Int.add_emod, h, Int.add_zero, Int.emod_emod,
      Int.emod_eq_of_lt (by omega) (by omega)]
  omega

/-- A file placed in that region gets the address of the empty file, which stays the last. -/
theorem EmptyLast.insert {m m' : FileMap} {f f' : FileEnt} {p : Int} (hinv : Inv m) (h : EmptyLast m (regionOf f.name) p)
    (hn : f.address = none) (hi : m.insert f = .ok (m', f')) :
    f'.address = some p ∧ f'.length = f.length ∧ EmptyLast m' (regionOf f.name) p := by
  obtain ⟨k, hk, hm', hcase⟩ := insert_ok hi
  rcases hcase with ⟨-, hfa⟩ | ⟨-, hf', has⟩
  · rw [hn] at hfa; simp at hfa
  rw [assignDefault_region] at has
  obtain ⟨p', hp1, hp2, -⟩ := assign_ok has
  have hpk : p' = k := by
    have : f'.address = some p' := by rw [hp1]
    rw [hk] at this; simpa using this.symm
  subst hpk
  have hreg := region_le f.name
  obtain ⟨l1, y, l2, hit, hl2, hy, hylen, hal, hst, hsp⟩ := h
  generalize regionOf f.name = r at *
  obtain ⟨s1, s2, s3, s4, -, -⟩ := hinv.split (r.stop : Int)
  have hc : bisectLeft m.keys (r.stop : Int) = l1.length + 1 := by
    generalize bisectLeft m.keys (r.stop : Int) = c at *
    apply Decidable.byContradiction
    intro hne
    by_cases hlt : c ≤ l1.length
    · obtain ⟨a, ha, hge⟩ := s4 y (by rw [hit, List.drop_append_of_le_length hlt]; simp)
      rw [hy] at ha; simp at ha; omega
    · obtain ⟨q, l3, rfl⟩ : ∃ q l3, l2 = q :: l3 := by
        cases l2 with
        | nil => rw [hit] at s2; simp at s2; omega
        | cons q l3 => exact ⟨q, l3, rfl⟩
      obtain ⟨a, ha, hge⟩ := hl2 q (by simp)
      have hq : q ∈ m.items.take c := by
        refine List.mem_iff_getElem?.mpr ⟨l1.length + 1, ?_⟩
        rw [List.getElem?_take_of_lt (by omega), hit, List.getElem?_append_right (by omega)]
        simp
      obtain ⟨a', ha', hlt'⟩ := s3 q hq
      rw [ha] at ha'; simp at ha'; omega
  have hne : m.items ≠ [] := by rw [hit]; simp
  have hp : p' = p := by
    rcases placement_eq hinv hne r.start r.stop r.align hreg.1 with ⟨h0, -⟩ | ⟨g, a, hg, -, hga, -, hpl⟩
    · omega
    · rw [hc, Nat.add_sub_cancel, hit, List.getElem?_append_right (Nat.le_refl _)] at hg
      simp at hg
      subst hg
      rw [hga] at hy
      simp at hy
      subst hy
      rw [hpl, if_neg (by omega), hylen] at hp2
      simp only [Except.ok.injEq, Option.some.injEq] at hp2
      have := align_same a r.align hreg.2.1 hal
      rw [show a + ((0 : Nat) : Int) = a by omega] at hp2
      omega
  subst hp
  refine ⟨hk, by rw [hf'], ?_⟩
  obtain ⟨t1, t2, t3, -, -, -⟩ := hinv.split p'
  have hil : bisectLeft m.keys p' ≤ l1.length := by
    apply Decidable.byContradiction
    intro hlt
    obtain ⟨a, ha, hlt'⟩ := t3 y (by
      refine List.mem_iff_getElem?.mpr ⟨l1.length, ?_⟩
      rw [List.getElem?_take_of_lt (by omega), hit, List.getElem?_append_right (Nat.le_refl _)]
      simp)
    rw [hy] at ha; simp at ha; omega
  refine ⟨l1.take (bisectLeft m.keys p') ++ f' :: l1.drop (bisectLeft m.keys p'), y, l2, ?_, hl2, hy, hylen, hal, hst, hsp⟩
  rw [hm']
  simp only
  rw [insertIdx_take_drop _ _ _ t2, hit, List.take_append_of_le_length hil, List.drop_append_of_le_length hil]
  simp

/-- After an empty file has been placed, the last file below the end of its region is empty. -/
theorem emptyLast_of_insert {m m' : FileMap} {z z' : FileEnt} {p : Int} (hinv : Inv m) (hn : z.address = none)
    (hl : z.length = 0) (hi : m.insert z = .ok (m', z')) (hp : z'.address = some p) (hlt : p < (regionOf z.name).stop) :
    EmptyLast m' (regionOf z.name) p := by
  obtain ⟨k, hk, hm', hcase⟩ := insert_ok hi
  rcases hcase with ⟨-, hfa⟩ | ⟨-, hf', has⟩
  · rw [hn] at hfa; simp at hfa
  rw [hp] at hk
  simp only [Option.some.injEq] at hk
  subst hk
  rw [assignDefault_region] at has
  obtain ⟨p', hp1, hp2, -⟩ := assign_ok has
  have hpk : p' = p := by
    have : z'.address = some p' := by rw [hp1]
    rw [hp] at this; simpa using this.symm
  subst hpk
  have hlen : z'.length = 0 := by rw [hf']; exact hl
  have hreg := region_le z.name
  generalize regionOf z.name = r at *
  obtain ⟨t1, t2, t3, t4, -, -⟩ := hinv.split p'
  have hitems : m'.items = m.items.take (bisectLeft m.keys p') ++ z' :: m.items.drop (bisectLeft m.keys p') := by
    rw [hm']; exact insertIdx_take_drop _ _ _ t2
  by_cases hne : m.items = []
  · have hkeys : m.keys.length = 0 := by rw [← hinv.len, hne]; rfl
    unfold placement at hp2
    rw [if_pos hkeys] at hp2
    simp at hp2
    subst hp2
    refine ⟨[], z', [], by rw [hitems, hne]; simp, by simp, hp, hlen, by exact_mod_cast hreg.2.2, Int.le_refl _, hlt⟩
  · obtain ⟨s1, s2, s3, s4, -, -⟩ := hinv.split (r.stop : Int)
    rcases placement_eq hinv hne r.start r.stop r.align hreg.1 with ⟨-, hno⟩ | ⟨g, a, hg, hcpos, hga, hgs, hpl⟩
    · rw [hno] at hp2; simp at hp2
    rw [hpl] at hp2
    simp only [Except.ok.injEq, Option.some.injEq] at hp2
    have hst : (r.start : Int) ≤ p' ∧ p' % (r.align : Int) = 0 := by
      by_cases hlow : a < (r.start : Int)
      · rw [if_pos hlow] at hp2
        subst hp2
        exact ⟨Int.le_refl _, by exact_mod_cast hreg.2.2⟩
      · rw [if_neg hlow] at hp2
        have := align_up (a + g.length) r.align hreg.2.1
        rw [hp2] at this
        exact ⟨by omega, this.2⟩
    by_cases hall : ∀ q ∈ m.items.drop (bisectLeft m.keys p'), ∃ b, q.address = some b ∧ (r.stop : Int) ≤ b
    · exact ⟨_, z', _, hitems, hall, hp, hlen, hst.2, hst.1, hlt⟩
    · -- the last file below the end of the region lies at the same address and is empty
      have hci : bisectLeft m.keys p' < bisectLeft m.keys (r.stop : Int) := by
        apply Decidable.byContradiction
        intro hge
        apply hall
        intro q hq
        refine s4 q ?_
        rw [show bisectLeft m.keys p' = bisectLeft m.keys (r.stop : Int) + (bisectLeft m.keys p' - bisectLeft m.keys (r.stop : Int))
          by omega, ← List.drop_drop] at hq
        exact List.mem_of_mem_drop hq
      generalize bisectLeft m.keys (r.stop : Int) = c at *
      generalize bisectLeft m.keys p' = i at *
      obtain ⟨hclt, hge⟩ := List.getElem?_eq_some_iff.mp hg
      have hgd : g ∈ m.items.drop i := by
        refine List.mem_iff_getElem?.mpr ⟨c - 1 - i, ?_⟩
        rw [List.getElem?_drop, show i + (c - 1 - i) = c - 1 by omega, hg]
      obtain ⟨b, hb, hpb⟩ := t4 g hgd
      rw [hga] at hb
      simp only [Option.some.injEq] at hb
      subst hb
      have hlow : ¬ a < (r.start : Int) := by omega
      rw [if_neg hlow] at hp2
      have hup := align_up (a + g.length) r.align hreg.2.1
      rw [hp2] at hup
      have hap : a = p' := by omega
      have hgl : g.length = 0 := by omega
      subst hap
      refine ⟨m.items.take i ++ z' :: (m.items.drop i).take (c - 1 - i), g, m.items.drop c, ?_, s4, hga, hgl, hst.2, hst.1, hlt⟩
      rw [hitems]
      have : m.items.drop i = (m.items.drop i).take (c - 1 - i) ++ g :: m.items.drop c := by
        have hd : (m.items.drop i).drop (c - 1 - i) = g :: m.items.drop c := by
          rw [List.drop_drop, show i + (c - 1 - i) = c - 1 by omega, List.drop_eq_getElem_cons hclt, hge,
            show c - 1 + 1 = c by omega]
        rw [← hd, List.take_append_drop]
      rw [List.append_assoc, List.cons_append, ← this]

/-- C14 fails in every map, whatever has been inserted and removed before, once a file of length zero is placed in it:
unless the region is full, any two files placed next in the same region are given the same address, and overlap if
they are not empty. -/
theorem C14_zero_violated (objs : Nat → FileEnt) (hid : ∀ i, (objs i).id = i) (ops : List Op)
    (m : FileMap) (hm : m = (World.run ⟨empty, objs⟩ ops).1.map) (z f g z' f' g' : FileEnt) (m1 m2 m3 : FileMap)
    (hz : z.address = none) (hf : f.address = none) (hg : g.address = none) (hlen : z.length = 0)
    (hrf : regionOf f.name = regionOf z.name) (hrg : regionOf g.name = regionOf z.name)
    (h1 : m.insert z = .ok (m1, z')) (hroom : ∀ a, z'.address = some a → a < (regionOf z.name).stop)
    (h2 : m1.insert f = .ok (m2, f')) (h3 : m2.insert g = .ok (m3, g')) :
    f'.address = z'.address ∧ g'.address = z'.address ∧ f' ∈ m3.items ∧ g' ∈ m3.items ∧
      (0 < f.length → 0 < g.length → ¬ Disjoint f' g') := by
  have hinv : Inv m := by
    rw [hm]
    exact (World.run_good (start_good objs hid) ops).inv
  have hinv1 := inv_insert hinv h1
  have hinv2 := inv_insert hinv1 h2
  obtain ⟨p, hp, -⟩ := insert_ok h1
  have he := emptyLast_of_insert hinv hz hlen h1 hp (hroom p hp)
  rw [← hrf] at he
  obtain ⟨a1, a2, a3⟩ := he.insert hinv1 hf h2
  rw [hrf, ← hrg] at a3
  obtain ⟨b1, b2, -⟩ := a3.insert hinv2 hg h3
  obtain ⟨l1, l2, c1, c2, -⟩ := insert_items hinv1 h2
  obtain ⟨k1, k2, d1, d2, -⟩ := insert_items hinv2 h3
  refine ⟨by rw [a1, hp], by rw [b1, hp], ?_, by rw [d2]; simp, ?_⟩
  · have : f' ∈ k1 ++ k2 := by rw [← d1, c2]; simp
    rw [d2]
    simp only [List.mem_append, List.mem_cons] at this ⊢
    rcases this with h | h
    · exact .inl h
    · exact .inr (.inr h)
  · intro hpf hpg hd
    exact hd p ⟨⟨p, a1, by omega, by omega⟩, ⟨p, b1, by omega, by omega⟩⟩

/-- Such a case, after two other files. -/
example : let m := (World.run ⟨empty, exObjs⟩ [.insert 1, .insert 0]).1.map
    (do
      let (m1, z) ← m.insert ⟨7, true, "e.in".toList, 0, none⟩
      let (m2, f) ← m1.insert ⟨8, true, "f.out".toList, 3, none⟩
      let (_, g) ← m2.insert ⟨9, true, "g.in".toList, 4, none⟩
      .ok (z.address, f.address, g.address) : Py _) = .ok (some 1024, some 1024, some 1024) ∧
    (1024 : Int) < (regionOf "e.in".toList).stop ∧ regionOf "f.out".toList = regionOf "e.in".toList := by
  refine ⟨by decide +kernel, by decide +kernel, ?_⟩
  unfold regionOf
  rw [if_pos (by decide), if_pos (by decide)]

end Apx.FileMap
