import Verif.Proofs.FileMap

namespace Apx.FileMap

theorem scanBack_ge (items : List FileEnt) (s e : Int) (b n : Nat) (f : FileEnt) (a : Int)
    (hf : items[n]? = some f) (ha : f.address = some a) (hs : s ≤ a) (he : e ≤ a) :
    scanBack items s e b (n + 1) = scanBack items s e b n := by
  rw [scanBack, hf]
  simp only [ha]
  rw [if_neg (by omega), if_neg (by omega)]

theorem scanBack_lt (items : List FileEnt) (s e : Int) (b n : Nat) (f : FileEnt) (a : Int)
    (hf : items[n]? = some f) (ha : f.address = some a) (he : a < e) :
    scanBack items s e b (n + 1) = .ok (some (if a < s then s else
      (a + f.length + b - 1) - (a + f.length + b - 1) % b)) := by
  rw [scanBack, hf]
  simp only [ha]
  by_cases h : a < s
  · simp [h]
  · simp [h, he]

/-- The placement address in a well-formed non-empty map: determined by the last file below the
end of the region; if there is none the variable is never assigned. -/
theorem placement_eq {m : FileMap} (h : Inv m) (hne : m.items ≠ []) (s e b : Nat) (hse : s ≤ e) :
    (bisectLeft m.keys e = 0 ∧ placement m s e b = .ok none) ∨
    (∃ f a, m.items[bisectLeft m.keys e - 1]? = some f ∧ 0 < bisectLeft m.keys e ∧ f.address = some a ∧ a < e ∧
      placement m s e b = .ok (some (if a < (s : Int) then (s : Int) else
        (a + f.length + b - 1) - (a + f.length + b - 1) % b))) := by
  obtain ⟨h1, h2, h3, h4, -, -⟩ := h.split e
  have hl := h.len
  have hpos : 0 < m.items.length := List.length_pos_iff.mpr hne
  unfold placement
  rw [if_neg (by omega)]
  simp only
  generalize hc : bisectLeft m.keys (e : Int) = c at *
  -- skipping a possible item at index c
  have hskip : scanBack m.items s e b ((if c ≥ m.keys.length then m.keys.length - 1 else c) + 1)
      = scanBack m.items s e b c := by
    by_cases hcl : c ≥ m.keys.length
    · rw [if_pos hcl]
      have : m.keys.length - 1 + 1 = c := by omega
      rw [this]
    · rw [if_neg hcl]
      have hlt : c < m.items.length := by omega
      have hf : m.items[c]? = some m.items[c] := List.getElem?_eq_getElem hlt
      obtain ⟨a, ha, hle⟩ := h4 m.items[c] (List.mem_iff_getElem.mpr ⟨0, by simp; omega, by simp⟩)
      exact scanBack_ge _ _ _ _ _ _ a hf ha (by omega) (by omega)
  rw [hskip]
  cases c with
  | zero => left; exact ⟨rfl, rfl⟩
  | succ c =>
    right
    have hlt : c < m.items.length := by omega
    have hf : m.items[c]? = some m.items[c] := List.getElem?_eq_getElem hlt
    obtain ⟨a, ha, hlt'⟩ := h3 m.items[c] (List.mem_iff_getElem.mpr ⟨c, by simp; omega, by simp⟩)
    exact ⟨m.items[c], a, by simp, by omega, ha, hlt', scanBack_lt _ _ _ _ _ _ a hf ha hlt'⟩

/-- `f` ends at or before the start of `g`. -/
def Before (f g : FileEnt) : Prop :=
  ∃ a b, f.address = some a ∧ g.address = some b ∧ a + f.length ≤ b

theorem Before.disjoint {f g : FileEnt} (h : Before f g) : Disjoint f g := by
  rintro x ⟨⟨a, ha, h1, h2⟩, ⟨b, hb, h3, h4⟩⟩
  obtain ⟨a', b', ha', hb', hle⟩ := h
  rw [ha] at ha'; rw [hb] at hb'
  simp at ha' hb'
  omega

theorem before_of_disjoint {f g : FileEnt} (hle : AddrLe f g) (hd : Disjoint f g)
    (hg : 0 < g.length) : Before f g := by
  obtain ⟨a, b, ha, hb, hab⟩ := hle
  refine ⟨a, b, ha, hb, ?_⟩
  apply Decidable.byContradiction; intro hx
  exact hd b ⟨⟨a, ha, by omega, by omega⟩, ⟨b, hb, by omega, by omega⟩⟩

theorem Inv.addrLe {m : FileMap} (h : Inv m) : m.items.Pairwise AddrLe := by
  rw [List.pairwise_iff_getElem]
  intro i j hi hj hij
  have hl := h.len
  exact ⟨_, _, h.addr i hi (by omega), h.addr j hj (by omega),
    List.pairwise_iff_getElem.mp h.sorted i j (by omega) (by omega) hij⟩

/-- Region constants selected by the code equal the documented ones. -/
theorem assignDefault_region (m : FileMap) (f : FileEnt) :
    assignFileAddressDefault m f =
      assignFileAddress m f (regionOf f.name).start (regionOf f.name).stop (regionOf f.name).align := by
  unfold assignFileAddressDefault regionOf endsWith
  have h1 : ∀ s t : Str, (s.isSuffixOf t = true) ↔ s <:+ t := fun s t => List.isSuffixOf_iff_suffix
  by_cases ha : ".in".toList <:+ f.name ∨ ".out".toList <:+ f.name
  · rw [if_pos ha, if_pos]
    · rfl
    · simp only [Bool.or_eq_true, h1]; exact ha
  · rw [if_neg ha, if_neg]
    · by_cases hb : ".apx".toList <:+ f.name
      · rw [if_pos hb, if_pos ((h1 _ _).mpr hb)]; rfl
      · rw [if_neg hb, if_neg (fun h => hb ((h1 _ _).mp h))]; rfl
    · simp only [Bool.or_eq_true, h1]; exact ha

theorem region_cases (name : Str) :
    regionOf name = ⟨0, 67108864, 1024⟩ ∨ regionOf name = ⟨67108864, 536870912, 1048576⟩ ∨
    regionOf name = ⟨536870912, 1073740800, 1048576⟩ := by
  unfold regionOf; split
  · simp
  · split <;> simp

theorem region_disjoint (n1 n2 : Str) (h : (regionOf n1).start < (regionOf n2).start) :
    (regionOf n1).stop ≤ (regionOf n2).start := by
  rcases region_cases n1 with h1 | h1 | h1 <;> rcases region_cases n2 with h2 | h2 | h2 <;>
    rw [h1, h2] at h <;> rw [h1, h2] <;> simp at * 

theorem region_le (n : Str) : (regionOf n).start ≤ (regionOf n).stop ∧ 0 < (regionOf n).align ∧
    (regionOf n).start % (regionOf n).align = 0 := by
  rcases region_cases n with h1 | h1 | h1 <;> rw [h1] <;> simp

/-- The checks on the arguments pass for the documented regions. -/
theorem assign_region (m : FileMap) (f : FileEnt) (n : Str) :
    assignFileAddress m f (regionOf n).start (regionOf n).stop (regionOf n).align =
      match placement m (regionOf n).start (regionOf n).stop (regionOf n).align with
      | .error e => .error e
      | .ok none => .error .unboundLocal
      | .ok (some p) => if p + f.length ≤ (regionOf n).stop then .ok { f with address := some p }
          else .error .valueError := by
  unfold assignFileAddress
  rw [if_neg, if_neg, if_neg]
  · rfl
  · rcases region_cases n with h1 | h1 | h1 <;> rw [h1] <;> decide
  · rcases region_cases n with h1 | h1 | h1 <;> rw [h1] <;> decide
  · rcases region_cases n with h1 | h1 | h1 <;> rw [h1] <;> decide

theorem align_up (x : Int) (b : Nat) (hb : 0 < b) :
    x ≤ (x + b - 1) - (x + b - 1) % b ∧ ((x + b - 1) - (x + b - 1) % b) % b = 0 := by
  have h1 : 0 ≤ (x + b - 1) % b := Int.emod_nonneg _ (by omega)
  have h2 : (x + b - 1) % b < b := Int.emod_lt_of_pos _ (by omega)
  refine ⟨by omega, ?_⟩
  have := Int.emod_add_mul_ediv (x + b - 1) b
  have h3 : (x + b - 1) - (x + b - 1) % b = b * ((x + b - 1) / b) := by omega
  rw [h3]; exact Int.mul_emod_right ..

/-- All files placed one after the other, with positive length, each in its region. -/
structure Laid (m : FileMap) : Prop where
  inv : Inv m
  before : m.items.Pairwise Before
  pos : ∀ f ∈ m.items, 0 < f.length
  region : ∀ f ∈ m.items, InRegion f

theorem laid_empty : Laid FileMap.empty :=
  ⟨inv_empty, by simp [FileMap.empty], by simp [FileMap.empty], by simp [FileMap.empty]⟩

theorem mem_take_or_drop {α} {l : List α} {x : α} (i : Nat) (h : x ∈ l) : x ∈ l.take i ∨ x ∈ l.drop i := by
  rw [← List.take_append_drop i l] at h
  exact List.mem_append.mp h

theorem pairwise_last {α} {R : α → α → Prop} {l : List α} {c : Nat} {x y : α} (h : l.Pairwise R)
    (hc : 0 < c) (hx : l[c - 1]? = some x) (hy : y ∈ l.take c) : y = x ∨ R y x := by
  obtain ⟨j, hj, rfl⟩ := List.mem_iff_getElem.mp hy
  simp at hj
  rw [List.getElem_take]
  obtain ⟨hlt, rfl⟩ := List.getElem?_eq_some_iff.mp hx
  by_cases hjc : j = c - 1
  · left; subst hjc; rfl
  · right; exact List.pairwise_iff_getElem.mp h j (c - 1) (by omega) hlt (by omega)

theorem laid_insert {m m' : FileMap} {f f' : FileEnt} (h : Laid m) (hnone : f.address = none)
    (hpos : 0 < f.length) (hi : m.insert f = .ok (m', f')) : Laid m' := by
  have hinv' := inv_insert h.inv hi
  obtain ⟨k, hk, hm', hcase⟩ := insert_ok hi
  rcases hcase with ⟨-, hfa⟩ | ⟨-, hf', has⟩
  · rw [hnone] at hfa; simp at hfa
  have hlen : f'.length = f.length := by rw [hf']
  have hname : f'.name = f.name := by rw [hf']
  rw [assignDefault_region] at has
  obtain ⟨p, hp1, hp2, hp3⟩ := assign_ok has
  have hpk : p = k := by
    have : f'.address = some p := by rw [hp1]
    rw [hk] at this; simpa using this.symm
  subst hpk
  have hreg := region_le f.name
  generalize hr : regionOf f.name = r at *
  obtain ⟨s1, s2, s3, s4, -, -⟩ := h.inv.split (r.stop : Int)
  -- bounds of the chosen address
  have key : (r.start : Int) ≤ p ∧ p % (r.align : Int) = 0 ∧
      ∀ g ∈ m.items.take (bisectLeft m.keys r.stop), ∃ a, g.address = some a ∧ a + g.length ≤ p := by
    by_cases hne : m.items = []
    · have hkeys : m.keys.length = 0 := by rw [← h.inv.len, hne]; rfl
      unfold placement at hp2
      rw [if_pos hkeys] at hp2
      simp at hp2
      subst hp2
      refine ⟨Int.le_refl _, by exact_mod_cast hreg.2.2, ?_⟩
      rw [hne]; simp
    · rcases placement_eq h.inv hne r.start r.stop r.align hreg.1 with ⟨-, hno⟩ | ⟨g, a, hg, hcpos, hga, hlt, hpl⟩
      · rw [hno] at hp2; simp at hp2
      · rw [hpl] at hp2
        simp only [Except.ok.injEq, Option.some.injEq] at hp2
        have hgmem : g ∈ m.items := List.mem_of_getElem? hg
        by_cases hlow : a < (r.start : Int)
        · rw [if_pos hlow] at hp2
          subst hp2
          refine ⟨Int.le_refl _, by exact_mod_cast hreg.2.2, ?_⟩
          intro q hq
          have hqm : q ∈ m.items := List.mem_of_mem_take hq
          have hqa : ∃ aq, q.address = some aq ∧ aq ≤ a := by
            rcases pairwise_last h.inv.addrLe hcpos hg hq with rfl | ⟨x, y, hx, hy, hxy⟩
            · exact ⟨a, hga, by omega⟩
            · rw [hga] at hy; simp at hy; exact ⟨x, hx, by omega⟩
          obtain ⟨aq, hqa, hle⟩ := hqa
          obtain ⟨aq', h1, h2, h3, -⟩ := h.region q hqm
          rw [hqa] at h1; simp at h1; subst h1
          have hdis := region_disjoint q.name f.name (by rw [hr]; omega)
          rw [hr] at hdis
          exact ⟨aq, hqa, by omega⟩
        · rw [if_neg hlow] at hp2
          have hal := align_up (a + g.length) r.align hreg.2.1
          rw [hp2] at hal
          refine ⟨by omega, hal.2, ?_⟩
          intro q hq
          rcases pairwise_last h.before hcpos hg hq with rfl | ⟨x, y, hx, hy, hxy⟩
          · exact ⟨a, hga, by omega⟩
          · rw [hga] at hy; simp at hy; exact ⟨x, hx, by omega⟩
  obtain ⟨hlow, hal, hbefore⟩ := key
  obtain ⟨t1, t2, t3, t4, -, -⟩ := h.inv.split p
  have hitems : m'.items = m.items.take (bisectLeft m.keys p) ++ f' :: m.items.drop (bisectLeft m.keys p) := by
    rw [hm']; exact insertIdx_take_drop _ _ _ t2
  have hB : m.items.Pairwise Before := h.before
  refine ⟨hinv', ?_, ?_, ?_⟩
  · rw [hitems, List.pairwise_append]
    rw [← List.take_append_drop (bisectLeft m.keys p) m.items, List.pairwise_append] at hB
    have c1 : ∀ q ∈ m.items.take (bisectLeft m.keys p), Before q f' := by
      intro q hq
      obtain ⟨aq, hqa, hlt⟩ := t3 q hq
      rcases mem_take_or_drop (bisectLeft m.keys r.stop) (List.mem_of_mem_take hq) with hx | hx
      · obtain ⟨a, ha, hle⟩ := hbefore q hx
        exact ⟨a, p, ha, hk, hle⟩
      · obtain ⟨a, ha, hle⟩ := s4 q hx
        rw [hqa] at ha; simp at ha
        omega
    have c2 : ∀ q ∈ m.items.drop (bisectLeft m.keys p), Before f' q := by
      intro q hq
      obtain ⟨aq, hqa, hge⟩ := t4 q hq
      rcases mem_take_or_drop (bisectLeft m.keys r.stop) (List.mem_of_mem_drop hq) with hx | hx
      · obtain ⟨a, ha, hle⟩ := hbefore q hx
        have := h.pos q (List.mem_of_mem_take hx)
        rw [hqa] at ha; simp at ha
        omega
      · obtain ⟨a, ha, hle⟩ := s4 q hx
        exact ⟨p, a, hk, ha, by omega⟩
    refine ⟨hB.1, List.pairwise_cons.mpr ⟨c2, hB.2.1⟩, ?_⟩
    intro q hq q' hq'
    rcases List.mem_cons.mp hq' with rfl | hq'
    · exact c1 q hq
    · exact hB.2.2 q hq q' hq'
  · intro q hq
    rw [hitems] at hq
    simp only [List.mem_append, List.mem_cons] at hq
    rcases hq with hq | rfl | hq
    · exact h.pos q (List.mem_of_mem_take hq)
    · omega
    · exact h.pos q (List.mem_of_mem_drop hq)
  · intro q hq
    rw [hitems] at hq
    simp only [List.mem_append, List.mem_cons] at hq
    rcases hq with hq | rfl | hq
    · exact h.region q (List.mem_of_mem_take hq)
    · refine ⟨p, hk, ?_⟩
      rw [hname, hr, hlen]
      exact ⟨hlow, hp3, hal⟩
    · exact h.region q (List.mem_of_mem_drop hq)

theorem laid_remove {m m' : FileMap} {f : FileEnt} (h : Laid m) (hr : m.remove f = .ok m') : Laid m' := by
  obtain ⟨i, -, rfl⟩ := remove_ok hr
  have hsub : (m.items.eraseIdx i).Sublist m.items := List.eraseIdx_sublist ..
  exact ⟨inv_eraseIdx h.inv i, h.before.sublist hsub, fun f hf => h.pos f (hsub.mem hf),
    fun f hf => h.region f (hsub.mem hf)⟩

/-- Lookup in a map of consecutive files. -/
theorem find_before {m : FileMap} (hinv : Inv m) (hb : m.items.Pairwise Before)
    (hpos : ∀ f ∈ m.items, 0 < f.length) (x : Int) (f : FileEnt) :
    m.findByAddress x = some f ↔ f ∈ m.items ∧ Occupies f x := by
  have hhits : ∀ g : FileEnt, hits g x = true ↔ Occupies g x := by
    intro g
    unfold hits Occupies
    cases hg : g.address with
    | none => simp
    | some a => simp
  constructor
  · intro h
    unfold findByAddress at h
    split at h
    · simp at h
    · simp only at h
      have prev : ∀ i : Nat, m.findPrevious i x = some f → f ∈ m.items ∧ Occupies f x := by
        intro i hi
        unfold findPrevious at hi
        split at hi
        · split at hi
          · rename_i item hit
            split at hi
            · rename_i hh
              simp at hi; subst hi
              exact ⟨List.mem_of_getElem? hit, (hhits _).mp hh⟩
            · simp at hi
          · simp at hi
        · simp at hi
      split at h
      · rename_i item hit
        split at h
        · rename_i hh
          simp at h; subst h
          exact ⟨List.mem_of_getElem? hit, (hhits _).mp hh⟩
        · exact prev _ h
      · exact prev _ h
  · rintro ⟨hf, hocc⟩
    obtain ⟨s1, s2, s3, s4, -, -⟩ := hinv.split x
    have hl := hinv.len
    have hne : 0 < m.items.length := List.length_pos_iff.mpr (List.ne_nil_of_mem hf)
    unfold findByAddress
    rw [if_neg (by omega)]
    simp only
    generalize hc : bisectLeft m.keys x = c at *
    obtain ⟨a, ha, hax, hxa⟩ := hocc
    rcases mem_take_or_drop c hf with hx | hx
    · -- f lies below the bisection point: it must be the last one there
      have hcpos : 0 < c := by
        rcases Nat.eq_zero_or_pos c with h0 | h0
        · subst h0; simp at hx
        · exact h0
      have hlt : c - 1 < m.items.length := by omega
      have hg : m.items[c - 1]? = some m.items[c - 1] := List.getElem?_eq_getElem hlt
      have hflast : f = m.items[c - 1] := by
        rcases pairwise_last hb hcpos hg hx with h | ⟨p, q, hp, hq, hpq⟩
        · exact h
        · exfalso
          rw [ha] at hp; simp at hp; subst hp
          obtain ⟨q', hq', hlt'⟩ := s3 m.items[c - 1] (List.mem_iff_getElem.mpr ⟨c - 1, by simp; omega, by simp⟩)
          rw [hq] at hq'; simp at hq'
          omega
      have hprev : m.findPrevious c x = some f := by
        unfold findPrevious
        rw [if_pos hcpos, hg]
        simp only
        rw [← hflast, if_pos ((hhits f).mpr ⟨a, ha, hax, hxa⟩)]
      rw [hprev]
      cases hit : m.items[c]? with
      | none => rfl
      | some item =>
        simp only
        by_cases hh : hits item x = true
        · exfalso
          obtain ⟨ai, hai, h1, h2⟩ := (hhits item).mp hh
          obtain ⟨hclt, hceq⟩ := List.getElem?_eq_some_iff.mp hit
          have := List.pairwise_iff_getElem.mp hb (c - 1) c hlt hclt (by omega)
          rw [hceq, ← hflast] at this
          obtain ⟨p, q, hp, hq, hpq⟩ := this
          rw [ha] at hp; rw [hai] at hq; simp at hp hq
          omega
        · rw [if_neg hh]
    · -- f starts exactly at x and is the first such file
      obtain ⟨a', ha', hxle⟩ := s4 f hx
      rw [ha] at ha'; simp at ha'; subst ha'
      have hax : a = x := by omega
      obtain ⟨j, hj, hjf⟩ := List.mem_iff_getElem.mp hx
      simp at hj
      rw [List.getElem_drop] at hjf
      have hclt : c < m.items.length := by omega
      have hcf : m.items[c] = f := by
        cases j with
        | zero => simpa using hjf
        | succ j =>
          exfalso
          have hb' := List.pairwise_iff_getElem.mp hb c (c + (j + 1)) hclt (by omega) (by omega)
          rw [hjf] at hb'
          obtain ⟨p, q, hp, hq, hpq⟩ := hb'
          rw [ha] at hq; simp at hq
          obtain ⟨p', hp', hle⟩ := s4 m.items[c] (List.mem_iff_getElem.mpr ⟨0, by simp; omega, by simp⟩)
          rw [hp] at hp'; simp at hp'
          have := hpos m.items[c] (List.getElem_mem hclt)
          omega
      rw [List.getElem?_eq_getElem hclt]
      simp only
      rw [hcf, if_pos ((hhits f).mpr ⟨a, ha, by omega, hxa⟩)]

end Apx.FileMap
