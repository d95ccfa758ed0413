import Verif.Spec.Tester
import Verif.Props.Client
import Mathlib.Tactic.Linarith
import Mathlib.Tactic.FieldSimp
import Mathlib.Tactic.Ring

/-! C52: ramps. -/

namespace Apx

theorem pyRound_near (x : Rat) : (pyRound x : Rat) - 1 / 2 ≤ x ∧ x ≤ (pyRound x : Rat) + 1 / 2 := by
  have h1 : ((x.floor : Int) : Rat) ≤ x := Rat.floor_le x
  have h2 : x < ((x.floor : Int) : Rat) + 1 := by have := @Rat.lt_floor x; linarith
  unfold pyRound
  simp only
  split
  · constructor <;> linarith
  · split
    · push_cast; constructor <;> linarith
    · split
      · constructor <;> linarith
      · push_cast; constructor <;> linarith

/-- C52: a value halfway between two integers is rounded to the even one. -/
theorem C52_halves (z : Int) : pyRound ((z : Rat) + 1 / 2) % 2 = 0 := by
  have hfl : ((z : Rat) + 1 / 2).floor = z := by
    apply le_antisymm
    · by_contra h
      have h' : z + 1 ≤ ((z : Rat) + 1 / 2).floor := by omega
      have h1 : (((z : Rat) + 1 / 2).floor : Rat) ≤ (z : Rat) + 1 / 2 := Rat.floor_le _
      have h2 : ((z + 1 : Int) : Rat) ≤ (((z : Rat) + 1 / 2).floor : Rat) := by exact_mod_cast h'
      push_cast at h2
      linarith
    · rw [Rat.le_floor_iff]; linarith
  unfold pyRound
  rw [hfl]
  have hd : (z : Rat) + 1 / 2 - z = 1 / 2 := by ring
  simp only [hd, lt_irrefl, if_false]
  split <;> omega

theorem pyRound_int (z : Int) : pyRound z = z := by
  have h := pyRound_near z
  have h1 : ((pyRound z : Int) : Rat) < (z : Rat) + 1 := by linarith [h.1]
  have h2 : (z : Rat) < ((pyRound z : Int) : Rat) + 1 := by linarith [h.2]
  have h1' : pyRound z < z + 1 := by exact_mod_cast h1
  have h2' : z < pyRound z + 1 := by exact_mod_cast h2
  omega

theorem pyRound_mono {x y : Rat} (h : x ≤ y) : pyRound x ≤ pyRound y := by
  by_contra hlt
  have hlt : pyRound y + 1 ≤ pyRound x := by omega
  have hlt' : ((pyRound y : Int) : Rat) + 1 ≤ (pyRound x : Rat) := by exact_mod_cast hlt
  have hx := pyRound_near x
  have hy := pyRound_near y
  -- both must be the half between two neighbours, and then they are equal
  have : x = y := le_antisymm h (by linarith [hx.1, hy.2])
  subst this
  omega

theorem pyTrunc_le {x : Rat} (h : 0 ≤ x) : ((pyTrunc x : Int) : Rat) ≤ x := by
  unfold pyTrunc
  rw [if_neg (by linarith)]
  exact Rat.floor_le x

/-- The loop of an upward ramp. -/
theorem rampLoop_up (F : FloatOps) (δ : Rat) (lo hi : Int) (hF : F.Accurate δ lo hi) (hδ : 0 ≤ δ)
    (size : Rat) (hsize : δ ≤ size) (n : Nat) (next : Rat) (hlo : (lo : Rat) ≤ next)
    (hhi : next + n * (size + δ) ≤ hi) :
    (∀ v ∈ rampLoop F next size n, pyRound next ≤ v ∧ v ≤ hi) ∧ (rampLoop F next size n).Pairwise (· ≤ ·) := by
  induction n generalizing next with
  | zero => simp [rampLoop]
  | succ n ih =>
    push_cast at hhi
    have hn : (0 : Rat) ≤ n * (size + δ) := mul_nonneg (by exact_mod_cast Nat.zero_le n) (by linarith)
    have hhi' : next + n * (size + δ) + (size + δ) ≤ hi := by linarith [hhi]
    obtain ⟨h1, h2⟩ := hF.add next size hlo (by linarith) (by linarith) (by linarith)
    have hmono : next ≤ F.add next size := by linarith
    obtain ⟨h3, h4⟩ := ih (F.add next size) (by linarith) (by linarith)
    have hr : pyRound next ≤ pyRound (F.add next size) := pyRound_mono hmono
    have hr' : pyRound (F.add next size) ≤ hi := by
      have := pyRound_mono (x := F.add next size) (y := (hi : Rat)) (by linarith)
      rwa [pyRound_int] at this
    constructor
    · intro v hv
      rcases List.mem_cons.mp hv with rfl | hv
      · exact ⟨hr, hr'⟩
      · exact ⟨hr.trans (h3 v hv).1, (h3 v hv).2⟩
    · exact List.pairwise_cons.mpr ⟨fun v hv => (h3 v hv).1, h4⟩

/-- C52, upwards: with `steps` the quotient of the times, and rounding errors `δ` for which
`2δ(steps-1)` does not exceed the size of a step, the values set go monotonically from the start to the
target and end exactly in the target. -/
theorem C52_up_partial (F : FloatOps) (δ : Rat) (hδ : 0 ≤ δ) (start target : Int) (hup : start < target)
    (hF : F.Accurate δ start target) (time step : Rat) (hstep : 0 < step) (hsteps : 0 < F.div time step)
    (herr : 2 * δ * (F.div time step - 1) ≤ (target - start) / F.div time step) :
    ∃ vs, rampPlan F start target time step = .ok vs ∧ MonotoneTo start target vs ∧
      vs.length = max 1 (pyTrunc (F.div time step)).toNat := by
  set r := F.div time step with hr
  have hplan : rampPlan F start target time step =
      .ok (rampLoop F start (F.div (target - start : Int) r) ((pyTrunc r).toNat - 1) ++ [target]) := by
    unfold rampPlan
    rw [if_neg (ne_of_gt hstep)]
    simp only
    rw [if_neg (by omega), ← hr, if_neg (ne_of_gt hsteps), if_pos hup, if_neg (by linarith)]
  refine ⟨_, hplan, ?_, ?_⟩
  · have hloop : (∀ v ∈ rampLoop F start (F.div (target - start : Int) r) ((pyTrunc r).toNat - 1),
        start ≤ v ∧ v ≤ target) ∧
        (rampLoop F start (F.div (target - start : Int) r) ((pyTrunc r).toNat - 1)).Pairwise (· ≤ ·) := by
      by_cases hn : (pyTrunc r).toNat ≤ 1
      · have : (pyTrunc r).toNat - 1 = 0 := by omega
        rw [this]
        simp [rampLoop]
      · have htr := pyTrunc_le (le_of_lt hsteps)
        have h2 : (2 : Int) ≤ pyTrunc r := by omega
        have h2' : (2 : Rat) ≤ (pyTrunc r : Rat) := by exact_mod_cast h2
        have hcast : (((pyTrunc r).toNat - 1 : Nat) : Rat) = (pyTrunc r : Rat) - 1 := by
          rw [Nat.cast_sub (by omega)]
          have : (((pyTrunc r).toNat : Int) : Rat) = (pyTrunc r : Rat) := by
            rw [Int.toNat_of_nonneg (by omega)]
          rw [Nat.cast_one, ← this, Int.cast_natCast]
        have hd : (0 : Rat) ≤ ((target - start : Int) : Rat) := by
          have : (0 : Int) ≤ target - start := by omega
          exact_mod_cast this
        have hr2 : (2 : Rat) ≤ r := by linarith
        obtain ⟨hd1, hd2⟩ := hF.div ((target - start : Int) : Rat) r hd (by push_cast; linarith) (by linarith)
        have hcastd : ((target - start : Int) : Rat) = (target : Rat) - start := by push_cast; rfl
        rw [hcastd] at hd hd1 hd2 ⊢
        set q := ((target : Rat) - start) / r with hq
        have hqr : q * r = (target : Rat) - start := by rw [hq]; field_simp
        have hq2 : 2 * δ ≤ q := by
          have h1r : (1 : Rat) ≤ r - 1 := by linarith
          nlinarith [mul_nonneg hδ (by linarith : (0 : Rat) ≤ r - 1 - 1)]
        have := rampLoop_up F δ start target hF hδ (F.div ((target : Rat) - start) r) (by linarith)
          ((pyTrunc r).toNat - 1) start (by linarith) (by
            rw [hcast]
            have hle : ((pyTrunc r : Rat) - 1) * (F.div ((target : Rat) - start) r + δ) ≤ (r - 1) * (q + 2 * δ) := by
              apply mul_le_mul
              · linarith
              · linarith
              · linarith
              · linarith
            have : (r - 1) * (q + 2 * δ) ≤ q * r := by nlinarith
            linarith)
        rwa [pyRound_int] at this
    obtain ⟨h1, h2⟩ := hloop
    refine ⟨?_, ?_, ?_, by simp⟩
    · intro v hv
      rw [min_eq_left hup.le, max_eq_right hup.le]
      rcases List.mem_append.mp hv with hv | hv
      · exact h1 v hv
      · rw [List.mem_singleton] at hv; subst hv; exact ⟨hup.le, le_refl _⟩
    · intro _
      refine List.pairwise_cons.mpr ⟨?_, ?_⟩
      · intro v hv
        rcases List.mem_append.mp hv with hv | hv
        · exact (h1 v hv).1
        · rw [List.mem_singleton] at hv; subst hv; exact hup.le
      · refine List.pairwise_append.mpr ⟨h2, by simp, ?_⟩
        intro a ha b hb
        rw [List.mem_singleton] at hb
        subst hb
        exact (h1 a ha).2
    · intro h; omega
  · have hlen : ∀ (n : Nat) (next size : Rat), (rampLoop F next size n).length = n := by
      intro n
      induction n with
      | zero => intros; rfl
      | succ n ih => intros; simp [rampLoop, ih]
    rw [List.length_append, hlen, List.length_singleton]
    omega

/-- C52, upwards with exact arithmetic: for all start values, targets above and positive times. -/
theorem C52_up_exact_partial (start target : Int) (hup : start < target) (time step : Rat) (ht : 0 < time)
    (hs : 0 < step) :
    ∃ vs, rampPlan .exact start target time step = .ok vs ∧ MonotoneTo start target vs ∧
      vs.length = max 1 (time / step).floor.toNat := by
  have hF : FloatOps.exact.Accurate 0 start target :=
    ⟨fun x y _ _ _ _ => by simp [FloatOps.exact], fun x y _ _ _ => by simp [FloatOps.exact]⟩
  have hpos : 0 < FloatOps.exact.div time step := by
    simp only [FloatOps.exact]; exact div_pos ht hs
  have hd : (0 : Rat) ≤ (target : Rat) - start := by
    have : (start : Rat) ≤ target := by exact_mod_cast hup.le
    linarith
  obtain ⟨vs, h1, h2, h3⟩ := C52_up_partial .exact 0 (le_refl _) start target hup hF time step hs hpos (by
    simp only [mul_zero, zero_mul]
    exact div_nonneg hd hpos.le)
  refine ⟨vs, h1, h2, ?_⟩
  rw [h3]
  unfold pyTrunc
  rw [if_neg (by linarith)]
  rfl

/-- C52 fails for every ramp downwards with at least two steps: the first value set does not go down,
and if a step is larger than one half, it is strictly above the start. -/
theorem C52_down_violated (start target : Int) (hdown : target < start) (time step : Rat)
    (hs : 0 < step) (htwo : 2 ≤ time / step) :
    ∃ v vs, rampPlan .exact start target time step = .ok (v :: vs) ∧ start ≤ v ∧
      (1 / 2 < ((start : Rat) - target) / (time / step) → start < v ∧ ¬ MonotoneTo start target (v :: vs)) := by
  have hfl : (2 : Int) ≤ (time / step).floor := by
    rw [Rat.le_floor_iff]; exact_mod_cast htwo
  have htr : pyTrunc (time / step) = (time / step).floor := by
    unfold pyTrunc; rw [if_neg (by linarith)]
  obtain ⟨m, hm⟩ : ∃ m, (pyTrunc (time / step)).toNat - 1 = m + 1 :=
    ⟨(pyTrunc (time / step)).toNat - 2, by rw [htr]; omega⟩
  have hplan : rampPlan .exact start target time step =
      .ok (rampLoop .exact start (((start - target : Int) : Rat) / (time / step)) (m + 1) ++ [target]) := by
    unfold rampPlan
    rw [if_neg (ne_of_gt hs)]
    simp only
    have hne : ¬ FloatOps.exact.div time step = 0 := fun h => by
      have : FloatOps.exact.div time step = time / step := rfl
      linarith
    rw [if_neg (by omega), if_neg hne, if_neg (by omega : ¬ start < target), if_neg (by linarith : ¬ step < 0)]
    show Except.ok (rampLoop _ _ _ ((pyTrunc (time / step)).toNat - 1) ++ [target]) = _
    rw [hm]
    rfl
  have hsz : (0 : Rat) ≤ ((start - target : Int) : Rat) / (time / step) := by
    apply div_nonneg _ (by linarith)
    have : (0 : Int) ≤ start - target := by omega
    exact_mod_cast this
  refine ⟨_, _, hplan, ?_, ?_⟩
  · have := pyRound_mono (x := (start : Rat)) (y := start + ((start - target : Int) : Rat) / (time / step)) (by linarith)
    rwa [pyRound_int] at this
  · intro hhalf
    have hlt : start < pyRound (start + ((start - target : Int) : Rat) / (time / step)) := by
      have hn := pyRound_near (start + ((start - target : Int) : Rat) / (time / step))
      have hc : ((start - target : Int) : Rat) = (start : Rat) - target := by push_cast; rfl
      rw [hc] at hn ⊢
      have : ((start : Int) : Rat) < (pyRound (start + ((start : Rat) - target) / (time / step)) : Rat) := by
        linarith [hn.2]
      exact_mod_cast this
    refine ⟨hlt, fun h => ?_⟩
    have := (h.1 _ List.mem_cons_self).2
    rw [max_eq_left hdown.le] at this
    exact absurd hlt (not_lt.mpr this)

/-- C52: the degenerate cases. Nothing is set if start and target agree; a zero step time, or a zero
target time with something to do, divides by zero; a negative step time cannot be slept. -/
theorem C52_degenerate (F : FloatOps) (start target : Int) (time step : Rat) :
    (step = 0 → rampPlan F start target time step = .error .zeroDivision) ∧
    (step ≠ 0 → start = target → rampPlan F start target time step = .ok []) ∧
    (start ≠ target → F.div time step = 0 → rampPlan F start target time step = .error .zeroDivision) ∧
    (start ≠ target → step < 0 → ∃ x, rampPlan F start target time step = .error x) := by
  refine ⟨?_, ?_, ?_, ?_⟩ <;> unfold rampPlan
  · intro h; rw [if_pos h]
  · intro h h'; rw [if_neg h]; simp only; rw [if_pos h']
  · intro h h'
    by_cases hs : step = 0
    · rw [if_pos hs]
    · rw [if_neg hs]; simp only; rw [if_neg h, if_pos h']
  · intro h h'
    rw [if_neg (ne_of_lt h')]
    simp only
    rw [if_neg h]
    by_cases hz : F.div time step = 0
    · rw [if_pos hz]; exact ⟨_, rfl⟩
    · rw [if_neg hz, if_pos h']; exact ⟨_, rfl⟩

/-! Ramps on a client. -/

/-- Setting values one after the other in the node data. -/
def NodeData.writeAll (nd : NodeData) (k : Nat) : List Int → NodeData × List Int × Outcome Unit
  | [] => (nd, [], .ok ())
  | v :: vs =>
    match nd.writeProvide k (.int v) with
    | (nd, .ok _) =>
      let (nd, l, o) := nd.writeAll k vs
      (nd, v :: l, o)
    | (nd, .raised x) => (nd, [], .raised x)
    | (nd, .blocked) => (nd, [], .blocked)

theorem run_snoc (nd : NodeData) (as : List Access) (a : Access) : nd.run (as ++ [a]) = (nd.run as).step a := by
  induction as generalizing nd with
  | nil => rfl
  | cons b as ih => exact ih (nd.step b)

theorem For.write {n : Node} {nd : NodeData} (hc : Client.For ⟨some (n, nd)⟩ n nd) (k : Int) (v : PyVal) :
    Client.For ⟨some (n, (nd.writeProvide k v).1)⟩ n (nd.writeProvide k v).1 := by
  obtain ⟨nd0, as, h1, h2, h3⟩ := hc
  refine ⟨nd0, as ++ [.write k v], h1, ?_, rfl⟩
  rw [run_snoc, ← h2]
  rfl

theorem setAll_eq {n : Node} {nd : NodeData} (hc : Client.For ⟨some (n, nd)⟩ n nd) (k : Nat)
    (d : Designator) (hd : Designates n .provide .provide k d) (hp : d.Proper n .provide k)
    (ht : ∀ s, d = .name s → ∀ t ∈ n.types, t.name ≠ s) (vs : List Int) :
    Client.setAll ⟨some (n, nd)⟩ d vs = (⟨some (n, (nd.writeAll k vs).1)⟩, (nd.writeAll k vs).2) := by
  induction vs generalizing nd with
  | nil => rfl
  | cons v vs ih =>
    rcases hw : nd.writeProvide k (.int v) with ⟨nd', o⟩
    obtain ⟨o', h1, h2, h3, h4⟩ := C54_write_partial _ n nd hc k d hd hp ht (.int v) nd' o hw
    unfold Client.setAll NodeData.writeAll
    rw [h1, hw]
    have hc' := For.write hc k (.int v)
    rw [hw] at hc'
    cases o with
    | ok w =>
      rw [h2 w rfl]
      simp only [ih hc']
    | raised x => rw [h3 x rfl]
    | blocked => rw [h4 rfl]

/-- After setting all of them, the port reads as the last one. -/
theorem writeAll_last (types : List NamedType) (rq pv : List NPort) (text : Str) (nd : NodeData)
    (hr : nd.Reachable types rq pv text) (k : Nat) (vs : List Int) (target : Int)
    (hl : vs.getLast? = some target) (hok : (nd.writeAll k vs).2.2 = .ok ()) :
    (nd.writeAll k vs).2.1 = vs ∧ (nd.writeAll k vs).1.readProvide k = .ok (.val (.int target)) := by
  induction vs generalizing nd with
  | nil => simp at hl
  | cons v vs ih =>
    unfold NodeData.writeAll at hok ⊢
    rcases hw : nd.writeProvide k (.int v) with ⟨nd', o⟩
    rw [hw] at hok
    cases o with
    | raised x => simp at hok
    | blocked => simp at hok
    | ok w =>
      simp only at hok ⊢
      have hr' : nd'.Reachable types rq pv text := by
        have := run_reachable hr [.write k (.int v)]
        simpa [NodeData.run, NodeData.step, hw] using this
      cases vs with
      | nil =>
        simp only [List.getLast?_singleton, Option.some.injEq] at hl
        subst hl
        obtain ⟨_, _, _, _, _, _, _, _, _, _, _, _, h, _⟩ := C32_write types rq pv text nd nd' hr k (.int v) w hw
        exact ⟨rfl, h⟩
      | cons v' vs =>
        rw [List.getLast?_cons_cons] at hl
        obtain ⟨h1, h2⟩ := ih nd' hr' hl hok
        exact ⟨by rw [h1], h2⟩

theorem findIdx_designated {n : Node} {k : Nat} {s : Str} (h : Designates n .provide .provide k (.name s)) :
    n.provides.findIdx? (fun q => decide (q.name = s)) = some k := by
  obtain ⟨p, hp, hname⟩ := (h .provide k).mpr ⟨rfl, rfl⟩
  rw [List.findIdx?_eq_some_iff_getElem]
  change n.provides[k]? = some p at hp
  obtain ⟨hlt, hget⟩ := List.getElem?_eq_some_iff.mp hp
  refine ⟨hlt, ?_, ?_⟩
  · rw [hget]; simpa using hname
  · intro j hj
    simp only [decide_eq_true_eq]
    intro hn
    have := (h .provide j).mp ⟨n.provides[j]'(by omega), (show n.provides[j]? = _ from List.getElem?_eq_getElem (by omega)), hn⟩
    omega

/-- C52 for a client: `ramp` on the name of a provide port (and of nothing else) whose current value is
the integer `start` sets exactly the planned values, one after the other, on that port, up to the first
that cannot be packed; if all can be, the port reads as the target in the end. -/
theorem C52_client_partial (F : FloatOps) (c : Client) (n : Node) (nd : NodeData) (hc : c.For n nd) (k : Nat)
    (s : Str) (hd : Designates n .provide .provide k (.name s)) (ht : ∀ t ∈ n.types, t.name ≠ s)
    (e : Elem) (p : Port) (hp : n.provides[k]? = some p) (he : resolveDsg n.named p.elem = .ok e)
    (start target : Int) (hstart : nd.readProvide k = .ok (.val (.int start)))
    (time step : Rat) (vs : List Int) (hplan : rampPlan F start target time step = .ok vs) :
    c.ramp F (.name s) target time step = (⟨some (n, (nd.writeAll k vs).1)⟩, (nd.writeAll k vs).2) ∧
    ((nd.writeAll k vs).2.2 = .ok () → vs.getLast? = some target →
      (nd.writeAll k vs).2.1 = vs ∧ (nd.writeAll k vs).1.readProvide k = .ok (.val (.int target))) := by
  have hce : c = ⟨some (n, nd)⟩ := by obtain ⟨_, _, _, _, h⟩ := hc; exact h
  subst hce
  constructor
  · obtain ⟨q, hf, hq⟩ := find_designated hd ht
    rw [show n.ports .provide = n.provides from rfl, hp] at hq
    cases hq
    have hid := For.ids hc .provide k p hp
    unfold Client.ramp
    simp only [hf, he, findIdx_designated hd]
    have hdd : Designates n .provide .provide k (.port ⟨.provide, some k, p.id⟩) := ⟨rfl, rfl⟩
    have hdr : Designates n .require .provide k (.port ⟨.provide, some k, p.id⟩) := ⟨rfl, rfl⟩
    have hpp : (Designator.port ⟨.provide, some k, p.id⟩).Proper n .provide k :=
      ⟨p, hp, fun r hr => by cases hr; rfl⟩
    obtain ⟨v, h1, h2⟩ := (C54_read_partial _ n nd hc .provide k _ hdr hpp (by simp)).2 rfl
    rw [hstart] at h1
    cases h1
    rw [h2]
    simp only [hplan]
    exact setAll_eq hc k _ hdd hpp (by simp) vs
  · intro hok hl
    obtain ⟨nd0, as, h1, h2, -⟩ := hc
    unfold Client.attach at h1
    rw [bind_ok_iff] at h1
    obtain ⟨nd1, h3, h4⟩ := h1
    simp only [Except.ok.injEq, Client.mk.injEq, Option.some.injEq, Prod.mk.injEq, true_and] at h4
    subst h4
    unfold Node.nodeData at h3
    rw [bind_ok_iff] at h3
    obtain ⟨text, -, h5⟩ := h3
    have hr : nd.Reachable n.named (n.requires.map Port.toNPort) (n.provides.map Port.toNPort) text := ⟨nd1, as, h5, h2⟩
    exact writeAll_last _ _ _ _ nd hr k vs target hl hok

/-- C52 is violated for a port with an init value that has not been written yet: its value is no
number to start from, and `ramp` raises `TypeError` and sets nothing. -/
theorem C52_initial_violated (F : FloatOps) (c : Client) (n : Node) (nd : NodeData) (hc : c.For n nd) (k : Nat)
    (s : Str) (hd : Designates n .provide .provide k (.name s)) (ht : ∀ t ∈ n.types, t.name ≠ s)
    (e : Elem) (p : Port) (hp : n.provides[k]? = some p) (he : resolveDsg n.named p.elem = .ok e)
    (iv : InitVal) (hstart : nd.readProvide k = .ok (.init iv)) (target : Int) (time step : Rat) :
    c.ramp F (.name s) target time step = (c, [], .raised .typeError) := by
  obtain ⟨q, hf, hq⟩ := find_designated hd ht
  rw [show n.ports .provide = n.provides from rfl, hp] at hq
  cases hq
  have hce : c = ⟨some (n, nd)⟩ := by obtain ⟨_, _, _, _, h⟩ := hc; exact h
  unfold Client.ramp
  have hdr : Designates n .require .provide k (.port ⟨.provide, some k, p.id⟩) := ⟨rfl, rfl⟩
  have hpp : (Designator.port ⟨.provide, some k, p.id⟩).Proper n .provide k :=
    ⟨p, hp, fun r hr => by cases hr; rfl⟩
  obtain ⟨v, h1, h2⟩ := (C54_read_partial _ n nd hc .provide k _ hdr hpp (by simp)).2 rfl
  rw [hstart] at h1
  cases h1
  have hatt : c.attached = some (n, nd) := by rw [hce]
  simp only [hatt, hf, he, findIdx_designated hd, h2]

/-- C52 for anything else: `ramp` refuses names that designate no provide port, sets nothing and leaves
the client as it was; an unknown name and a client without a node are assertion errors, a require port
or a data type is a `ValueError`, and designators other than names are not implemented. -/
theorem C52_refuses (F : FloatOps) (c : Client) (d : Designator) (target : Int) (time step : Rat) :
    (c.attached = none → ∀ s, d = .name s → c.ramp F d target time step = (c, [], .raised .assertionError)) ∧
    (∀ n nd s, c.attached = some (n, nd) → d = .name s →
      (n.find s = none → c.ramp F d target time step = (c, [], .raised .assertionError)) ∧
      (∀ f, n.find s = some f → (∀ p, f ≠ .port .provide p) →
        c.ramp F d target time step = (c, [], .raised .valueError))) ∧
    ((∀ s, d ≠ .name s) → c.ramp F d target time step = (c, [], .raised .notImplemented)) := by
  refine ⟨?_, ?_, ?_⟩
  · intro h s hd
    subst hd
    unfold Client.ramp
    simp only [h]
  · intro n nd s h hd
    subst hd
    refine ⟨?_, ?_⟩
    · intro hf
      unfold Client.ramp
      simp only [h, hf]
    · intro f hf hp
      unfold Client.ramp
      simp only [h, hf]
  · intro h
    unfold Client.ramp
    split
    · exact absurd rfl (h _)
    · rfl

section Examples

example : rampPlan .exact 0 10 1000 100 = .ok [1, 2, 3, 4, 5, 6, 7, 8, 9, 10] ∧
    rampPlan .exact 3 10 1000 250 = .ok [5, 6, 8, 10] ∧ rampPlan .exact 3 10 10 100 = .ok [10] ∧
    rampPlan .exact 10 0 1000 250 = .ok [12, 15, 18, 0] := by decide +kernel

/-- Ramping the require port of a node, or a name it does not have. -/
example : (match Client.attach ((Node.new ['N']).run [.addPort .require ['R'] ['C'] none, .finalize false false]) with
    | .ok c => decide ((c.ramp .exact (.name ['R']) 10 1000 100).2 = ([], .raised .valueError) ∧
        (c.ramp .exact (.name ['X']) 10 1000 100).2 = ([], .raised .assertionError))
    | .error _ => false) = true := by decide +kernel

/-- The client of `clNode` ramps its port `P`, upwards and downwards. -/
def teRamp (target : Int) (time step : Rat) : Option (List Int × Outcome Unit) :=
  match Client.attach clNode with
  | .ok c => some ((c.ramp .exact (.name ['P']) target time step).2)
  | .error _ => none

example : teRamp 10 1000 250 = some ([2, 5, 8, 10], .ok ()) ∧
    teRamp 300 1000 250 = some ([75, 150, 225], .raised .structError) := by decide +kernel

end Examples

end Apx
