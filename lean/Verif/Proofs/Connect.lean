import Verif.Spec.Connect
import Verif.Props.Lifecycle
import Verif.Proofs.Signature

namespace Apx.Connect
open Manager

/-- `send` changes only what was sent, or ends the thread. -/
theorem send_cases (s : Sess) (d : Bytes) :
    (s.send d = s ∧ (∀ h, s.handler = some h → s.adapters[h]? = none)) ∨
    (∃ h a, s.handler = some h ∧ s.adapters[h]? = some a ∧ (a.opened = false ∨ a.reset = true) ∧
      s.send d = { s with ended := some (some .osError) }) ∨
    (∃ h a, s.handler = some h ∧ s.adapters[h]? = some a ∧ ¬(a.opened = false ∨ a.reset = true) ∧
      s.send d = { s with adapters := s.adapters.set h { a with sent := a.sent ++ [d] } }) := by
  unfold Sess.send
  split
  · rename_i h; left; exact ⟨rfl, by simp [h]⟩
  · rename_i h hh
    split
    · rename_i hn; left; exact ⟨rfl, fun k hk => by rw [hh] at hk; cases hk; exact hn⟩
    · rename_i a ha
      split
      · rename_i hc; right; left; exact ⟨h, a, hh, ha, hc, rfl⟩
      · rename_i hc; right; right; exact ⟨h, a, hh, ha, hc, rfl⟩

/-- Steps of the manager's thread leave the manager, the adapters' flags and their number alone. -/
structure Same (s t : Sess) : Prop where
  life : t.life = s.life
  current : t.current = s.current
  adapters : ∀ i : Nat, (t.adapters[i]?).map (fun a => { a with sent := [] }) = (s.adapters[i]?).map (fun a => { a with sent := [] })

theorem Same.refl (s : Sess) : Same s s := ⟨rfl, rfl, fun _ => rfl⟩

theorem Same.trans {s t u : Sess} (h : Same s t) (g : Same t u) : Same s u :=
  ⟨g.1.trans h.1, g.2.trans h.2, fun i => (g.3 i).trans (h.3 i)⟩

theorem send_same (s : Sess) (d : Bytes) : Same s (s.send d) := by
  rcases send_cases s d with ⟨h, -⟩ | ⟨h, a, -, -, -, e⟩ | ⟨h, a, -, ha, -, e⟩
  · rw [h]; exact .refl s
  · rw [e]; exact ⟨rfl, rfl, fun _ => rfl⟩
  · rw [e]
    refine ⟨rfl, rfl, fun i => ?_⟩
    simp only [List.getElem?_set]
    split
    · rename_i hi
      subst hi
      split
      · rw [ha]; rfl
      · rename_i hl
        rw [List.getElem?_eq_none (by omega)]
    · rfl

/-- Taking a message. -/
theorem work_cases (s : Sess) :
    (s.work = s ∧ (s.Working → s.taken ≥ s.life.queue.length)) ∨
    (s.Working ∧ s.life.queue[s.taken]? = some .stop ∧ s.work = { s with taken := s.taken + 1, ended := some none }) ∨
    (∃ h, s.Working ∧ s.life.queue[s.taken]? = some (.connect h) ∧ s.work = { s with taken := s.taken + 1, handler := some h }) ∨
    (∃ m x, s.Working ∧ plain m = true ∧ s.life.queue[s.taken]? = some m ∧ frame m = .error x ∧
      s.work = { s with taken := s.taken + 1, ended := some (some x) }) ∨
    (∃ m d, s.Working ∧ plain m = true ∧ s.life.queue[s.taken]? = some m ∧ frame m = .ok d ∧
      s.work = { s with taken := s.taken + 1 }.send d) := by
  by_cases hw : s.Working
  · have hw' : s.life.running = true ∧ s.ended = none := hw
    unfold Sess.work
    rw [if_pos hw']
    rcases hq : s.life.queue[s.taken]? with _ | m
    · left; exact ⟨rfl, fun _ => by rw [List.getElem?_eq_none_iff] at hq; exact hq⟩
    · right
      cases m with
      | stop => left; exact ⟨hw, rfl, rfl⟩
      | connect h => right; left; exact ⟨h, hw, rfl, rfl⟩
      | fileInfo d =>
        right; right
        rcases hf : frame (Msg.fileInfo (H := Nat) d) with x | y
        · left; exact ⟨_, x, hw, rfl, rfl, hf, by simp only [hf]⟩
        · right; exact ⟨_, y, hw, rfl, rfl, hf, by simp only [hf]⟩
      | writeData a d =>
        right; right
        rcases hf : frame (Msg.writeData (H := Nat) a d) with x | y
        · left; exact ⟨_, x, hw, rfl, rfl, hf, by simp only [hf]⟩
        · right; exact ⟨_, y, hw, rfl, rfl, hf, by simp only [hf]⟩
      | fileOpen a =>
        right; right
        rcases hf : frame (Msg.fileOpen (H := Nat) a) with x | y
        · left; exact ⟨_, x, hw, rfl, rfl, hf, by simp only [hf]⟩
        · right; exact ⟨_, y, hw, rfl, rfl, hf, by simp only [hf]⟩
  · left
    refine ⟨?_, fun h => absurd h hw⟩
    unfold Sess.work
    rw [if_neg (show ¬(s.life.running = true ∧ s.ended = none) from hw)]

theorem work_same (s : Sess) : Same s s.work := by
  rcases work_cases s with ⟨h, -⟩ | ⟨-, -, e⟩ | ⟨h, -, -, e⟩ | ⟨m, x, -, -, -, -, e⟩ | ⟨m, d, -, -, -, -, e⟩
  · rw [h]; exact .refl s
  · rw [e]; exact ⟨rfl, rfl, fun _ => rfl⟩
  · rw [e]; exact ⟨rfl, rfl, fun _ => rfl⟩
  · rw [e]; exact ⟨rfl, rfl, fun _ => rfl⟩
  · rw [e]
    exact Same.trans (t := { s with taken := s.taken + 1 }) ⟨rfl, rfl, fun _ => rfl⟩ (send_same _ _)

theorem works_same (s : Sess) (n : Nat) : Same s (s.works n) := by
  induction n generalizing s with
  | zero => exact .refl s
  | succ n ih => exact (work_same s).trans (ih s.work)

theorem send_ended (s : Sess) (d : Bytes) (h : s.ended ≠ none) : (s.send d).ended ≠ none := by
  rcases send_cases s d with ⟨e, -⟩ | ⟨k, a, -, -, -, e⟩ | ⟨k, a, -, -, -, e⟩
  · rw [e]; exact h
  · rw [e]; simp
  · rw [e]; exact h

theorem send_taken (s : Sess) (d : Bytes) : (s.send d).taken = s.taken := by
  rcases send_cases s d with ⟨e, -⟩ | ⟨k, a, -, -, -, e⟩ | ⟨k, a, -, -, -, e⟩ <;> rw [e]

theorem work_not_working (s : Sess) (h : ¬s.Working) : s.work = s := by
  unfold Sess.work
  rw [if_neg (show ¬(s.life.running = true ∧ s.ended = none) from h)]

theorem works_not_working (s : Sess) (n : Nat) (h : ¬s.Working) : s.works n = s := by
  induction n with
  | zero => rfl
  | succ n ih => rw [Sess.works, work_not_working s h, ih]

/-- A thread that finds `None` in its queue ends. -/
theorem works_ends (n : Nat) (s : Sess) (k : Nat) (hk : s.taken ≤ k) (hs : s.life.queue[k]? = some .stop)
    (hn : k < s.taken + n) : ¬(s.works n).Working := by
  induction n generalizing s with
  | zero => omega
  | succ n ih =>
    rw [Sess.works]
    by_cases hw : s.Working
    · have hwork : ∀ t : Sess, t.taken = s.taken + 1 → t.life = s.life → s.taken ≠ k → ¬(t.works n).Working := by
        intro t ht hl hne
        refine ih t (by omega) (by rw [hl]; exact hs) (by omega)
      have hlt : k < s.life.queue.length := by
        apply Decidable.byContradiction
        intro hge
        rw [List.getElem?_eq_none (by omega)] at hs
        cases hs
      rcases work_cases s with ⟨-, h⟩ | ⟨-, -, e⟩ | ⟨h, -, hq, e⟩ | ⟨m, x, -, hp, hq, -, e⟩ | ⟨m, d, -, hp, hq, -, e⟩
      · have := h hw; omega
      · rw [e, works_not_working]
        · intro h; exact absurd h.2 (by simp)
        · intro h; exact absurd h.2 (by simp)
      · rw [e]
        refine hwork _ rfl rfl ?_
        rintro rfl
        rw [hs] at hq; cases hq
      · rw [e, works_not_working]
        · intro h; exact absurd h.2 (by simp)
        · intro h; exact absurd h.2 (by simp)
      · have hne : s.taken ≠ k := by
          rintro rfl
          rw [hs] at hq; cases hq
          simp [plain] at hp
        rw [e]
        exact hwork _ (by rw [send_taken]) (by rw [(send_same _ _).life]) hne
    · rw [work_not_working s hw, works_not_working s n hw]; exact hw

/-- The adapter without what it has sent. -/
def Adapter.flags (a : Adapter) : Adapter := { a with sent := [] }

theorem Same.flags {s t : Sess} (h : Same s t) (i : Nat) (a : Adapter) (ha : s.adapters[i]? = some a) :
    ∃ b, t.adapters[i]? = some b ∧ b.flags = a.flags := by
  have := h.adapters i
  rw [ha] at this
  rcases hb : t.adapters[i]? with _ | b
  · rw [hb] at this; simp at this
  · rw [hb] at this
    exact ⟨b, rfl, by simpa [Adapter.flags] using this⟩

theorem Same.length {s t : Sess} (h : Same s t) : t.adapters.length = s.adapters.length := by
  have key : ∀ (l m : List Adapter), (∀ i : Nat, (m[i]?).map (fun a : Adapter => { a with sent := [] }) =
      (l[i]?).map (fun a : Adapter => { a with sent := [] })) → m.length ≤ l.length := by
    intro l m hlm
    apply Decidable.byContradiction
    intro hgt
    have := hlm l.length
    rw [List.getElem?_eq_none (Nat.le_refl _), List.getElem?_eq_getElem (by omega)] at this
    simp at this
  exact Nat.le_antisymm (key _ _ h.adapters) (key _ _ (fun i => (h.adapters i).symm))

theorem stopManager_current (s : Sess) : s.stopManager.1.current = s.current := by
  unfold Sess.stopManager
  split
  · split
    · rw [(works_same _ _).current]
    · rfl
  · rfl

theorem stopManager_flags (s : Sess) (i : Nat) (a : Adapter) (ha : s.adapters[i]? = some a) :
    ∃ b, s.stopManager.1.adapters[i]? = some b ∧ b.flags = a.flags := by
  unfold Sess.stopManager
  split
  · split
    · exact (works_same _ _).flags i a ha
    · exact ⟨a, ha, rfl⟩
  · exact ⟨a, ha, rfl⟩

theorem stopManager_length (s : Sess) : s.stopManager.1.adapters.length = s.adapters.length := by
  unfold Sess.stopManager
  split
  · split
    · rw [(works_same _ _).length]
    · rfl
  · rfl

theorem stop_current (s : Sess) (inside : Option Nat) : (s.stop inside).1.current = s.current := by
  unfold Sess.stop
  split
  · exact stopManager_current s
  · split
    · exact stopManager_current s
    · split
      · rfl
      · exact stopManager_current _

theorem stop_length (s : Sess) (inside : Option Nat) : (s.stop inside).1.adapters.length = s.adapters.length := by
  unfold Sess.stop
  split
  · exact stopManager_length s
  · split
    · exact stopManager_length s
    · split
      · simp
      · rw [stopManager_length]; simp

/-- `stop()` does not touch adapters other than the current one. -/
theorem stop_other (s : Sess) (inside : Option Nat) (i : Nat) (hi : s.current ≠ some i) (a : Adapter)
    (ha : s.adapters[i]? = some a) : ∃ b, (s.stop inside).1.adapters[i]? = some b ∧ b.flags = a.flags := by
  unfold Sess.stop
  split
  · exact stopManager_flags s i a ha
  · rename_i j hj
    have hne : j ≠ i := by rintro rfl; exact hi hj
    split
    · exact stopManager_flags s i a ha
    · split
      · exact ⟨a, by simp only [List.getElem?_set_ne hne]; exact ha, rfl⟩
      · exact stopManager_flags _ i a (by simp only [List.getElem?_set_ne hne]; exact ha)

theorem connectTcp_current (s : Sess) (o : Attempt) : (s.connectTcp o).1.current = some s.adapters.length := by
  unfold Sess.connectTcp
  split
  · rfl
  · rfl
  · split <;> rfl

theorem connectTcp_adapters (s : Sess) (o : Attempt) :
    ∃ a, (s.connectTcp o).1.adapters = s.adapters ++ [a] := by
  unfold Sess.connectTcp
  split
  · exact ⟨_, rfl⟩
  · exact ⟨_, rfl⟩
  · split
    · exact ⟨_, rfl⟩
    · exact ⟨_, rfl⟩

/-- One event leaves the flags of an adapter alone which is not the current one and whose connection
is not closed or reset by the event. -/
theorem step_other (s : Sess) (e : Event) (i : Nat) (hi : s.current ≠ some i) (hc : e ≠ .closed i) (hr : e ≠ .resets i)
    (a : Adapter) (ha : s.adapters[i]? = some a) :
    (s.step e).current ≠ some i ∧ ∃ b, (s.step e).adapters[i]? = some b ∧ b.flags = a.flags := by
  have hlt : i < s.adapters.length := by
    apply Decidable.byContradiction
    intro hge
    rw [List.getElem?_eq_none (by omega)] at ha
    cases ha
  cases e with
  | connect o =>
    refine ⟨?_, ?_⟩
    · show (s.connectTcp o).1.current ≠ _
      rw [connectTcp_current]
      intro h
      have := Option.some.inj h
      omega
    · obtain ⟨n, hn⟩ := connectTcp_adapters s o
      refine ⟨a, ?_, rfl⟩
      show (s.connectTcp o).1.adapters[i]? = _
      rw [hn, List.getElem?_append_left hlt, ha]
  | stop inside => exact ⟨by show (s.stop inside).1.current ≠ _; rw [stop_current]; exact hi, stop_other s inside i hi a ha⟩
  | acknowledged k =>
    unfold Sess.step
    simp only
    split
    · split
      · exact ⟨hi, a, ha, rfl⟩
      · exact ⟨hi, a, ha, rfl⟩
    · exact ⟨hi, a, ha, rfl⟩
  | put m =>
    unfold Sess.step
    simp only
    split
    · exact ⟨hi, a, ha, rfl⟩
    · exact ⟨hi, a, ha, rfl⟩
  | closed k =>
    have hne : k ≠ i := by rintro rfl; exact hc rfl
    refine ⟨hi, a, ?_, rfl⟩
    simp only [Sess.step, List.getElem?_modify, if_neg hne, ha, Option.map_eq_map, Option.map_some]
  | resets k =>
    have hne : k ≠ i := by rintro rfl; exact hr rfl
    refine ⟨hi, a, ?_, rfl⟩
    simp only [Sess.step, List.getElem?_modify, if_neg hne, ha, Option.map_eq_map, Option.map_some]
  | work => exact ⟨by show s.work.current ≠ _; rw [(work_same s).current]; exact hi, (work_same s).flags i a ha⟩

theorem run_other (es : List Event) (s : Sess) (i : Nat) (hi : s.current ≠ some i) (hc : Event.closed i ∉ es)
    (hr : Event.resets i ∉ es) (a : Adapter) (ha : s.adapters[i]? = some a) :
    (s.run es).current ≠ some i ∧ ∃ b, (s.run es).adapters[i]? = some b ∧ b.flags = a.flags := by
  induction es generalizing s a with
  | nil => exact ⟨hi, a, ha, rfl⟩
  | cons e es ih =>
    simp only [List.mem_cons, not_or] at hc hr
    obtain ⟨h1, b, hb, hf⟩ := step_other s e i hi (fun h => hc.1 h.symm) (fun h => hr.1 h.symm) a ha
    obtain ⟨h2, c, hc', hf'⟩ := ih (s.step e) h1 hc.2 hr.2 b hb
    exact ⟨h2, c, hc', hf'.trans hf⟩

/-- The manager of a session has a history of its own. -/
theorem stopManager_life (s : Sess) : s.stopManager.1.life = s.life.stop.1 := by
  unfold Sess.stopManager
  split
  · rename_i l h
    split
    · rw [(works_same _ _).life, h]
    · rw [h]
  · rename_i l x h
    rw [h]

theorem step_life (s : Sess) (e : Event) : (s.step e).life = s.life ∨ ∃ op, (s.step e).life = (s.life.step op).1 := by
  cases e with
  | connect o =>
    show (s.connectTcp o).1.life = s.life ∨ ∃ op, (s.connectTcp o).1.life = _
    unfold Sess.connectTcp
    split
    · left; rfl
    · left; rfl
    · right
      refine ⟨.start, ?_⟩
      show _ = s.life.start.1
      split <;> (rename_i h; rw [h])
  | stop inside =>
    show (s.stop inside).1.life = s.life ∨ ∃ op, (s.stop inside).1.life = _
    unfold Sess.stop
    split
    · right; exact ⟨.stop, stopManager_life s⟩
    · split
      · right; exact ⟨.stop, stopManager_life s⟩
      · split
        · left; rfl
        · right; exact ⟨.stop, stopManager_life _⟩
  | acknowledged k =>
    unfold Sess.step
    simp only
    split
    · split
      · right; exact ⟨_, rfl⟩
      · left; rfl
    · left; rfl
  | put m =>
    unfold Sess.step
    simp only
    split
    · right; exact ⟨_, rfl⟩
    · left; rfl
  | closed k => left; rfl
  | resets k => left; rfl
  | work => left; exact (work_same s).life

theorem run_life (es : List Event) (s : Sess) (ops : List (LifeOp Nat)) (h : s.life = (Life.new Nat).run ops) :
    ∃ ops', (s.run es).life = (Life.new Nat).run ops' := by
  induction es generalizing s ops with
  | nil => exact ⟨ops, h⟩
  | cons e es ih =>
    rcases step_life s e with h' | ⟨op, h'⟩
    · exact ih (s.step e) ops (h'.trans h)
    · refine ih (s.step e) (ops ++ [op]) ?_
      rw [h', h, Life.run_append]
      rfl

theorem reach_life (es : List Event) : ∃ ops, (Sess.new.run es).life = (Life.new Nat).run ops :=
  run_life es Sess.new [] rfl

/-- A session before the first connection. -/
structure Fresh (s : Sess) : Prop where
  worker : s.life.worker = .fresh
  active : s.life.active = false
  running : s.life.running = false
  ended : s.ended = none
  taken : s.taken = 0
  adapters : ∀ a ∈ s.adapters, a = Adapter.new

theorem Fresh.step {s : Sess} (h : Fresh s) (e : Event) (he : e ≠ .connect .accepted) : Fresh (s.step e) := by
  have hstop : s.stopManager = (s, none) := by
    unfold Sess.stopManager Life.stop
    simp only [h.active, Bool.false_eq_true, if_false]
  have hget : ∀ (i : Nat) a, s.adapters[i]? = some a → a = Adapter.new := fun i a ha =>
    h.adapters a (List.mem_of_getElem? ha)
  have hset : ∀ i : Nat, s.adapters[i]? = some Adapter.new → s.adapters.set i Adapter.new = s.adapters := by
    intro i hi
    apply List.ext_getElem?
    intro j
    rw [List.getElem?_set]
    split
    · rename_i hj
      subst hj
      rw [hi]
      split
      · rfl
      · rename_i hl
        rw [List.getElem?_eq_none (by omega)] at hi
        cases hi
    · rfl
  cases e with
  | connect o =>
    cases o with
    | accepted => exact absurd rfl he
    | refused =>
      refine ⟨h.worker, h.active, h.running, h.ended, h.taken, ?_⟩
      intro a ha
      rcases List.mem_append.mp (show a ∈ s.adapters ++ [Adapter.new] from ha) with ha | ha
      · exact h.adapters a ha
      · simpa using ha
    | failed =>
      refine ⟨h.worker, h.active, h.running, h.ended, h.taken, ?_⟩
      intro a ha
      rcases List.mem_append.mp (show a ∈ s.adapters ++ [Adapter.new] from ha) with ha | ha
      · exact h.adapters a ha
      · simpa using ha
  | stop inside =>
    show Fresh (s.stop inside).1
    unfold Sess.stop
    split
    · rw [hstop]; exact h
    · split
      · rw [hstop]; exact h
      · rename_i j hj a ha
        have := hget _ _ ha
        subst this
        have hst : ∀ b, Adapter.new.stop b = (Adapter.new, none) := by
          intro b
          unfold Adapter.stop Adapter.new
          simp
        rw [hst]
        simp only [hset _ ha]
        have : ({ s with } : Sess) = s := rfl
        rw [hstop]; exact h
  | acknowledged k =>
    unfold Sess.step
    simp only
    split
    · rename_i a ha
      have := hget _ _ ha
      subst this
      rw [if_neg (by simp [Adapter.new])]; exact h
    · exact h
  | put m =>
    unfold Sess.step
    simp only
    split
    · exact ⟨h.worker, h.active, h.running, h.ended, h.taken, h.adapters⟩
    · exact h
  | closed k =>
    refine ⟨h.worker, h.active, h.running, h.ended, h.taken, ?_⟩
    intro a ha
    obtain ⟨i, hi⟩ := List.mem_iff_getElem?.mp ha
    simp only [Sess.step, List.getElem?_modify] at hi
    rcases hg : s.adapters[i]? with _ | b
    · rw [hg] at hi; simp at hi
    · rw [hg] at hi
      have := hget _ _ hg
      subst this
      simp only [Option.map_eq_map, Option.map_some, Option.some.injEq] at hi
      rw [← hi]
      split <;> rfl
  | resets k =>
    refine ⟨h.worker, h.active, h.running, h.ended, h.taken, ?_⟩
    intro a ha
    obtain ⟨i, hi⟩ := List.mem_iff_getElem?.mp ha
    simp only [Sess.step, List.getElem?_modify] at hi
    rcases hg : s.adapters[i]? with _ | b
    · rw [hg] at hi; simp at hi
    · rw [hg] at hi
      have := hget _ _ hg
      subst this
      simp only [Option.map_eq_map, Option.map_some, Option.some.injEq] at hi
      rw [← hi]
      split <;> rfl
  | work =>
    show Fresh s.work
    rw [work_not_working]
    · exact h
    · intro hw
      have := hw.1
      rw [h.running] at this
      cases this

theorem Fresh.run {s : Sess} (h : Fresh s) (es : List Event) (he : Unconnected es) : Fresh (s.run es) := by
  induction es generalizing s with
  | nil => exact h
  | cons e es ih =>
    simp only [Unconnected, List.mem_cons, not_or] at he
    exact ih (h.step e (fun hh => he.1 hh.symm)) he.2

theorem Fresh.new : Fresh Sess.new := ⟨rfl, rfl, rfl, rfl, rfl, fun a h => by cases h⟩

/-- A session while connection `i` is used. -/
structure Open (i : Nat) (s : Sess) : Prop where
  worker : s.life.worker = .started
  active : s.life.active = true
  running : s.life.running = true
  current : s.current = some i
  length : s.adapters.length = i + 1
  old : ∀ (j : Nat) (a : Adapter), s.adapters[j]? = some a → j ≠ i → a.isConnected = false ∧ a.isAlive = false ∧ a.receiving = false
  this : ∀ a : Adapter, s.adapters[i]? = some a → a.isConnected = true ∧ a.isAlive = true ∧ a.opened = true ∧ a.reset = false

theorem Fresh.accept {s : Sess} (h : Fresh s) :
    ∃ t, s.connectTcp .accepted = (t, .ok true) ∧ Open s.adapters.length t ∧ t.Working ∧
      t.adapters = s.adapters ++ [⟨true, true, true, false, true, [greeting]⟩] ∧ t.taken = 0 := by
  obtain ⟨as, cur, ⟨w, act, run, q⟩, taken, hd, en⟩ := s
  obtain ⟨h1, h2, h3, h4, h5, h6⟩ := h
  simp only at h1 h2 h3 h4 h5 h6
  subst h1 h2 h3 h4 h5
  refine ⟨_, rfl, ⟨rfl, rfl, rfl, rfl, by simp, ?_, ?_⟩, ⟨rfl, rfl⟩, rfl, rfl⟩
  · intro j a ha hj
    simp only at ha hj
    have hlt : j < as.length := by
      apply Decidable.byContradiction
      intro hge
      rw [List.getElem?_eq_none (by simp; omega)] at ha
      cases ha
    rw [List.getElem?_append_left hlt] at ha
    have := h6 a (List.mem_of_getElem? ha)
    subst this
    exact ⟨rfl, rfl, rfl⟩
  · intro a ha
    simp only [List.getElem?_append_right (Nat.le_refl _), Nat.sub_self] at ha
    cases ha
    exact ⟨rfl, rfl, rfl, rfl⟩

theorem flags_eq {a b : Adapter} (h : b.flags = a.flags) : b.isConnected = a.isConnected ∧ b.isAlive = a.isAlive ∧
    b.opened = a.opened ∧ b.reset = a.reset ∧ b.receiving = a.receiving := by
  obtain ⟨a1, a2, a3, a4, a5, a6⟩ := a
  obtain ⟨b1, b2, b3, b4, b5, b6⟩ := b
  simp only [Adapter.flags, Adapter.mk.injEq, and_true] at h
  exact h

theorem Open.same {i : Nat} {s t : Sess} (h : Open i s) (g : Same s t) : Open i t := by
  refine ⟨by rw [g.life]; exact h.worker, by rw [g.life]; exact h.active, by rw [g.life]; exact h.running,
    g.current.trans h.current, g.length.trans h.length, ?_, ?_⟩
  · intro j a ha hj
    rcases hs : s.adapters[j]? with _ | b
    · have := g.adapters j
      rw [hs, ha] at this; simp at this
    · obtain ⟨c, hc, hf⟩ := g.flags j b hs
      rw [ha] at hc; cases hc
      obtain ⟨f1, f2, f3, f4, f5⟩ := flags_eq hf
      obtain ⟨o1, o2, o3⟩ := h.old j b hs hj
      exact ⟨f1.trans o1, f2.trans o2, f5.trans o3⟩
  · intro a ha
    rcases hs : s.adapters[i]? with _ | b
    · have := g.adapters i
      rw [hs, ha] at this; simp at this
    · obtain ⟨c, hc, hf⟩ := g.flags i b hs
      rw [ha] at hc; cases hc
      obtain ⟨f1, f2, f3, f4, f5⟩ := flags_eq hf
      obtain ⟨o1, o2, o3, o4⟩ := h.this b hs
      exact ⟨f1.trans o1, f2.trans o2, f3.trans o3, f4.trans o4⟩

theorem Open.step {i : Nat} {s : Sess} (h : Open i s) (e : Event) (h1 : ∀ o, e ≠ .connect o) (h2 : ∀ j, e ≠ .stop j)
    (h3 : e ≠ .resets i) : Open i (s.step e) := by
  have hmod : ∀ (k : Nat) (f : Adapter → Adapter), (∀ a, (f a).isConnected = a.isConnected ∧ (f a).isAlive = a.isAlive ∧
      (f a).opened = a.opened ∧ ((f a).receiving = true → a.receiving = true) ∧
      (k = i → a.reset = false → (f a).reset = false)) →
      Open i { s with adapters := s.adapters.modify k f } := by
    intro k f hf
    refine ⟨h.worker, h.active, h.running, h.current, by simpa using h.length, ?_, ?_⟩
    · intro j a ha hj
      simp only [List.getElem?_modify] at ha
      rcases hg : s.adapters[j]? with _ | b
      · rw [hg] at ha; simp at ha
      · rw [hg] at ha
        simp only [Option.map_eq_map, Option.map_some, Option.some.injEq] at ha
        obtain ⟨o1, o2, o3⟩ := h.old j b hg hj
        rw [← ha]
        split
        · obtain ⟨f1, f2, f3, f4, f5⟩ := hf b
          refine ⟨f1.trans o1, f2.trans o2, ?_⟩
          rcases hr : (f b).receiving with _ | _
          · rfl
          · have := f4 hr; rw [o3] at this; cases this
        · exact ⟨o1, o2, o3⟩
    · intro a ha
      simp only [List.getElem?_modify] at ha
      rcases hg : s.adapters[i]? with _ | b
      · rw [hg] at ha; simp at ha
      · rw [hg] at ha
        simp only [Option.map_eq_map, Option.map_some, Option.some.injEq] at ha
        obtain ⟨o1, o2, o3, o4⟩ := h.this b hg
        rw [← ha]
        split
        · rename_i hk
          obtain ⟨f1, f2, f3, f4, f5⟩ := hf b
          exact ⟨f1.trans o1, f2.trans o2, f3.trans o3, f5 hk o4⟩
        · exact ⟨o1, o2, o3, o4⟩
  cases e with
  | connect o => exact absurd rfl (h1 o)
  | stop j => exact absurd rfl (h2 j)
  | acknowledged k =>
    unfold Sess.step
    simp only
    split
    · split
      · exact ⟨h.worker, h.active, h.running, h.current, h.length, h.old, h.this⟩
      · exact h
    · exact h
  | put m =>
    unfold Sess.step
    simp only
    split
    · exact ⟨h.worker, h.active, h.running, h.current, h.length, h.old, h.this⟩
    · exact h
  | closed k => exact hmod k _ (fun a => ⟨rfl, rfl, rfl, (fun h => by cases h), fun _ h => h⟩)
  | resets k =>
    refine hmod k _ (fun a => ?_)
    have hk : k ≠ i := by rintro rfl; exact h3 rfl
    split
    · exact ⟨rfl, rfl, rfl, (fun h => by cases h), fun hh => absurd hh hk⟩
    · exact ⟨rfl, rfl, rfl, id, fun _ h => h⟩
  | work => exact h.same (work_same s)

theorem Open.run {i : Nat} {s : Sess} (h : Open i s) (es : List Event) (he : InUse i es) : Open i (s.run es) := by
  induction es generalizing s with
  | nil => exact h
  | cons e es ih =>
    obtain ⟨h1, h2, h3⟩ := he
    simp only [List.mem_cons, not_or] at h1 h2 h3
    exact ih (h.step e (fun o hh => (h1 o).1 hh.symm) (fun j hh => (h2 j).1 hh.symm) (fun hh => h3.1 hh.symm))
      ⟨fun o => (h1 o).2, fun j => (h2 j).2, h3.2⟩

theorem life_step_queue (l : Life Nat) (op : LifeOp Nat) : ∃ q, (l.step op).1.queue = l.queue ++ q := by
  cases op with
  | start =>
    unfold Life.step Life.start
    simp only
    split <;> exact ⟨[], by simp⟩
  | stop =>
    unfold Life.step Life.stop
    simp only
    split
    · split <;> exact ⟨[.stop], rfl⟩
    · exact ⟨[], by simp⟩
  | put m => exact ⟨[m], rfl⟩

theorem step_queue (s : Sess) (e : Event) : ∃ q, (s.step e).life.queue = s.life.queue ++ q := by
  rcases step_life s e with h | ⟨op, h⟩
  · exact ⟨[], by rw [h]; simp⟩
  · rw [h]; exact life_step_queue _ _

theorem work_taken (s : Sess) (h : s.taken ≤ s.life.queue.length) : s.work.taken ≤ s.work.life.queue.length := by
  rw [(work_same s).life]
  have hlt : ∀ m, s.life.queue[s.taken]? = some m → s.taken + 1 ≤ s.life.queue.length := by
    intro m hm
    apply Decidable.byContradiction
    intro hge
    rw [List.getElem?_eq_none (by omega)] at hm
    cases hm
  rcases work_cases s with ⟨e, -⟩ | ⟨-, hq, e⟩ | ⟨k, -, hq, e⟩ | ⟨m, x, -, -, hq, -, e⟩ | ⟨m, d, -, -, hq, -, e⟩
  · rw [e]; exact h
  · rw [e]; exact hlt _ hq
  · rw [e]; exact hlt _ hq
  · rw [e]; exact hlt _ hq
  · rw [e, send_taken]; exact hlt _ hq

theorem works_taken (n : Nat) (s : Sess) (h : s.taken ≤ s.life.queue.length) :
    (s.works n).taken ≤ (s.works n).life.queue.length := by
  induction n generalizing s with
  | zero => exact h
  | succ n ih => exact ih s.work (work_taken s h)

theorem stopManager_taken (s : Sess) (h : s.taken ≤ s.life.queue.length) :
    s.stopManager.1.taken ≤ s.stopManager.1.life.queue.length := by
  have hl : ∃ q, s.life.stop.1.queue = s.life.queue ++ q := life_step_queue s.life .stop
  obtain ⟨q, hq⟩ := hl
  unfold Sess.stopManager
  split
  · rename_i l hst
    rw [hst] at hq
    split
    · refine works_taken _ _ ?_
      simp only
      simp only at hq
      rw [hq]; simp; omega
    · simp only at hq ⊢
      rw [hq]; simp; omega
  · rename_i l x hst
    rw [hst] at hq
    simp only at hq ⊢
    rw [hq]; simp; omega

theorem step_taken (s : Sess) (e : Event) (h : s.taken ≤ s.life.queue.length) :
    (s.step e).taken ≤ (s.step e).life.queue.length := by
  obtain ⟨q, hq⟩ := step_queue s e
  have hgrow : (s.step e).taken = s.taken → (s.step e).taken ≤ (s.step e).life.queue.length := by
    intro he
    rw [he, hq]; simp; omega
  cases e with
  | connect o =>
    refine hgrow ?_
    show (s.connectTcp o).1.taken = _
    unfold Sess.connectTcp
    split
    · rfl
    · rfl
    · split <;> rfl
  | stop inside =>
    show (s.stop inside).1.taken ≤ (s.stop inside).1.life.queue.length
    unfold Sess.stop
    split
    · exact stopManager_taken s h
    · split
      · exact stopManager_taken s h
      · split
        · exact h
        · exact stopManager_taken _ h
  | acknowledged k =>
    refine hgrow ?_
    unfold Sess.step
    simp only
    split
    · split <;> rfl
    · rfl
  | put m =>
    refine hgrow ?_
    unfold Sess.step
    simp only
    split <;> rfl
  | closed k => exact h
  | resets k => exact h
  | work => exact work_taken s h

theorem run_taken (es : List Event) (s : Sess) (h : s.taken ≤ s.life.queue.length) :
    (s.run es).taken ≤ (s.run es).life.queue.length := by
  induction es generalizing s with
  | nil => exact h
  | cons e es ih => exact ih _ (step_taken s e h)

theorem reach_taken (es : List Event) : (Sess.new.run es).taken ≤ (Sess.new.run es).life.queue.length :=
  run_taken es _ (Nat.le_refl _)

theorem run_append (s : Sess) (a b : List Event) : s.run (a ++ b) = (s.run a).run b := by
  simp [Sess.run, List.foldl_append]

/-- `stop()` of a session in use. -/
theorem Open.stop {i : Nat} {s : Sess} (h : Open i s) (ht : s.taken ≤ s.life.queue.length) (inside : Option Nat)
    (hin : inside ≠ some i) :
    ∃ t, s.stop inside = (t, none) ∧ ¬t.Working ∧ t.life.worker = .gone ∧ t.current = some i ∧
      t.life = ⟨.gone, false, true, s.life.queue ++ [.stop]⟩ ∧ t.adapters.length = s.adapters.length ∧
      (∀ (j : Nat) (a : Adapter), t.adapters[j]? = some a → a.receiving = false ∧ (a.isConnected = true → a.opened = false)) ∧
      (∀ a b : Adapter, s.adapters[i]? = some a → t.adapters[i]? = some b → b = { a with opened := false, receiving := false }) := by
  obtain ⟨a, ha⟩ : ∃ a, s.adapters[i]? = some a := by
    rw [List.getElem?_eq_getElem (by rw [h.length]; omega)]
    exact ⟨_, rfl⟩
  obtain ⟨c1, c2, c3, c4⟩ := h.this a ha
  obtain ⟨as, cur, ⟨w, act, run, q⟩, taken, hd, en⟩ := s
  obtain ⟨h1, h2, h3, h4, h5, h6, h7⟩ := h
  simp only at h1 h2 h3 h4 h5 h6 h7 ht ha
  subst h1 h2 h3 h4
  have hil : i < as.length := by omega
  have hst : a.stop (inside = some i) = ({ a with opened := false, receiving := false }, none) := by
    unfold Adapter.stop
    rw [if_neg (by simp [c3, c4]), if_pos c2]
    simp [hin]
  let u : Sess := ⟨as.set i { a with opened := false, receiving := false }, some i,
    ⟨.gone, false, true, q ++ [.stop]⟩, taken, hd, en⟩
  have hres : Sess.stop ⟨as, some i, ⟨.started, true, true, q⟩, taken, hd, en⟩ inside =
      (u.works ((q ++ [Msg.stop]).length - taken), none) := by
    unfold Sess.stop
    simp only [ha, hst]
    rfl
  have hsame := works_same u ((q ++ [Msg.stop]).length - taken)
  have hui : u.adapters[i]? = some { a with opened := false, receiving := false } := by
    show (as.set i _)[i]? = _
    rw [List.getElem?_set_self hil]
  refine ⟨_, hres, ?_, by rw [hsame.life], hsame.current, hsame.life, ?_, ?_, ?_⟩
  · refine works_ends _ u q.length (by simpa using ht) (by simp [u]) ?_
    simp only [u, List.length_append, List.length_cons, List.length_nil]
    omega
  · rw [hsame.length]; simp [u]
  · intro j b hb
    rcases hg : u.adapters[j]? with _ | c
    · have := hsame.adapters j
      rw [hg, hb] at this; simp at this
    · obtain ⟨d, hd', hf⟩ := hsame.flags j c hg
      rw [hb] at hd'; cases hd'
      obtain ⟨f1, f2, f3, f4, f5⟩ := flags_eq hf
      by_cases hj : j = i
      · subst hj
        rw [hui] at hg; cases hg
        exact ⟨f5, fun _ => f3⟩
      · have : as[j]? = some c := by
          rw [← hg]
          show _ = (as.set i _)[j]?
          rw [List.getElem?_set_ne (Ne.symm hj)]
        obtain ⟨o1, o2, o3⟩ := h6 j c this hj
        refine ⟨f5.trans o3, fun hc => ?_⟩
        rw [f1, o1] at hc; cases hc
  · intro a' b ha' hb
    simp only at ha'
    rw [ha] at ha'; cases ha'
    have key : ∀ (n : Nat) (v : Sess) (b : Adapter), (∃ c, v.adapters[i]? = some c ∧ c.opened = false) → (v.works n).adapters[i]? = some b →
        v.adapters[i]? = some b := by
      intro n
      induction n with
      | zero => intro v b _ hb; exact hb
      | succ n ih =>
        intro v b hv hb
        obtain ⟨c, hc, ho⟩ := hv
        have hstep : v.work.adapters[i]? = v.adapters[i]? := by
          rcases work_cases v with ⟨e, -⟩ | ⟨-, -, e⟩ | ⟨k, -, -, e⟩ | ⟨m, x, -, -, -, -, e⟩ | ⟨m, d, -, -, -, -, e⟩
          · rw [e]
          · rw [e]
          · rw [e]
          · rw [e]
          · rw [e]
            rcases send_cases { v with taken := v.taken + 1 } d with ⟨e, -⟩ | ⟨k, x, -, -, -, e⟩ | ⟨k, x, -, hx, hx', e⟩
            · rw [e]
            · rw [e]
            · rw [e]
              simp only at hx ⊢
              rw [List.getElem?_set_ne]
              rintro rfl
              rw [hc] at hx; cases hx
              exact hx' (Or.inl ho)
        rw [← hstep]
        refine ih v.work b ⟨c, hstep.trans hc, ho⟩ hb
    have := key _ u b ⟨_, hui, rfl⟩ hb
    rw [hui] at this; cases this; rfl

/-- A session whose current connection cannot be shut down. -/
def Stuck (i : Nat) (s : Sess) : Prop :=
  s.current = some i ∧ ∃ a, s.adapters[i]? = some a ∧ a.isConnected = true ∧ (a.opened = false ∨ a.reset = true)

theorem Stuck.stop {i : Nat} {s : Sess} (h : Stuck i s) (inside : Option Nat) : s.stop inside = (s, some .osError) := by
  obtain ⟨hc, a, ha, h1, h2⟩ := h
  have hst : ∀ b, a.stop b = (a, some .osError) := by
    intro b
    unfold Adapter.stop
    rw [if_pos ⟨h1, h2⟩]
  unfold Sess.stop
  simp only [hc, ha, hst]
  have : s.adapters.set i a = s.adapters := by
    apply List.ext_getElem?
    intro j
    rw [List.getElem?_set]
    split
    · rename_i hj
      subst hj
      split
      · exact ha.symm
      · rename_i hl
        rw [List.getElem?_eq_none (by omega)] at ha
        cases ha
    · rfl
  rw [this]
  obtain ⟨as, cur, life, taken, hd, en⟩ := s
  simp only at hc
  subst hc
  rfl

theorem Stuck.same {i : Nat} {s t : Sess} (h : Stuck i s) (g : Same s t) : Stuck i t := by
  obtain ⟨hc, a, ha, h1, h2⟩ := h
  obtain ⟨b, hb, hf⟩ := g.flags i a ha
  obtain ⟨f1, f2, f3, f4, f5⟩ := flags_eq hf
  exact ⟨g.current.trans hc, b, hb, f1.trans h1, by rw [f3, f4]; exact h2⟩

theorem Stuck.step {i : Nat} {s : Sess} (h : Stuck i s) (e : Event) (he : ∀ o, e ≠ .connect o) : Stuck i (s.step e) := by
  have hmod : ∀ (k : Nat) (f : Adapter → Adapter), (∀ a, (f a).isConnected = a.isConnected ∧ (f a).opened = a.opened ∧
      (a.reset = true → (f a).reset = true)) → Stuck i { s with adapters := s.adapters.modify k f } := by
    intro k f hf
    obtain ⟨hc, a, ha, h1, h2⟩ := h
    by_cases hk : k = i
    · obtain ⟨f1, f2, f3⟩ := hf a
      refine ⟨hc, f a, ?_, f1.trans h1, ?_⟩
      · simp only [List.getElem?_modify, if_pos hk, ha, Option.map_eq_map, Option.map_some]
      · rw [f2]; exact h2.imp id f3
    · exact ⟨hc, a, by simp only [List.getElem?_modify, if_neg hk, ha, Option.map_eq_map, Option.map_some], h1, h2⟩
  cases e with
  | connect o => exact absurd rfl (he o)
  | stop j => show Stuck i (s.stop j).1; rw [h.stop]; exact h
  | acknowledged k =>
    unfold Sess.step
    simp only
    split
    · split
      · exact h
      · exact h
    · exact h
  | put m =>
    unfold Sess.step
    simp only
    split
    · exact h
    · exact h
  | closed k => exact hmod k _ (fun a => ⟨rfl, rfl, id⟩)
  | resets k =>
    refine hmod k _ (fun a => ?_)
    split
    · exact ⟨rfl, rfl, fun _ => rfl⟩
    · exact ⟨rfl, rfl, id⟩
  | work => exact h.same (work_same s)

theorem Stuck.run {i : Nat} {s : Sess} (h : Stuck i s) (es : List Event) (he : ∀ o, Event.connect o ∉ es) : Stuck i (s.run es) := by
  induction es generalizing s with
  | nil => exact h
  | cons e es ih =>
    simp only [List.mem_cons, not_or] at he
    exact ih (h.step e (fun o hh => (he o).1 hh.symm)) (fun o => (he o).2)

theorem step_gone (s : Sess) (e : Event) (h : s.life.worker = .gone) : (s.step e).life.worker = .gone := by
  rcases step_life s e with h' | ⟨op, h'⟩
  · rw [h']; exact h
  · rw [h']
    cases op with
    | start => unfold Life.step Life.start; simp only [h]
    | stop =>
      unfold Life.step Life.stop
      simp only [h]
      split
      · rfl
      · exact h
    | put m => exact h

theorem run_gone (es : List Event) (s : Sess) (h : s.life.worker = .gone) : (s.run es).life.worker = .gone := by
  induction es generalizing s with
  | nil => exact h
  | cons e es ih => exact ih _ (step_gone s e h)

end Apx.Connect
