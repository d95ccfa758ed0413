import Verif.Model.Lifecycle
import Verif.Props.FileManager

/-! C60: starting and stopping a file manager. -/

namespace Apx.Manager

theorem Life.run_append {H : Type} (s : Life H) (a b : List (LifeOp H)) : s.run (a ++ b) = (s.run a).run b := by
  simp [Life.run, List.foldl_append]

theorem worker_stop {H : Type} (handler : Option H) (a b : List (Msg H)) :
    worker handler (a ++ .stop :: b) = worker handler (a ++ [.stop]) := by
  induction a generalizing handler with
  | nil => rfl
  | cons m a ih => cases m <;> simp only [List.cons_append, worker, ih]

/-- In every reachable state: the flag, the thread and the queue fit together. -/
theorem Life.reach {H : Type} (ops : List (LifeOp H)) :
    let s := (Life.new H).run ops
    (s.worker = .fresh ∧ s.active = false ∧ s.running = false) ∨
    (s.worker = .started ∧ s.active = true ∧ s.running = true) ∨
    (s.worker = .gone ∧ s.running = true ∧ ∃ a b, s.queue = a ++ .stop :: b) := by
  suffices h : ∀ (ops : List (LifeOp H)) (s : Life H),
      ((s.worker = .fresh ∧ s.active = false ∧ s.running = false) ∨
       (s.worker = .started ∧ s.active = true ∧ s.running = true) ∨
       (s.worker = .gone ∧ s.running = true ∧ ∃ a b, s.queue = a ++ .stop :: b)) →
      (((s.run ops).worker = .fresh ∧ (s.run ops).active = false ∧ (s.run ops).running = false) ∨
       ((s.run ops).worker = .started ∧ (s.run ops).active = true ∧ (s.run ops).running = true) ∨
       ((s.run ops).worker = .gone ∧ (s.run ops).running = true ∧ ∃ a b, (s.run ops).queue = a ++ .stop :: b)) from
    h ops _ (Or.inl ⟨rfl, rfl, rfl⟩)
  intro ops
  induction ops with
  | nil => intro s h; exact h
  | cons op ops ih =>
    intro s h
    refine ih _ ?_
    obtain ⟨w, act, run, q⟩ := s
    simp only at h ⊢
    rcases h with ⟨rfl, rfl, rfl⟩ | ⟨rfl, rfl, rfl⟩ | ⟨rfl, rfl, a, b, rfl⟩
    · cases op with
      | start => exact Or.inr (Or.inl ⟨rfl, rfl, rfl⟩)
      | stop => exact Or.inl ⟨rfl, rfl, rfl⟩
      | put m => exact Or.inl ⟨rfl, rfl, rfl⟩
    · cases op with
      | start => exact Or.inr (Or.inl ⟨rfl, rfl, rfl⟩)
      | stop => exact Or.inr (Or.inr ⟨rfl, rfl, q, [], rfl⟩)
      | put m => exact Or.inr (Or.inl ⟨rfl, rfl, rfl⟩)
    · cases op with
      | start => exact Or.inr (Or.inr ⟨rfl, rfl, a, b, rfl⟩)
      | stop =>
        cases act
        · exact Or.inr (Or.inr ⟨rfl, rfl, a, b, rfl⟩)
        · exact Or.inr (Or.inr ⟨rfl, rfl, a, b ++ [.stop], by simp [Life.step, Life.stop]⟩)
      | put m => exact Or.inr (Or.inr ⟨rfl, rfl, a, b ++ [m], by simp [Life.step]⟩)

/-- A manager that has been started and then stopped has no thread any more. -/
theorem Life.gone_forever {H : Type} (s : Life H) (hg : s.worker = .gone) (hr : s.running = true)
    (hq : ∃ a b, s.queue = a ++ .stop :: b) (ops : List (LifeOp H)) :
    (s.run ops).worker = .gone ∧ (s.run ops).sent = s.sent := by
  induction ops generalizing s with
  | nil => exact ⟨hg, rfl⟩
  | cons op ops ih =>
    obtain ⟨w, act, run, q⟩ := s
    simp only at hg hr hq
    subst hg hr
    obtain ⟨a, b, rfl⟩ := hq
    cases op with
    | start =>
      obtain ⟨h1, h2⟩ := ih ⟨.gone, true, true, a ++ .stop :: b⟩ rfl rfl ⟨a, b, rfl⟩
      exact ⟨h1, h2⟩
    | stop =>
      cases act
      · exact ih ⟨.gone, false, true, a ++ .stop :: b⟩ rfl rfl ⟨a, b, rfl⟩
      · obtain ⟨h1, h2⟩ := ih ⟨.gone, true, true, (a ++ .stop :: b) ++ [.stop]⟩ rfl rfl ⟨a, b ++ [.stop], by simp⟩
        refine ⟨h1, h2.trans ?_⟩
        show (Manager.worker none ((a ++ .stop :: b) ++ [.stop])).1 = (Manager.worker none (a ++ .stop :: b)).1
        rw [List.append_assoc, List.cons_append, worker_stop, worker_stop none a b]
    | put m =>
      obtain ⟨h1, h2⟩ := ih ⟨.gone, act, true, (a ++ .stop :: b) ++ [m]⟩ rfl rfl ⟨a, b ++ [m], by simp⟩
      refine ⟨h1, h2.trans ?_⟩
      show (Manager.worker none ((a ++ .stop :: b) ++ [m])).1 = (Manager.worker none (a ++ .stop :: b)).1
      rw [List.append_assoc, List.cons_append, worker_stop, worker_stop none a b]

/-- C60 is violated in every history: once a manager has been started and stopped, every `start()`
raises `AttributeError`, a `stop()` after such an attempt raises as well, and nothing is ever sent
again, whatever is written. -/
theorem C60_restart_violated {H : Type} (before after : List (LifeOp H)) (s : Life H)
    (hs : s = (Life.new H).run before) (hrun : s.worker = .started) :
    let t := (s.stop.1).run after
    s.stop.2 = none ∧ t.start.2 = some .attributeError ∧ t.start.1.stop.2 = some .attributeError ∧
    t.sent = s.stop.1.sent ∧ t.start.1.sent = s.stop.1.sent := by
  intro t
  have hr := Life.reach before
  simp only at hr
  rw [← hs] at hr
  rcases hr with ⟨h, -⟩ | ⟨-, h2, h3⟩ | ⟨h, -⟩
  · rw [hrun] at h; simp at h
  · obtain ⟨w, act, run, q⟩ := s
    simp only at hrun h2 h3
    subst hrun h2 h3
    have hstop : (Life.mk .started true true q).stop = (⟨.gone, false, true, q ++ [.stop]⟩, none) := rfl
    obtain ⟨g1, g2⟩ := Life.gone_forever (⟨.gone, false, true, q ++ [.stop]⟩ : Life H) rfl rfl ⟨q, [], rfl⟩ after
    have hst : t.start = ({ t with active := true }, some .attributeError) := by
      unfold Life.start
      have : t.worker = .gone := by simp only [t, hstop]; exact g1
      simp only [this]
    have hw : t.worker = .gone := by simp only [t, hstop]; exact g1
    refine ⟨rfl, by rw [hst], ?_, ?_, ?_⟩
    · rw [hst]
      unfold Life.stop
      simp only [if_true, hw]
    · simp only [t, hstop]; exact g2
    · rw [hst]
      have : ({ t with active := true } : Life H).sent = t.sent := rfl
      rw [this]
      simp only [t, hstop]; exact g2
  · rw [hrun] at h; simp at h

/-- C60, what holds: the first `start()` succeeds, at whatever time before it the manager has been
used and `stop()` called; from then on, until `stop()`, everything put into the queue, also before, is
sent. -/
theorem C60_first_start_partial {H : Type} (before after : List (LifeOp H))
    (hb : ∀ op ∈ before, op ≠ .start) (ha : ∀ op ∈ after, op ≠ .stop) :
    let s := (Life.new H).run before
    s.start.2 = none ∧ s.sent = [] ∧
    (s.start.1.run after).sent = (Manager.worker none ((before ++ after).filterMap fun op =>
      match op with
      | .put m => some m
      | _ => none)).1 := by
  intro s
  have hs : s = ⟨.fresh, false, false, before.filterMap fun op => match op with | .put m => some m | _ => none⟩ := by
    suffices h : ∀ (ops : List (LifeOp H)) (q : List (Msg H)), (∀ op ∈ ops, op ≠ .start) →
        (Life.mk .fresh false false q).run ops =
          ⟨.fresh, false, false, q ++ ops.filterMap fun op => match op with | .put m => some m | _ => none⟩ by
      have := h before [] hb
      simpa [s, Life.new] using this
    intro ops
    induction ops with
    | nil => intro q _; simp [Life.run]
    | cons op ops ih =>
      intro q h
      have h' := fun o ho => h o (List.mem_cons_of_mem _ ho)
      cases op with
      | start => exact absurd rfl (h _ List.mem_cons_self)
      | stop => exact ih q h'
      | put m =>
        have := ih (q ++ [m]) h'
        simp only [List.filterMap_cons, List.append_assoc, List.cons_append, List.nil_append] at this ⊢
        exact this
  have hst : s.start = (⟨.started, true, true, s.queue⟩, none) := by rw [hs]; rfl
  refine ⟨by rw [hst], by rw [hs]; rfl, ?_⟩
  rw [hst]
  have hafter : ∀ (ops : List (LifeOp H)) (q : List (Msg H)), (∀ op ∈ ops, op ≠ .stop) →
      (Life.mk .started true true q).run ops =
        ⟨.started, true, true, q ++ ops.filterMap fun op => match op with | .put m => some m | _ => none⟩ := by
    intro ops
    induction ops with
    | nil => intro q _; simp [Life.run]
    | cons op ops ih =>
      intro q h
      have h' := fun o ho => h o (List.mem_cons_of_mem _ ho)
      cases op with
      | stop => exact absurd rfl (h _ List.mem_cons_self)
      | start => exact ih q h'
      | put m =>
        have := ih (q ++ [m]) h'
        simp only [List.filterMap_cons, List.append_assoc, List.cons_append, List.nil_append] at this ⊢
        exact this
  rw [hafter after s.queue ha, hs]
  simp only [Life.sent, if_true, List.filterMap_append]

/-- C60: starting a manager that runs raises `RuntimeError`, in every history, and changes nothing. -/
theorem C60_running_partial {H : Type} (before : List (LifeOp H)) (s : Life H)
    (hs : s = (Life.new H).run before) (hrun : s.worker = .started) : s.start = (s, some .runtimeError) := by
  have hr := Life.reach before
  simp only at hr
  rw [← hs] at hr
  rcases hr with ⟨h, -⟩ | ⟨-, h2, h3⟩ | ⟨h, -⟩
  · rw [hrun] at h; simp at h
  · obtain ⟨w, act, run, q⟩ := s
    simp only at hrun h2 h3
    subst hrun h2 h3
    rfl
  · rw [hrun] at h; simp at h

example :
    let s := (Life.new Nat).run [.put (.connect 1), .start, .put (.fileOpen 4)]
    s.worker = .started ∧ s.sent.length = 1 ∧
    (s.run [.stop, .put (.fileOpen 8), .start, .put (.fileOpen 12)]).sent = s.sent ∧
    (s.run [.put (.fileOpen 8)]).sent.length = 2 := by decide +kernel

end Apx.Manager
