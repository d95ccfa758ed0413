import Verif.Proofs.ThreadOrder

/-! The lock, and the data received. -/

namespace Apx.Threads

/-- A call raised. -/
def Raised (l : List (Call × Outcome PyVal)) : Prop := ∃ c x, (c, Outcome.raised x) ∈ l

theorem Raised.snoc {l : List (Call × Outcome PyVal)} (c : Call) (x : PyErr) : Raised (l ++ [(c, .raised x)]) :=
  ⟨c, x, by simp⟩

theorem Good.todo {s : Sys} {sch : List Nat} (h : Good s sch) {t : Nat} {th : Thread} {j : Job}
    (ht : (s.exec sch).threads[t]? = some th) (hj : th.phase.job? = some j) :
    ∃ c rest, th.todo = c :: rest ∧ ∀ off data, c ≠ .arrive off data := by
  obtain ⟨c, rest, h1, pre, post, th', h2, h3, h4, h5, h6, h7⟩ := h.job t th j ht hj
  refine ⟨c, rest, h1, ?_⟩
  rintro off data rfl
  exact h7

/-- What a step does to the lock. -/
theorem Good.lock {s : Sys} {sch : List Nat} (h : Good s sch) {t : Nat} {th : Thread}
    (ht : (s.exec sch).threads[t]? = some th) :
    ∃ th2, ((s.exec sch).step t).threads = (s.exec sch).threads.set t th2 ∧
      (∃ more, th2.results = th.results ++ more) ∧
      (((s.exec sch).step t).nd.locked = true →
        Crit th2.phase ∨ Raised th2.results ∨ (s.exec sch).nd.locked = true ∧ ¬ Crit th.phase) := by
  have hstay : (s.exec sch).step t = s.exec sch → ¬ Crit th.phase →
      ∃ th2, ((s.exec sch).step t).threads = (s.exec sch).threads.set t th2 ∧
      (∃ more, th2.results = th.results ++ more) ∧
      (((s.exec sch).step t).nd.locked = true →
        Crit th2.phase ∨ Raised th2.results ∨ (s.exec sch).nd.locked = true ∧ ¬ Crit th.phase) := by
    intro he hc
    rw [he]
    exact ⟨th, (set_same _ _ _ ht).symm, ⟨[], by simp⟩, fun hl => .inr (.inr ⟨hl, hc⟩)⟩
  cases hp : th.phase with
  | idle =>
    cases hq : th.todo with
    | nil =>
      have := hstay (by unfold Sys.step; simp only [ht, hp, hq]) (by rw [hp]; exact id)
      rw [hp] at this; exact this
    | cons c rest =>
      have hst : (s.exec sch).step t =
          ({ s.exec sch with nd := (begin (s.exec sch).nd th c).1 } : Sys).setThread t (begin (s.exec sch).nd th c).2 := by
        unfold Sys.step
        simp only [ht, hp, hq]
      rw [hst]
      generalize (s.exec sch) = s0
      refine ⟨_, rfl, ?_, ?_⟩
      · cases c with
        | write i v =>
          simp only [begin, startWrite]
          split
          · rw [fail_phase hq]; exact ⟨_, rfl⟩
          · split
            · rw [fail_phase hq]; exact ⟨_, rfl⟩
            · exact ⟨[], by simp [Thread.wait]⟩
        | notify r =>
          simp only [begin]
          rcases startRead_cases s0.nd th r with ⟨x, hx⟩ | ⟨j, hj⟩
          · rw [hx, fail_phase hq]; exact ⟨_, rfl⟩
          · rw [hj]; exact ⟨[], by simp [Thread.wait]⟩
        | read i =>
          simp only [begin]
          split
          · simp only [fail_phase hq]; exact ⟨_, rfl⟩
          · rename_i r _
            rcases startRead_cases s0.nd th r with ⟨x, hx⟩ | ⟨j, hj⟩
            · simp only [hx, fail_phase hq]; exact ⟨_, rfl⟩
            · simp only [hj]; exact ⟨[], by simp [Thread.wait]⟩
        | arrive off data =>
          simp only [begin]
          split
          · simp only [fail_phase hq]; exact ⟨_, rfl⟩
          · simp only [startNotify]
            split
            · simp only [finish_phase hq]; exact ⟨_, rfl⟩
            · split
              · simp only [fail_phase hq]; exact ⟨_, rfl⟩
              · simp only [finish_phase hq]; exact ⟨_, rfl⟩
      · intro hl
        refine .inr (.inr ⟨?_, id⟩)
        rw [← hl]
        simp only [Sys.setThread]
        cases c with
        | write i v => rfl
        | notify r => rfl
        | read i => simp only [begin]; split <;> rfl
        | arrive off data => simp only [begin]; split <;> rfl
  | waiting j =>
    by_cases hl : (s.exec sch).nd.locked = true
    · have := hstay (by unfold Sys.step; simp only [ht, hp, hl, if_true]) (by rw [hp]; exact id)
      rw [hp] at this; exact this
    · have hst : (s.exec sch).step t =
          ({ s.exec sch with nd := { (s.exec sch).nd with locked := true } } : Sys).goto t (.acquired j) := by
        unfold Sys.step; simp only [ht, hp, if_neg hl]
      rw [hst]
      exact ⟨_, goto_set _ _ _ _ ht, ⟨[], by simp⟩, fun _ => .inl trivial⟩
  | acquired j =>
    have hst : (s.exec sch).step t =
        ({ s.exec sch with vm := ⟨j.dir, true, VmState.init j.value, 0, t⟩ } : Sys).goto t (.running j j.prog) := by
      unfold Sys.step; simp only [ht, hp]
    rw [hst]
    exact ⟨_, goto_set _ _ _ _ ht, ⟨[], by simp⟩, fun _ => .inl trivial⟩
  | running j code =>
    obtain ⟨c, rest, hc, _⟩ := h.todo ht (j := j) (by rw [hp]; rfl)
    have hok := h.phase t th ht
    unfold PhaseOk at hok
    rw [hp] at hok
    obtain ⟨ho, hd, hrun⟩ := hok
    have hst : (s.exec sch).step t = (s.exec sch).instruct t th j code := by
      unfold Sys.step; simp only [ht, hp]
    have hfail : ∀ x, ∃ th2, ((s.exec sch).setThread t (th.fail x)).threads = (s.exec sch).threads.set t th2 ∧
        (∃ more, th2.results = th.results ++ more) ∧
        (((s.exec sch).setThread t (th.fail x)).nd.locked = true →
        Crit th2.phase ∨ Raised th2.results ∨ (s.exec sch).nd.locked = true ∧ ¬ Crit (.running j code)) := by
      intro x
      refine ⟨_, rfl, ?_, ?_⟩
      · rw [fail_phase hc]; exact ⟨_, rfl⟩
      · rw [fail_phase hc]; exact fun _ => .inr (.inl (Raised.snoc _ _))
    rw [hst]
    unfold Sys.instruct
    split
    · exact hfail _
    · exact ⟨_, goto_set _ _ _ _ ht, ⟨[], by simp⟩, fun _ => .inl trivial⟩
    · rename_i op code' _
      split
      · exact hfail _
      · split
        · exact hfail _
        · rename_i m hm
          refine ⟨⟨.running j code', m.data, th.todo, th.results⟩, ?_, ⟨[], by simp⟩, fun _ => .inl trivial⟩
          simp only [Sys.setBuffer, Sys.goto, ho]
          rw [modify_set _ _ _ _ ht]
          have hlt := (List.getElem?_eq_some_iff.1 ht).1
          rw [modify_set _ _ _ { th with data := m.data } (by rw [List.getElem?_set_self hlt])]
          simp
  | ran j =>
    have hst : (s.exec sch).step t = (s.exec sch).settle t j := by
      unfold Sys.step; simp only [ht, hp]
    rw [hst]
    unfold Sys.settle
    split
    · exact ⟨_, goto_set _ _ _ _ ht, ⟨[], by simp⟩, fun _ => .inl trivial⟩
    · exact ⟨_, goto_set _ _ _ _ ht, ⟨[], by simp⟩, fun _ => .inl trivial⟩
  | releasing j v =>
    obtain ⟨c, rest, hc, _⟩ := h.todo ht (j := j) (by rw [hp]; rfl)
    have hst : (s.exec sch).step t = (s.exec sch).release t th j v := by
      unfold Sys.step; simp only [ht, hp]
    rw [hst]
    unfold Sys.release
    split
    · exact ⟨_, goto_set _ _ _ _ ht, ⟨[], by simp⟩, fun hl => by cases hl⟩
    · refine ⟨_, rfl, ?_, fun hl => by cases hl⟩
      rw [finish_phase hc]; exact ⟨_, rfl⟩
  | writing j =>
    obtain ⟨c, rest, hc, _⟩ := h.todo ht (j := j) (by rw [hp]; rfl)
    have hst : (s.exec sch).step t = (s.exec sch).store t th j := by
      unfold Sys.step; simp only [ht, hp]
    rw [hst]
    unfold Sys.store
    split
    · refine ⟨_, rfl, ?_, fun hl => .inr (.inr ⟨hl, id⟩)⟩
      rw [fail_phase hc]; exact ⟨_, rfl⟩
    · refine ⟨_, rfl, ?_, fun hl => .inr (.inr ⟨hl, id⟩)⟩
      rw [finish_phase hc]; exact ⟨_, rfl⟩

/-- The lock is held by a thread in its critical section, unless a call raised. -/
theorem locked_exec (nd : NodeData) (calls : List (List Call)) (hl : nd.locked = false) (sch : List Nat) :
    ((Sys.start nd calls).exec sch).nd.locked = true →
      ∃ (t : Nat) (th : Thread), ((Sys.start nd calls).exec sch).threads[t]? = some th ∧ (Crit th.phase ∨ Raised th.results) := by
  induction sch using snoc_induction with
  | h0 => intro h; simp only [Sys.exec, List.foldl_nil, Sys.start, hl] at h; cases h
  | hs sch u ih =>
    intro h
    rw [exec_snoc] at h ⊢
    cases hu : ((Sys.start nd calls).exec sch).threads[u]? with
    | none =>
      rw [step_none hu] at h ⊢
      exact ih h
    | some thu =>
      obtain ⟨th2, h1, ⟨more, h2⟩, h3⟩ := (good_exec nd calls sch).lock hu
      have hlt := (List.getElem?_eq_some_iff.1 hu).1
      have hself : (((Sys.start nd calls).exec sch).step u).threads[u]? = some th2 := by
        rw [h1, List.getElem?_set_self hlt]
      rcases h3 h with h4 | h4 | ⟨h4, h5⟩
      · exact ⟨u, th2, hself, .inl h4⟩
      · exact ⟨u, th2, hself, .inr h4⟩
      · obtain ⟨t, th, h6, h7⟩ := ih h4
        by_cases htu : t = u
        · subst htu
          rw [hu] at h6
          simp only [Option.some.injEq] at h6
          subst h6
          rcases h7 with h7 | ⟨c, x, h7⟩
          · exact absurd h7 h5
          · exact ⟨t, th2, hself, .inr ⟨c, x, by rw [h2]; exact List.mem_append_left _ h7⟩⟩
        · refine ⟨t, th, ?_, h7⟩
          rw [h1, List.getElem?_set_ne (Ne.symm htu)]; exact h6

theorem arrivals_snoc (l : List (Call × Outcome PyVal)) (x : Call × Outcome PyVal) :
    arrivals (l ++ [x]) = arrivals l ++ arrivals [x] := by
  simp [arrivals, List.filterMap_append]

theorem arrivals_other (c : Call) (o : Outcome PyVal) (h : ∀ off data, c ≠ .arrive off data) : arrivals [(c, o)] = [] := by
  cases c with
  | write i v => rfl
  | read i => rfl
  | arrive off data => exact absurd rfl (h off data)
  | notify r => rfl

/-- What a step does to the file of the require ports. -/
theorem Good.receives {s : Sys} {sch : List Nat} (h : Good s sch) {t : Nat} {th : Thread}
    (ht : (s.exec sch).threads[t]? = some th) :
    ∃ th2, ((s.exec sch).step t).threads = (s.exec sch).threads.set t th2 ∧
      (((s.exec sch).step t).nd.inFile = (s.exec sch).nd.inFile ∧ arrivals th2.results = arrivals th.results ∨
      ∃ off data, Call.arrive off data ∈ th.todo ∧ arrivals th2.results = arrivals th.results ++ [⟨off, data⟩] ∧
        ((s.exec sch).step t).nd.inFile = (s.exec sch).nd.inFile.map fun f => (f.write off data).1) := by
  have hstay : (s.exec sch).step t = s.exec sch →
      ∃ th2, ((s.exec sch).step t).threads = (s.exec sch).threads.set t th2 ∧
      (((s.exec sch).step t).nd.inFile = (s.exec sch).nd.inFile ∧ arrivals th2.results = arrivals th.results ∨
      ∃ off data, Call.arrive off data ∈ th.todo ∧ arrivals th2.results = arrivals th.results ++ [⟨off, data⟩] ∧
        ((s.exec sch).step t).nd.inFile = (s.exec sch).nd.inFile.map fun f => (f.write off data).1) := by
    intro he
    rw [he]
    exact ⟨th, (set_same _ _ _ ht).symm, .inl ⟨rfl, rfl⟩⟩
  have hfail : ∀ {c : Call} {rest : List Call} (x : PyErr), th.todo = c :: rest → (∀ off data, c ≠ .arrive off data) →
      arrivals (th.fail x).results = arrivals th.results := by
    intro c rest x h1 h2
    rw [fail_phase h1]
    simp only
    rw [arrivals_snoc, arrivals_other _ _ h2, List.append_nil]
  have hfinish : ∀ {c : Call} {rest : List Call} (o : Outcome PyVal), th.todo = c :: rest → (∀ off data, c ≠ .arrive off data) →
      arrivals (th.finish o).results = arrivals th.results := by
    intro c rest x h1 h2
    rw [finish_phase h1]
    simp only
    rw [arrivals_snoc, arrivals_other _ _ h2, List.append_nil]
  cases hp : th.phase with
  | idle =>
    cases hq : th.todo with
    | nil =>
      have := hstay (by unfold Sys.step; simp only [ht, hp, hq])
      rw [hq] at this; exact this
    | cons c rest =>
      have hst : (s.exec sch).step t =
          ({ s.exec sch with nd := (begin (s.exec sch).nd th c).1 } : Sys).setThread t (begin (s.exec sch).nd th c).2 := by
        unfold Sys.step
        simp only [ht, hp, hq]
      rw [hst]
      generalize (s.exec sch) = s0
      refine ⟨_, rfl, ?_⟩
      have hread : ∀ r, (∀ off data, c ≠ .arrive off data) → arrivals (startRead s0.nd th r).results = arrivals th.results := by
        intro r hc
        rcases startRead_cases s0.nd th r with ⟨x, hx⟩ | ⟨j, hj⟩
        · rw [hx]; exact hfail x hq hc
        · rw [hj]; rfl
      cases c with
      | write i v =>
        refine .inl ⟨rfl, ?_⟩
        simp only [begin, startWrite]
        split
        · exact hfail _ hq (by intro _ _ hh; cases hh)
        · split
          · exact hfail _ hq (by intro _ _ hh; cases hh)
          · rfl
      | notify r => exact .inl ⟨rfl, hread r (by intro _ _ hh; cases hh)⟩
      | read i =>
        simp only [begin]
        split
        · exact .inl ⟨rfl, hfail _ hq (by intro _ _ hh; cases hh)⟩
        · exact .inl ⟨rfl, hread _ (by intro _ _ hh; cases hh)⟩
      | arrive off data =>
        refine .inr ⟨off, data, List.mem_cons_self, ?_, ?_⟩
        · simp only [begin]
          split
          · simp only [fail_phase hq]; rw [arrivals_snoc]; rfl
          · simp only [startNotify]
            split
            · simp only [finish_phase hq]; rw [arrivals_snoc]; rfl
            · split
              · simp only [fail_phase hq]; rw [arrivals_snoc]; rfl
              · simp only [finish_phase hq]; rw [arrivals_snoc]; rfl
        · simp only [begin, Sys.setThread]
          cases hf : s0.nd.inFile with
          | none => simp only [hf, Option.map_none]
          | some f => simp [FileData.inputWrite]
  | waiting j =>
    by_cases hl : (s.exec sch).nd.locked = true
    · exact hstay (by unfold Sys.step; simp only [ht, hp, hl, if_true])
    · have hst : (s.exec sch).step t =
          ({ s.exec sch with nd := { (s.exec sch).nd with locked := true } } : Sys).goto t (.acquired j) := by
        unfold Sys.step; simp only [ht, hp, if_neg hl]
      rw [hst]
      exact ⟨_, goto_set _ _ _ _ ht, .inl ⟨rfl, rfl⟩⟩
  | acquired j =>
    have hst : (s.exec sch).step t =
        ({ s.exec sch with vm := ⟨j.dir, true, VmState.init j.value, 0, t⟩ } : Sys).goto t (.running j j.prog) := by
      unfold Sys.step; simp only [ht, hp]
    rw [hst]
    exact ⟨_, goto_set _ _ _ _ ht, .inl ⟨rfl, rfl⟩⟩
  | running j code =>
    obtain ⟨c, rest, hc, hna⟩ := h.todo ht (j := j) (by rw [hp]; rfl)
    have hok := h.phase t th ht
    unfold PhaseOk at hok
    rw [hp] at hok
    obtain ⟨ho, hd, hrun⟩ := hok
    have hst : (s.exec sch).step t = (s.exec sch).instruct t th j code := by
      unfold Sys.step; simp only [ht, hp]
    rw [hst]
    unfold Sys.instruct
    split
    · exact ⟨_, rfl, .inl ⟨rfl, hfail _ hc hna⟩⟩
    · exact ⟨_, goto_set _ _ _ _ ht, .inl ⟨rfl, rfl⟩⟩
    · rename_i op code' _
      split
      · exact ⟨_, rfl, .inl ⟨rfl, hfail _ hc hna⟩⟩
      · split
        · exact ⟨_, rfl, .inl ⟨rfl, hfail _ hc hna⟩⟩
        · rename_i m hm
          refine ⟨⟨.running j code', m.data, th.todo, th.results⟩, ?_, .inl ⟨rfl, rfl⟩⟩
          simp only [Sys.setBuffer, Sys.goto, ho]
          rw [modify_set _ _ _ _ ht]
          have hlt := (List.getElem?_eq_some_iff.1 ht).1
          rw [modify_set _ _ _ { th with data := m.data } (by rw [List.getElem?_set_self hlt])]
          simp
  | ran j =>
    have hst : (s.exec sch).step t = (s.exec sch).settle t j := by
      unfold Sys.step; simp only [ht, hp]
    rw [hst]
    unfold Sys.settle
    split
    · exact ⟨_, goto_set _ _ _ _ ht, .inl ⟨rfl, rfl⟩⟩
    · exact ⟨_, goto_set _ _ _ _ ht, .inl ⟨rfl, rfl⟩⟩
  | releasing j v =>
    obtain ⟨c, rest, hc, hna⟩ := h.todo ht (j := j) (by rw [hp]; rfl)
    have hst : (s.exec sch).step t = (s.exec sch).release t th j v := by
      unfold Sys.step; simp only [ht, hp]
    rw [hst]
    unfold Sys.release
    split
    · exact ⟨_, goto_set _ _ _ _ ht, .inl ⟨rfl, rfl⟩⟩
    · exact ⟨_, rfl, .inl ⟨rfl, hfinish _ hc hna⟩⟩
  | writing j =>
    obtain ⟨c, rest, hc, hna⟩ := h.todo ht (j := j) (by rw [hp]; rfl)
    have hst : (s.exec sch).step t = (s.exec sch).store t th j := by
      unfold Sys.step; simp only [ht, hp]
    rw [hst]
    unfold Sys.store
    split
    · exact ⟨_, rfl, .inl ⟨rfl, hfail _ hc hna⟩⟩
    · exact ⟨_, rfl, .inl ⟨rfl, hfinish _ hc hna⟩⟩

theorem writeAll_snoc (f : FileData) (ws : List FileData.WriteReq) (w : FileData.WriteReq) :
    f.writeAll (ws ++ [w]) = ((f.writeAll ws).write w.offset w.data).1 := by
  induction ws generalizing f with
  | nil => rfl
  | cons a ws ih => exact ih _

/-- The file of the require ports holds what has been received. -/
theorem received_exec (nd : NodeData) (calls : List (List Call)) (r : Nat) (ho : OneReceiver r calls) (sch : List Nat)
    (th : Thread) (ht : ((Sys.start nd calls).exec sch).threads[r]? = some th) :
    ((Sys.start nd calls).exec sch).nd.inFile = nd.inFile.map fun f => f.writeAll (arrivals th.results) := by
  induction sch using snoc_induction generalizing th with
  | h0 =>
    simp only [Sys.exec, List.foldl_nil, Sys.start, List.getElem?_map, Option.map_eq_some_iff] at ht
    obtain ⟨l, hl, rfl⟩ := ht
    simp only [Sys.exec, List.foldl_nil, Sys.start, arrivals, List.filterMap_nil, FileData.writeAll, Option.map_id']
  | hs sch u ih =>
    rw [exec_snoc] at ht ⊢
    cases hu : ((Sys.start nd calls).exec sch).threads[u]? with
    | none =>
      rw [step_none hu] at ht ⊢
      exact ih th ht
    | some thu =>
      obtain ⟨th2, h1, h2⟩ := (good_exec nd calls sch).receives hu
      have hlt := (List.getElem?_eq_some_iff.1 hu).1
      by_cases hur : u = r
      · subst hur
        rw [h1, List.getElem?_set_self hlt] at ht
        simp only [Option.some.injEq] at ht
        subst ht
        have := ih thu hu
        rcases h2 with ⟨h2, h3⟩ | ⟨off, data, h2, h3, h4⟩
        · rw [h2, h3, this]
        · rw [h4, h3, this, Option.map_map]
          cases nd.inFile with
          | none => rfl
          | some f => simp only [Option.map_some, Function.comp, writeAll_snoc]
      · rw [h1, List.getElem?_set_ne hur] at ht
        have := ih th ht
        rcases h2 with ⟨h2, h3⟩ | ⟨off, data, h2, h3, h4⟩
        · rw [h2, this]
        · obtain ⟨l, h5, h6⟩ := todo_given nd calls sch u thu _ hu h2 rfl
          exact absurd (ho u l off data h5 h6) hur

theorem exec_append (s : Sys) (a b : List Nat) : s.exec (a ++ b) = (s.exec a).exec b := by
  simp [Sys.exec, List.foldl_append]

/-- Results stay. -/
theorem results_grow (nd : NodeData) (calls : List (List Call)) (pre post : List Nat) (t : Nat) (th : Thread)
    (ht : ((Sys.start nd calls).exec pre).threads[t]? = some th) :
    ∃ th', ((Sys.start nd calls).exec (pre ++ post)).threads[t]? = some th' ∧ ∃ more, th'.results = th.results ++ more := by
  induction post generalizing pre th with
  | nil => exact ⟨th, by simpa using ht, [], by simp⟩
  | cons u post ih =>
    have hstep : ∃ th1, ((Sys.start nd calls).exec (pre ++ [u])).threads[t]? = some th1 ∧ ∃ more, th1.results = th.results ++ more := by
      rw [exec_snoc]
      cases hu : ((Sys.start nd calls).exec pre).threads[u]? with
      | none => rw [step_none hu]; exact ⟨th, ht, [], by simp⟩
      | some thu =>
        obtain ⟨th2, h1, h2, _⟩ := (good_exec nd calls pre).lock hu
        have hlt := (List.getElem?_eq_some_iff.1 hu).1
        by_cases hut : u = t
        · subst hut
          rw [hu] at ht
          simp only [Option.some.injEq] at ht
          subst ht
          exact ⟨th2, by rw [h1, List.getElem?_set_self hlt], h2⟩
        · exact ⟨th, by rw [h1, List.getElem?_set_ne hut]; exact ht, [], by simp⟩
    obtain ⟨th1, h1, m1, h2⟩ := hstep
    obtain ⟨th', h3, m2, h4⟩ := ih (pre ++ [u]) th1 h1
    exact ⟨th', by simpa using h3, m1 ++ m2, by rw [h4, h2]; simp⟩

end Apx.Threads
