import Verif.Proofs.Threads

/-! What one step of a thread changes. -/

namespace Apx.Threads

/-- The value has been stored, the file has not been written. -/
def Pending (th : Thread) : Prop :=
  match th.phase with
  | .releasing j _ => j.dir = .pack
  | .writing _ => True
  | _ => False

/-- The effects of a step of a thread. -/
inductive Effect (s1 s2 : Sys) (th th2 : Thread) : Prop
  /-- the call goes on -/
  | quiet (h1 : th2.results = th.results) (h2 : th2.todo = th.todo) (h3 : s2.nd.outFile = s1.nd.outFile)
      (h4 : s2.nd.outValues = s1.nd.outValues) (h5 : Pending th2 ↔ Pending th)
  /-- the value is stored -/
  | cached (i : Int) (v : PyVal) (rest : List Call) (j : Job) (h0 : th.todo = .write i v :: rest)
      (h1 : th2.results = th.results) (h2 : th2.todo = th.todo) (h3 : s2.nd.outFile = s1.nd.outFile)
      (h4 : Starts s1.nd (.write i v) j) (h5 : s2.nd.outValues = s1.nd.outValues.set j.r.id (.val v))
      (h6 : ¬ Pending th) (h7 : Pending th2)
  /-- the call ends without writing the file -/
  | over (c : Call) (rest : List Call) (o : Outcome PyVal) (h0 : th.todo = c :: rest)
      (h1 : th2.results = th.results ++ [(c, o)]) (h2 : ∀ x ∈ th2.todo, x ∈ rest ∨ x.isNotify = true)
      (h3 : s2.nd.outFile = s1.nd.outFile) (h4 : s2.nd.outValues = s1.nd.outValues)
      (h5 : ∀ i v, c = .write i v → ∃ x, o = .raised x) (h6 : Pending th → s1.nd.outFile = none) (h7 : ¬ Pending th2)
  /-- the file is written -/
  | stored (i : Int) (v : PyVal) (rest : List Call) (j : Job) (f : FileData) (h0 : th.todo = .write i v :: rest)
      (h1 : th2.results = th.results ++ [(.write i v, .ok .null)]) (h2 : th2.todo = rest)
      (h3 : s1.nd.outFile = some f) (h4 : s2.nd.outFile = some (f.write j.r.offset th.data).1)
      (h5 : s2.nd.outValues = s1.nd.outValues) (h6 : Starts s1.nd (.write i v) j)
      (h7 : execPackProg j.prog j.start 0 v = .ok th.data) (h8 : Pending th) (h9 : ¬ Pending th2)

theorem starts_write_shape {a b : NodeData} (h : Shape a b) {i : Int} {v : PyVal} {j : Job} (hs : Starts a (.write i v) j) :
    Starts b (.write i v) j := by
  obtain ⟨h1, h2, h3, h4, h5⟩ := hs
  exact ⟨h1, by rw [h.outRanges]; exact h2, by rw [h.outProgs]; exact h3, h4, h5⟩

/-- A packing call in progress is a write. -/
theorem Good.packing {s : Sys} {sch : List Nat} (h : Good s sch) {t : Nat} {th : Thread} {j : Job}
    (ht : (s.exec sch).threads[t]? = some th) (hj : th.phase.job? = some j) (hd : j.dir = .pack) :
    ∃ i v rest, th.todo = .write i v :: rest ∧ Starts (s.exec sch).nd (.write i v) j := by
  obtain ⟨c, rest, h1, pre, post, th', h2, h3, h4, h5, h6, h7⟩ := h.job t th j ht hj
  cases c with
  | write i v =>
    refine ⟨i, v, rest, h1, starts_write_shape ?_ h7⟩
    exact (exec_shape s pre).symm.trans (exec_shape s sch)
  | read i =>
    obtain ⟨_, h8, _⟩ := h7
    rw [hd] at h8; cases h8
  | notify r =>
    obtain ⟨_, h8, _⟩ := h7
    rw [hd] at h8; cases h8
  | arrive off data => exact h7.elim

theorem Good.unpacking {s : Sys} {sch : List Nat} (h : Good s sch) {t : Nat} {th : Thread} {j : Job}
    (ht : (s.exec sch).threads[t]? = some th) (hj : th.phase.job? = some j) (hd : j.dir = .unpack) :
    ∃ c rest, th.todo = c :: rest ∧ ∀ i v, c ≠ .write i v := by
  obtain ⟨c, rest, h1, pre, post, th', h2, h3, h4, h5, h6, h7⟩ := h.job t th j ht hj
  refine ⟨c, rest, h1, ?_⟩
  rintro i v rfl
  obtain ⟨h8, _⟩ := h7
  rw [hd] at h8; cases h8

theorem mem_dropWhile {α : Type} {p : α → Bool} {l : List α} {x : α} (h : x ∈ l.dropWhile p) : x ∈ l :=
  (List.dropWhile_suffix p).mem h

theorem startRead_cases (nd : NodeData) (th : Thread) (r : PortRange) :
    (∃ x, startRead nd th r = th.fail x) ∨ ∃ j, startRead nd th r = th.wait j := by
  unfold startRead
  split
  · exact .inl ⟨_, rfl⟩
  · split
    · exact .inl ⟨_, rfl⟩
    · split
      · exact .inl ⟨_, rfl⟩
      · exact .inr ⟨_, rfl⟩

theorem Good.effect {s : Sys} {sch : List Nat} (h : Good s sch) {t : Nat} {th : Thread}
    (ht : (s.exec sch).threads[t]? = some th) :
    ∃ th2, ((s.exec sch).step t).threads = (s.exec sch).threads.set t th2 ∧
      Effect (s.exec sch) ((s.exec sch).step t) th th2 := by
  have hok := h.phase t th ht
  have hstay : (s.exec sch).step t = s.exec sch → ∃ th2, ((s.exec sch).step t).threads = (s.exec sch).threads.set t th2 ∧
      Effect (s.exec sch) ((s.exec sch).step t) th th2 := by
    intro he
    rw [he]
    exact ⟨th, (set_same _ _ _ ht).symm, .quiet rfl rfl rfl rfl Iff.rfl⟩
  cases hp : th.phase with
  | idle =>
    have hnp : ¬ Pending th := by unfold Pending; rw [hp]; exact id
    cases hq : th.todo with
    | nil => exact hstay (by unfold Sys.step; simp only [ht, hp, hq])
    | cons c rest =>
      have hst : (s.exec sch).step t =
          ({ s.exec sch with nd := (begin (s.exec sch).nd th c).1 } : Sys).setThread t (begin (s.exec sch).nd th c).2 := by
        unfold Sys.step
        simp only [ht, hp, hq]
      rw [hst]
      refine ⟨_, rfl, ?_⟩
      generalize (s.exec sch) = s0
      have hfail : ∀ (nd : NodeData) (x : PyErr), nd.outFile = s0.nd.outFile → nd.outValues = s0.nd.outValues →
          Effect s0 (({ s0 with nd := nd } : Sys).setThread t (th.fail x)) th (th.fail x) := by
        intro nd x h1 h2
        refine .over c rest (.raised x) hq ?_ ?_ h1 h2 ?_ ?_ ?_
        · rw [fail_phase hq]
        · rw [fail_phase hq]; intro y hy; exact .inl (mem_dropWhile hy)
        · exact fun _ _ _ => ⟨x, rfl⟩
        · exact fun hh => absurd hh hnp
        · rw [fail_phase hq]; exact id
      have hwait : ∀ (j : Job), Effect s0 (({ s0 with nd := s0.nd } : Sys).setThread t (th.wait j)) th (th.wait j) := by
        intro j
        exact .quiet rfl rfl rfl rfl ⟨fun hh => hh.elim, fun hh => absurd hh hnp⟩
      have hread : ∀ (r : PortRange), Effect s0 (({ s0 with nd := s0.nd } : Sys).setThread t (startRead s0.nd th r)) th
          (startRead s0.nd th r) := by
        intro r
        rcases startRead_cases s0.nd th r with ⟨x, hx⟩ | ⟨j, hj⟩
        · rw [hx]; exact hfail _ x rfl rfl
        · rw [hj]; exact hwait j
      cases c with
      | write i v =>
        simp only [begin, startWrite]
        split
        · exact hfail _ _ rfl rfl
        · split
          · exact hfail _ _ rfl rfl
          · exact hwait _
      | notify r => exact hread r
      | read i =>
        simp only [begin]
        split
        · exact hfail _ _ rfl rfl
        · exact hread _
      | arrive off data =>
        simp only [begin]
        split
        · exact hfail _ _ rfl rfl
        · rename_i f hf
          generalize f.inputWrite off data false true = w
          obtain ⟨f', n, note⟩ := w
          simp only [startNotify]
          cases note with
          | none =>
            refine .over (.arrive off data) rest (.ok (.int n)) hq ?_ ?_ rfl rfl ?_ ?_ ?_
            · simp only [finish_phase hq]
            · simp only [finish_phase hq]; exact fun x hx => .inl hx
            · intro i v hc; cases hc
            · exact fun hh => absurd hh hnp
            · simp only [finish_phase hq]; exact id
          | some nt =>
            simp only
            cases hb : s0.nd.byteToPort off data.length with
            | error x => exact hfail _ x rfl rfl
            | ok rs =>
              refine .over (.arrive off data) rest (.ok (.int n)) hq ?_ ?_ rfl rfl ?_ ?_ ?_
              · simp only [finish_phase hq]
              · simp only [finish_phase hq]
                intro x hx
                rw [List.mem_append] at hx
                rcases hx with hx | hx
                · right
                  rw [List.mem_map] at hx
                  obtain ⟨r, _, rfl⟩ := hx
                  rfl
                · exact .inl hx
              · intro i v hc; cases hc
              · exact fun hh => absurd hh hnp
              · simp only [finish_phase hq]; exact id
  | waiting j =>
    by_cases hl : (s.exec sch).nd.locked = true
    · exact hstay (by unfold Sys.step; simp only [ht, hp, hl, if_true])
    · have hst : (s.exec sch).step t =
          ({ s.exec sch with nd := { (s.exec sch).nd with locked := true } } : Sys).goto t (.acquired j) := by
        unfold Sys.step; simp only [ht, hp, if_neg hl]
      rw [hst]
      refine ⟨_, goto_set _ _ _ _ ht, .quiet rfl rfl rfl rfl ?_⟩
      simp only [Pending, hp]
  | acquired j =>
    have hst : (s.exec sch).step t =
        ({ s.exec sch with vm := ⟨j.dir, true, VmState.init j.value, 0, t⟩ } : Sys).goto t (.running j j.prog) := by
      unfold Sys.step; simp only [ht, hp]
    rw [hst]
    refine ⟨_, goto_set _ _ _ _ ht, .quiet rfl rfl rfl rfl ?_⟩
    simp only [Pending, hp]
  | running j code =>
    have hjq : th.phase.job? = some j := by rw [hp]; rfl
    obtain ⟨c, rest, hc, hat⟩ := h.job t th j ht hjq
    unfold PhaseOk at hok
    rw [hp] at hok
    obtain ⟨ho, hd, hrun⟩ := hok
    have hst : (s.exec sch).step t = (s.exec sch).instruct t th j code := by
      unfold Sys.step; simp only [ht, hp]
    have hnp : ¬ Pending th := by unfold Pending; rw [hp]; exact id
    have hfail : ∀ (x : PyErr), Effect (s.exec sch) ((s.exec sch).setThread t (th.fail x)) th (th.fail x) := by
      intro x
      refine .over c rest (.raised x) hc ?_ ?_ rfl rfl ?_ ?_ ?_
      · rw [fail_phase hc]
      · rw [fail_phase hc]; intro y hy; exact .inl (mem_dropWhile hy)
      · exact fun _ _ _ => ⟨x, rfl⟩
      · exact fun hh => absurd hh hnp
      · rw [fail_phase hc]; exact id
    rw [hst]
    unfold Sys.instruct
    split
    · exact ⟨_, rfl, hfail _⟩
    · refine ⟨_, goto_set _ _ _ _ ht, .quiet rfl rfl rfl rfl ?_⟩
      simp only [Pending, hp]
    · rename_i op code' _
      split
      · exact ⟨_, rfl, hfail _⟩
      · split
        · exact ⟨_, rfl, hfail _⟩
        · rename_i m hm
          refine ⟨⟨.running j code', m.data, th.todo, th.results⟩, ?_, .quiet rfl rfl rfl rfl ?_⟩
          · simp only [Sys.setBuffer, Sys.goto, ho]
            rw [modify_set _ _ _ _ ht]
            have hlt := (List.getElem?_eq_some_iff.1 ht).1
            rw [modify_set _ _ _ { th with data := m.data } (by rw [List.getElem?_set_self hlt])]
            simp
          · simp only [Pending, hp]
  | ran j =>
    have hjq : th.phase.job? = some j := by rw [hp]; rfl
    have hst : (s.exec sch).step t = (s.exec sch).settle t j := by
      unfold Sys.step; simp only [ht, hp]
    rw [hst]
    unfold Sys.settle
    cases hd : j.dir with
    | pack =>
      obtain ⟨i, v, rest, h1, h2⟩ := h.packing ht hjq hd
      have hv : j.value = v := h2.2.2.2.2
      refine ⟨_, goto_set _ _ _ _ ht, .cached i v rest j h1 rfl rfl rfl h2 ?_ ?_ ?_⟩
      · simp only [Sys.goto, hv]
      · simp only [Pending, hp, not_false_eq_true]
      · exact hd
    | unpack =>
      refine ⟨_, goto_set _ _ _ _ ht, .quiet rfl rfl rfl rfl ?_⟩
      simp [Pending, hp, hd]
  | releasing j v =>
    have hjq : th.phase.job? = some j := by rw [hp]; rfl
    have hst : (s.exec sch).step t = (s.exec sch).release t th j v := by
      unfold Sys.step; simp only [ht, hp]
    rw [hst]
    unfold Sys.release
    cases hd : j.dir with
    | pack =>
      refine ⟨_, goto_set _ _ _ _ ht, .quiet rfl rfl rfl rfl ?_⟩
      simp only [Pending, hp, hd]
    | unpack =>
      obtain ⟨c, rest, hc, hnw⟩ := h.unpacking ht hjq hd
      refine ⟨_, rfl, .over c rest (.ok v) hc ?_ ?_ rfl rfl ?_ ?_ ?_⟩
      · rw [finish_phase hc]
      · rw [finish_phase hc]; exact fun x hx => .inl hx
      · exact fun i v hc => absurd hc (hnw i v)
      · intro hh
        simp only [Pending, hp, hd] at hh
        cases hh
      · rw [finish_phase hc]; exact id
  | writing j =>
    have hjq : th.phase.job? = some j := by rw [hp]; rfl
    unfold PhaseOk at hok
    rw [hp] at hok
    obtain ⟨hd, m, hm1, hm2⟩ := hok
    obtain ⟨i, v, rest, hc, hs⟩ := h.packing ht hjq hd
    have hst : (s.exec sch).step t = (s.exec sch).store t th j := by
      unfold Sys.step; simp only [ht, hp]
    rw [hst]
    unfold Sys.store
    cases hf : (s.exec sch).nd.outFile with
    | none =>
      refine ⟨_, rfl, .over _ rest (.raised .attributeError) hc ?_ ?_ rfl rfl ?_ ?_ ?_⟩
      · rw [fail_phase hc]
      · rw [fail_phase hc]; intro y hy; exact .inl (mem_dropWhile hy)
      · exact fun _ _ _ => ⟨_, rfl⟩
      · exact fun _ => hf
      · rw [fail_phase hc]; exact id
    | some f =>
      refine ⟨_, rfl, .stored i v rest j f hc ?_ ?_ hf rfl rfl hs ?_ ?_ ?_⟩
      · rw [finish_phase hc]
      · rw [finish_phase hc]
      · have hv : j.value = v := hs.2.2.2.2
        unfold execPackProg
        unfold whole at hm1
        rw [hd, hv] at hm1
        rw [hm1, ok_bind, hm2]
      · simp only [Pending, hp]
      · rw [finish_phase hc]; exact id

end Apx.Threads
