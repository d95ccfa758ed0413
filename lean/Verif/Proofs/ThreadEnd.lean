import Verif.Proofs.ThreadLock

/-! Every step of a thread that can make one brings the end nearer: lemmas for C90. -/

namespace Apx.Threads

/-- A bound on the length of the programs of the ports. -/
def progBound (nd : NodeData) : Nat := ((nd.inProgs ++ nd.outProgs).map List.length).sum

/-- A bound on the number of steps of a call, and of the calls of the client that follow it. -/
def Call.cost (n : Nat) : Call → Nat
  | .arrive _ data => 1 + data.length * (n + 7)
  | _ => n + 7

/-- The same for several calls. -/
def costs (n : Nat) (l : List Call) : Nat := (l.map (Call.cost n)).sum

/-- A bound on the number of steps left of the current call. -/
def Phase.left : Phase → Nat
  | .idle => 0
  | .waiting j => j.prog.length + 6
  | .acquired j => j.prog.length + 5
  | .running _ code => code.length + 4
  | .ran _ => 3
  | .releasing _ _ => 2
  | .writing _ => 1

/-- The calls that have not begun. -/
def Thread.later (th : Thread) : List Call :=
  match th.phase with
  | .idle => th.todo
  | _ => th.todo.tail

/-- A bound on the number of steps left of a thread. -/
def Thread.left (n : Nat) (th : Thread) : Nat := th.phase.left + costs n th.later

theorem le_sum_of_mem {l : List Nat} {a : Nat} (h : a ∈ l) : a ≤ l.sum := by
  induction l with
  | nil => cases h
  | cons b l ih =>
    rw [List.sum_cons]
    rcases List.mem_cons.1 h with rfl | h
    · omega
    · have := ih h; omega

theorem progBound_in {nd : NodeData} {i : Nat} {p : Bytes} (h : nd.inProgs[i]? = some p) : p.length ≤ progBound nd :=
  le_sum_of_mem (List.mem_map_of_mem (List.mem_append_left _ (List.mem_of_getElem? h)))

theorem progBound_out {nd : NodeData} {i : Nat} {p : Bytes} (h : nd.outProgs[i]? = some p) : p.length ≤ progBound nd :=
  le_sum_of_mem (List.mem_map_of_mem (List.mem_append_right _ (List.mem_of_getElem? h)))

theorem costs_cons (n : Nat) (c : Call) (l : List Call) : costs n (c :: l) = c.cost n + costs n l := by
  simp [costs]

theorem costs_append (n : Nat) (l m : List Call) : costs n (l ++ m) = costs n l + costs n m := by
  simp [costs]

theorem costs_dropWhile (n : Nat) (p : Call → Bool) (l : List Call) : costs n (l.dropWhile p) ≤ costs n l := by
  induction l with
  | nil => exact Nat.le_refl _
  | cons c l ih =>
    rw [List.dropWhile_cons]
    split
    · rw [costs_cons]; omega
    · exact Nat.le_refl _

theorem costs_notify (n : Nat) (rs : List PortRange) : costs n (rs.map .notify) = rs.length * (n + 7) := by
  induction rs with
  | nil => simp [costs]
  | cons r rs ih =>
    rw [List.map_cons, costs_cons, ih, List.length_cons, Nat.succ_mul]
    simp only [Call.cost]
    omega

theorem Call.cost_pos (n : Nat) (c : Call) : 0 < c.cost n := by
  cases c <;> simp only [Call.cost] <;> omega

theorem byteToPortLoop_length (ranges : List PortRange) : ∀ (fuel off stop : Nat) (rs : List PortRange),
    NodeData.byteToPortLoop ranges fuel off stop = .ok rs → rs.length ≤ fuel := by
  intro fuel
  induction fuel with
  | zero =>
    intro off stop rs h
    unfold NodeData.byteToPortLoop at h
    split at h
    · cases h
    · cases h; exact Nat.le_refl _
  | succ fuel ih =>
    intro off stop rs h
    unfold NodeData.byteToPortLoop at h
    split at h
    · split at h
      · cases h
      · split at h
        · cases h
        · split at h
          · simp only [error_bind] at h; cases h
          · simp only [bind_ok_iff] at h
            obtain ⟨rest, h1, h2⟩ := h
            cases h2
            have := ih _ _ _ h1
            simp only [List.length_cons]; omega
    · cases h; exact Nat.zero_le _

theorem byteToPort_length {nd : NodeData} {off len : Nat} {rs : List PortRange} (h : nd.byteToPort off len = .ok rs) :
    rs.length ≤ len := by
  unfold NodeData.byteToPort at h
  simp only [] at h
  split at h
  · cases h
  · split at h
    · cases h
    · exact byteToPortLoop_length _ _ _ _ _ h

theorem fail_left {th : Thread} {c : Call} {rest : List Call} (h : th.todo = c :: rest) (x : PyErr) (n : Nat) :
    (th.fail x).left n ≤ costs n rest := by
  rw [fail_phase h]
  have := costs_dropWhile n Call.isNotify rest
  simpa [Thread.left, Phase.left, Thread.later] using this

theorem finish_left {th : Thread} {c : Call} {rest : List Call} (h : th.todo = c :: rest) (o : Outcome PyVal) (n : Nat) :
    (th.finish o).left n = costs n rest := by
  rw [finish_phase h]
  simp [Thread.left, Phase.left, Thread.later]

theorem wait_left {th : Thread} {c : Call} {rest : List Call} (h : th.todo = c :: rest) (j : Job) (n : Nat) :
    (th.wait j).left n = j.prog.length + 6 + costs n rest := by
  simp [Thread.wait, Thread.left, Phase.left, Thread.later, h]

theorem startRead_left (nd : NodeData) {th : Thread} {c : Call} {rest : List Call} (h : th.todo = c :: rest)
    (r : PortRange) : (startRead nd th r).left (progBound nd) < progBound nd + 7 + costs (progBound nd) rest := by
  have hf := fun x => fail_left h x (progBound nd)
  unfold startRead
  split
  · have := hf .indexError; omega
  · rename_i prog hp
    split
    · have := hf .attributeError; omega
    · split
      · have := hf .runtimeError; omega
      · rw [wait_left h]
        have := progBound_in hp
        simp only []; omega

theorem startWrite_left (nd : NodeData) {th : Thread} {c : Call} {rest : List Call} (h : th.todo = c :: rest)
    (i : Int) (v : PyVal) : (startWrite nd th i v).left (progBound nd) < progBound nd + 7 + costs (progBound nd) rest := by
  have hf := fun x => fail_left h x (progBound nd)
  unfold startWrite
  split
  · rename_i x _; have := hf x; omega
  · split
    · have := hf .indexError; omega
    · rename_i prog hp
      rw [wait_left h]
      have := progBound_out hp
      simp only []; omega

theorem begin_left (nd : NodeData) {th : Thread} {c : Call} {rest : List Call} (h : th.todo = c :: rest) :
    (begin nd th c).2.left (progBound nd) < c.cost (progBound nd) + costs (progBound nd) rest := by
  have hf := fun x => fail_left h x (progBound nd)
  cases c with
  | write i v => exact startWrite_left nd h i v
  | notify r => exact startRead_left nd h r
  | read i =>
    simp only [begin]
    split
    · rename_i x _; have := hf x; simp only [Call.cost]; omega
    · exact startRead_left nd h _
  | arrive off data =>
    simp only [begin, Call.cost]
    split
    · have := hf .attributeError; simp only []; omega
    · simp only [startNotify]
      split
      · rw [finish_left h]; omega
      · split
        · rename_i x _; have := hf x; omega
        · rename_i rs hrs
          have hl := byteToPort_length hrs
          rw [finish_phase h]
          simp only [Thread.left, Phase.left, Thread.later, costs_append, costs_notify]
          have := Nat.mul_le_mul_right (progBound nd + 7) hl
          omega

theorem sum_set {l : List Nat} {t a b : Nat} (h : l[t]? = some a) (hb : b < a) : (l.set t b).sum < l.sum := by
  induction l generalizing t with
  | nil => simp at h
  | cons x l ih =>
    cases t with
    | zero =>
      simp only [List.getElem?_cons_zero, Option.some.injEq] at h
      subst h
      simp only [List.set_cons_zero, List.sum_cons]; omega
    | succ t =>
      simp only [List.getElem?_cons_succ] at h
      simp only [List.set_cons_succ, List.sum_cons]
      have := ih h; omega

/-- A bound on the number of steps left. -/
def Sys.left (n : Nat) (s : Sys) : Nat := (s.threads.map (Thread.left n)).sum

theorem left_set {n : Nat} {s s' : Sys} {t : Nat} {th th' : Thread} (ht : s.threads[t]? = some th)
    (hs : s'.threads = s.threads.set t th') (hl : th'.left n < th.left n) : s'.left n < s.left n := by
  unfold Sys.left
  rw [hs, List.map_set]
  exact sum_set (by rw [List.getElem?_map, ht]; rfl) hl

/-- A step of a thread that can make one. -/
theorem Good.left {s : Sys} {sch : List Nat} (h : Good s sch) {t : Nat} {th : Thread}
    (ht : (s.exec sch).threads[t]? = some th) (he : Enabled (s.exec sch) th) :
    ((s.exec sch).step t).left (progBound (s.exec sch).nd) < (s.exec sch).left (progBound (s.exec sch).nd) := by
  generalize hn : progBound (s.exec sch).nd = n
  cases hp : th.phase with
  | idle =>
    cases hq : th.todo with
    | nil => exact absurd hq (he.1 hp)
    | cons c rest =>
      have hst : (s.exec sch).step t =
          ({ s.exec sch with nd := (begin (s.exec sch).nd th c).1 } : Sys).setThread t (begin (s.exec sch).nd th c).2 := by
        unfold Sys.step
        simp only [ht, hp, hq]
      rw [hst]
      refine left_set (th' := (begin (s.exec sch).nd th c).2) ht rfl ?_
      have := begin_left (s.exec sch).nd hq
      rw [hn] at this
      simp only [Thread.left, Phase.left, Thread.later, hp, hq, costs_cons] at this ⊢
      omega
  | waiting j =>
    have hl := he.2 j hp
    have hst : (s.exec sch).step t =
        ({ s.exec sch with nd := { (s.exec sch).nd with locked := true } } : Sys).goto t (.acquired j) := by
      unfold Sys.step; simp only [ht, hp, hl]; rfl
    rw [hst]
    refine left_set ht (goto_set _ _ _ _ ht) ?_
    simp only [Thread.left, Phase.left, Thread.later, hp]; omega
  | acquired j =>
    have hst : (s.exec sch).step t =
        ({ s.exec sch with vm := ⟨j.dir, true, VmState.init j.value, 0, t⟩ } : Sys).goto t (.running j j.prog) := by
      unfold Sys.step; simp only [ht, hp]
    rw [hst]
    refine left_set ht (goto_set _ _ _ _ ht) ?_
    simp only [Thread.left, Phase.left, Thread.later, hp]; omega
  | running j code =>
    obtain ⟨c, rest, hc, _⟩ := h.job t th j ht (by rw [hp]; rfl)
    have hok := h.phase t th ht
    unfold PhaseOk at hok
    rw [hp] at hok
    obtain ⟨ho, hd, hrun⟩ := hok
    have hst : (s.exec sch).step t = (s.exec sch).instruct t th j code := by
      unfold Sys.step; simp only [ht, hp]
    have hfail : ∀ x, ((s.exec sch).setThread t (th.fail x)).left n < (s.exec sch).left n := by
      intro x
      refine left_set (th' := th.fail x) ht rfl ?_
      have := fail_left hc x n
      refine Nat.lt_of_le_of_lt this ?_
      simp only [Thread.left, Phase.left, Thread.later, hp, hc, List.tail_cons]; omega
    rw [hst]
    unfold Sys.instruct
    split
    · exact hfail _
    · refine left_set ht (goto_set _ _ _ _ ht) ?_
      simp only [Thread.left, Phase.left, Thread.later, hp]; omega
    · rename_i op code' hcode
      split
      · exact hfail _
      · split
        · exact hfail _
        · rename_i m hm
          have hlen := parseInstr_length hcode
          refine left_set (th' := ⟨.running j code', m.data, th.todo, th.results⟩) ht ?_ ?_
          · simp only [Sys.setBuffer, Sys.goto, ho]
            rw [modify_set _ _ _ _ ht]
            have hlt := (List.getElem?_eq_some_iff.1 ht).1
            rw [modify_set _ _ _ { th with data := m.data } (by rw [List.getElem?_set_self hlt])]
            simp
          · simp only [Thread.left, Phase.left, Thread.later, hp]; omega
  | ran j =>
    have hst : (s.exec sch).step t = (s.exec sch).settle t j := by
      unfold Sys.step; simp only [ht, hp]
    rw [hst]
    unfold Sys.settle
    split
    · refine left_set ht (goto_set _ _ _ _ ht) ?_
      simp only [Thread.left, Phase.left, Thread.later, hp]; omega
    · refine left_set ht (goto_set _ _ _ _ ht) ?_
      simp only [Thread.left, Phase.left, Thread.later, hp]; omega
  | releasing j v =>
    obtain ⟨c, rest, hc, _⟩ := h.job t th j ht (by rw [hp]; rfl)
    have hst : (s.exec sch).step t = (s.exec sch).release t th j v := by
      unfold Sys.step; simp only [ht, hp]
    rw [hst]
    unfold Sys.release
    split
    · refine left_set ht (goto_set _ _ _ _ ht) ?_
      simp only [Thread.left, Phase.left, Thread.later, hp]; omega
    · refine left_set (th' := th.finish (.ok v)) ht rfl ?_
      rw [finish_left hc]
      simp only [Thread.left, Phase.left, Thread.later, hp, hc, List.tail_cons]; omega
  | writing j =>
    obtain ⟨c, rest, hc, _⟩ := h.job t th j ht (by rw [hp]; rfl)
    have hst : (s.exec sch).step t = (s.exec sch).store t th j := by
      unfold Sys.step; simp only [ht, hp]
    rw [hst]
    unfold Sys.store
    split
    · refine left_set (th' := th.fail .attributeError) ht rfl ?_
      refine Nat.lt_of_le_of_lt (fail_left hc .attributeError n) ?_
      simp only [Thread.left, Phase.left, Thread.later, hp, hc, List.tail_cons]; omega
    · refine left_set (th' := th.finish (.ok .null)) ht rfl ?_
      rw [finish_left hc]
      simp only [Thread.left, Phase.left, Thread.later, hp, hc, List.tail_cons]; omega

theorem progBound_exec (s : Sys) (sch : List Nat) : progBound (s.exec sch).nd = progBound s.nd := by
  have h := exec_shape s sch
  unfold progBound
  rw [h.inProgs, h.outProgs]

theorem busy_snoc {s : Sys} {sch : List Nat} (h : s.Busy sch) {t : Nat} {th : Thread}
    (ht : (s.exec sch).threads[t]? = some th) (he : Enabled (s.exec sch) th) : s.Busy (sch ++ [t]) := by
  induction sch generalizing s with
  | nil => exact ⟨⟨th, ht, he⟩, trivial⟩
  | cons u sch ih => exact ⟨h.1, ih h.2 ht he⟩

end Apx.Threads
