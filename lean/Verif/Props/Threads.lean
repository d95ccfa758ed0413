import Verif.Proofs.ThreadEnd

/-! C90: several threads using one node's data. -/

namespace Apx.Threads

/-- C90: whatever the other threads do, a read returns (or raises) what it would with nothing else going on,
on the data of the moment it started. -/
theorem C90_reads (nd : NodeData) (calls : List (List Call)) (sch : List Nat) (t : Nat) (th : Thread)
    (ht : ((Sys.start nd calls).exec sch).threads[t]? = some th) (k : Nat) (i : Int) (o : Outcome PyVal)
    (hk : th.results[k]? = some (.read i, o)) :
    AtCall (Sys.start nd calls) sch t k (.read i) fun s => o = ((unlocked s.nd).readRequire i).2 :=
  (good_exec nd calls sch).result t th k _ o ht hk

/-- C90: and so does a write. -/
theorem C90_outcomes (nd : NodeData) (calls : List (List Call)) (sch : List Nat) (t : Nat) (th : Thread)
    (ht : ((Sys.start nd calls).exec sch).threads[t]? = some th) (k : Nat) (i : Int) (v : PyVal) (o : Outcome PyVal)
    (hk : th.results[k]? = some (.write i v, o)) :
    AtCall (Sys.start nd calls) sch t k (.write i v) fun s =>
      (∀ x, o = .raised x ↔ ((unlocked s.nd).writeProvide i v).2 = .raised x) ∧
      ((∃ r, o = .ok r) ↔ ∃ w, ((unlocked s.nd).writeProvide i v).2 = .ok w) ∧ o ≠ .blocked := by
  obtain ⟨pre, post, th', h1, h2, h3, h4, h5, h6⟩ := (good_exec nd calls sch).result t th k _ o ht hk
  refine ⟨pre, post, th', h1, h2, h3, h4, h5, ?_⟩
  have hnb : ((unlocked ((Sys.start nd calls).exec pre).nd).writeProvide i v).2 ≠ .blocked := by
    unfold NodeData.writeProvide
    split
    · simp
    · split
      · simp
      · simp only [unlocked, Bool.false_eq_true, if_false]
        split
        · simp
        · split <;> simp
  simp only [Alone] at h6
  simp only []
  rw [h6]
  revert hnb
  generalize ((unlocked ((Sys.start nd calls).exec pre).nd).writeProvide i v).2 = q
  intro hnb
  cases q with
  | ok w => simp [asUnit]
  | raised x => simp [asUnit]
  | blocked => exact absurd rfl hnb

/-- C90: the client of the receiving thread is told the values that the ports have after the data received
so far, as if there were no other threads. -/
theorem C90_calls (nd : NodeData) (calls : List (List Call)) (sch : List Nat) (t : Nat) (th : Thread)
    (ho : OneReceiver t calls)
    (ht : ((Sys.start nd calls).exec sch).threads[t]? = some th) (k : Nat) (r : PortRange) (o : Outcome PyVal)
    (hk : th.results[k]? = some (.notify r, o)) :
    o = (({ unlocked nd with inFile := nd.inFile.map fun f => f.writeAll (arrivals (th.results.take k)) } :
      NodeData).unpackRequire r).2 := by
  obtain ⟨pre, post, th', h1, h2, h3, h4, h5, h6⟩ := (good_exec nd calls sch).result t th k _ o ht hk
  obtain ⟨th'', h7, more, h8⟩ := results_grow nd calls pre (t :: post) t th' h2
  rw [← h1, ht] at h7
  simp only [Option.some.injEq] at h7
  subst h7
  have htk : th.results.take k = th'.results := by rw [h8, ← h4]; simp
  rw [htk]
  simp only [Alone] at h6
  rw [h6]
  have hin := received_exec nd calls t ho pre th' h2
  have hsh := exec_shape (Sys.start nd calls) pre
  have hpr : ((Sys.start nd calls).exec pre).nd.inProgs = nd.inProgs := hsh.inProgs
  unfold NodeData.unpackRequire
  simp only [unlocked, hin, hpr]
  split
  · rfl
  · split
    · rfl
    · split
      · rfl
      · simp only [Bool.false_eq_true, if_false]
        split <;> rfl

/-- C90: at every moment the file of the require ports holds what has been received so far, and nothing else. -/
theorem C90_received (nd : NodeData) (calls : List (List Call)) (sch : List Nat) (t : Nat) (th : Thread)
    (ho : OneReceiver t calls) (ht : ((Sys.start nd calls).exec sch).threads[t]? = some th) :
    ((Sys.start nd calls).exec sch).nd.inFile = nd.inFile.map fun f => f.writeAll (arrivals th.results) :=
  received_exec nd calls t ho sch th ht

/-- C90: at every moment the file of the provide ports is the one that results when the writes that have
returned are made one after the other, in some order that keeps the order of each thread. -/
theorem C90_file (nd : NodeData) (hl : nd.locked = false) (calls : List (List Call)) (sch : List Nat) :
    ∃ ws nd', Interleaving ((Sys.start nd calls).exec sch) ws ∧ sequential nd (ws.map (·.2)) = some nd' ∧
      ((Sys.start nd calls).exec sch).nd.outFile = nd'.outFile := by
  obtain ⟨ws, nd1, h⟩ := linear_exec nd calls hl sch
  exact ⟨ws, nd1, h.order, h.seq, h.file⟩

/-- C90 for ports written by one thread only: when no thread is inside a call, the same order of writes explains
the file and the values read back. -/
theorem C90_values_partial (types : List NamedType) (rq pv : List NPort) (text : Str) (nd : NodeData)
    (hr : nd.Reachable types rq pv text) (hl : nd.locked = false) (hf : nd.outFile ≠ none)
    (calls : List (List Call)) (how : OneWriter calls) (sch : List Nat)
    (hb : ((Sys.start nd calls).exec sch).Between) :
    ∃ ws nd', Interleaving ((Sys.start nd calls).exec sch) ws ∧ sequential nd (ws.map (·.2)) = some nd' ∧
      ((Sys.start nd calls).exec sch).nd.outFile = nd'.outFile ∧
      ∀ i, ((Sys.start nd calls).exec sch).nd.readProvide i = nd'.readProvide i := by
  have hw := hr.wf
  obtain ⟨bs, hp⟩ := hw.outP
  obtain ⟨ws, nd1, h, hv⟩ := values_exec nd calls hl how hw.outC hf (by rw [hw.vals, hp.length.1]) sch
  refine ⟨ws, nd1, h.order, h.seq, h.file, ?_⟩
  intro i
  have hrg : ((Sys.start nd calls).exec sch).nd.outRanges = nd.outRanges := (exec_shape (Sys.start nd calls) sch).outRanges
  have hset : ∀ k : Nat, ((Sys.start nd calls).exec sch).nd.outValues[k]? = nd1.outValues[k]? := by
    intro k
    apply hv.settled
    intro t th v ht hpd
    have := hb th (List.mem_of_getElem? ht)
    rw [Pending, this] at hpd
    exact hpd.elim
  unfold NodeData.readProvide
  rw [hrg, h.ranges]
  simp only [hset]
  rfl

section
/-- Two threads write the first port. -/
def thCalls : List (List Call) := [[.write 0 (.int 1)], [.write 0 (.int 2)]]

/-- The first thread is interrupted between storing the value and writing the file. -/
def thRace : List Nat := List.replicate 8 0 ++ List.replicate 9 1 ++ [0]

/-- No thread is inside a call. -/
def thBetween (s : Sys) : Bool := s.threads.all fun th => match th.phase with
  | .idle => true
  | _ => false

def thReads (nd : NodeData) (n : Int) : Bool := match nd.readProvide 0 with
  | .ok (.val (.int m)) => m == n
  | _ => false

def thRaceOk : Bool := match ndNode with
  | .ok nd =>
    let s := (Sys.start nd thCalls).exec thRace
    thBetween s && decide (s.threads.length = 2) &&
    decide (s.threads.map (fun th => written th.results) = [[(0, .int 1)], [(0, .int 2)]]) &&
    decide (s.nd.outFile = some ⟨[1, 1, 254, 255, 0, 0]⟩) && thReads s.nd 2 && !nd.locked &&
    decide (nd.outFile ≠ none) &&
    (match sequential nd [(0, .int 1), (0, .int 2)] with
      | some n => decide (n.outFile = some ⟨[2, 1, 254, 255, 0, 0]⟩)
      | none => false) &&
    (match sequential nd [(0, .int 2), (0, .int 1)] with
      | some n => thReads n 1
      | none => false)
  | .error _ => false

example : thRaceOk = true := by decide +kernel
end

theorem interleaving_two {ws : List (Nat × Int × PyVal)} {a b : Int × PyVal} (h : ∀ w ∈ ws, w.1 < 2)
    (h0 : (ws.filter (·.1 == 0)).map (·.2) = [a]) (h1 : (ws.filter (·.1 == 1)).map (·.2) = [b]) :
    ws.map (·.2) = [a, b] ∨ ws.map (·.2) = [b, a] := by
  have hnil : ∀ (l : List (Nat × Int × PyVal)), (∀ w ∈ l, w.1 < 2) → (l.filter (·.1 == 0)).map (·.2) = [] →
      (l.filter (·.1 == 1)).map (·.2) = [] → l = [] := by
    intro l h h0 h1
    cases l with
    | nil => rfl
    | cons w l =>
      obtain ⟨t, x⟩ := w
      have := h (t, x) List.mem_cons_self
      have ht : t = 0 ∨ t = 1 := by simp only at this; omega
      rcases ht with rfl | rfl
      · simp at h0
      · simp at h1
  cases ws with
  | nil => simp at h0
  | cons w ws =>
    have hw := h w List.mem_cons_self
    have h' : ∀ w ∈ ws, w.1 < 2 := fun x hx => h x (List.mem_cons_of_mem _ hx)
    obtain ⟨t, x⟩ := w
    have ht : t = 0 ∨ t = 1 := by simp only at hw; omega
    have hone : ∀ (l : List (Nat × Int × PyVal)) (u u' : Nat) (y : Int × PyVal), (u = 0 ∧ u' = 1 ∨ u = 1 ∧ u' = 0) →
        (∀ w ∈ l, w.1 < 2) → (l.filter (·.1 == u)).map (·.2) = [] → (l.filter (·.1 == u')).map (·.2) = [y] →
        l.map (·.2) = [y] := by
      intro l u u' y hu hl g0 g1
      cases l with
      | nil => simp at g1
      | cons w l =>
        have hw := hl w List.mem_cons_self
        have hl' : ∀ w ∈ l, w.1 < 2 := fun x hx => hl x (List.mem_cons_of_mem _ hx)
        obtain ⟨t, z⟩ := w
        have ht : t = u ∨ t = u' := by simp only at hw; omega
        rcases ht with rfl | rfl
        · simp at g0
        · have hne : u ≠ t := by omega
          simp only [List.filter_cons, beq_self_eq_true, if_true, List.map_cons, List.cons.injEq] at g1
          have hne2 : (t == u) = false := by simp; omega
          simp only [List.filter_cons, hne2, Bool.false_eq_true, if_false] at g0
          have : l = [] := by
            rcases hu with ⟨rfl, rfl⟩ | ⟨rfl, rfl⟩
            · exact hnil l hl' g0 g1.2
            · exact hnil l hl' g1.2 g0
          subst this
          simp [g1.1]
    rcases ht with rfl | rfl
    · simp only [List.filter_cons, beq_self_eq_true, if_true, List.map_cons, List.cons.injEq] at h0
      have hne2 : ((0 : Nat) == 1) = false := rfl
      simp only [List.filter_cons, hne2, Bool.false_eq_true, if_false] at h1
      left
      rw [List.map_cons, hone ws 0 1 b (.inl ⟨rfl, rfl⟩) h' h0.2 h1, h0.1]
    · simp only [List.filter_cons, beq_self_eq_true, if_true, List.map_cons, List.cons.injEq] at h1
      have hne2 : ((1 : Nat) == 0) = false := rfl
      simp only [List.filter_cons, hne2, Bool.false_eq_true, if_false] at h0
      right
      rw [List.map_cons, hone ws 1 0 a (.inr ⟨rfl, rfl⟩) h' h1.2 h0, h1.1]

/-- C90 fails when two threads write the same port: the file is written after the lock has been released, so
the value read back may be that of one thread, and the file that is sent that of the other, for ever. -/
theorem C90_same_port_violated :
    ¬ ∀ (types : List NamedType) (rq pv : List NPort) (text : Str) (nd : NodeData), nd.Reachable types rq pv text →
      nd.locked = false → nd.outFile ≠ none → ∀ (calls : List (List Call)) (sch : List Nat),
      ((Sys.start nd calls).exec sch).Between →
      ∃ ws nd', Interleaving ((Sys.start nd calls).exec sch) ws ∧ sequential nd (ws.map (·.2)) = some nd' ∧
        ((Sys.start nd calls).exec sch).nd.outFile = nd'.outFile ∧
        ∀ i, ((Sys.start nd calls).exec sch).nd.readProvide i = nd'.readProvide i := by
  intro hall
  have hok : thRaceOk = true := by decide +kernel
  unfold thRaceOk at hok
  cases hnd : ndNode with
  | error x => rw [hnd] at hok; cases hok
  | ok nd =>
    rw [hnd] at hok
    simp only [Bool.and_eq_true, decide_eq_true_eq, Bool.not_eq_true'] at hok
    obtain ⟨⟨⟨⟨⟨⟨⟨⟨h1, h2⟩, h3⟩, h4⟩, h5⟩, h6⟩, h7⟩, h8⟩, h9⟩ := hok
    obtain ⟨ws, nd', g1, g2, g3, g4⟩ := hall ndTypes ndRq ndPv "x".toList nd ⟨nd, [], hnd, rfl⟩ h6 h7 thCalls thRace (by
      intro th hth
      have := List.all_eq_true.1 h1 th hth
      revert this
      cases th.phase <;> simp)
    have hlen := h2
    generalize ((Sys.start nd thCalls).exec thRace) = s at *
    obtain ⟨a, b, hab⟩ : ∃ a b, s.threads = [a, b] := by
      match s.threads, hlen with
      | [a, b], _ => exact ⟨a, b, rfl⟩
    rw [hab] at h3
    simp only [List.map_cons, List.map_nil, List.cons.injEq, and_true] at h3
    have e0 := g1.2 0 a (by rw [hab]; rfl)
    have e1 := g1.2 1 b (by rw [hab]; rfl)
    rw [h3.1] at e0
    rw [h3.2] at e1
    have hlt := g1.1
    rw [hlen] at hlt
    rcases interleaving_two hlt e0 e1 with hws | hws
    · rw [hws] at g2
      rw [g2] at h8
      simp only [decide_eq_true_eq] at h8
      rw [h4, h8] at g3
      simp at g3
    · rw [hws] at g2
      rw [g2] at h9
      simp only [thReads, ← g4] at h9
      unfold thReads at h5
      revert h5 h9
      cases s.nd.readProvide 0 with
      | error x => simp
      | ok w =>
        cases w with
        | init iv => simp
        | val v =>
          cases v <;> simp
          omega

/-- C90: unless a call raises, no thread waits for ever: while there is work left, some thread can go on. -/
theorem C90_no_deadlock (nd : NodeData) (hl : nd.locked = false) (calls : List (List Call)) (sch : List Nat)
    (hr : ∀ th ∈ ((Sys.start nd calls).exec sch).threads, ∀ c x, (c, Outcome.raised x) ∉ th.results)
    (hd : ¬ ((Sys.start nd calls).exec sch).Done) :
    ∃ th ∈ ((Sys.start nd calls).exec sch).threads, Enabled ((Sys.start nd calls).exec sch) th := by
  by_cases hk : ((Sys.start nd calls).exec sch).nd.locked = true
  · obtain ⟨t, th, h1, h2⟩ := locked_exec nd calls hl sch hk
    refine ⟨th, List.mem_of_getElem? h1, ?_⟩
    rcases h2 with h2 | ⟨c, x, h2⟩
    · constructor
      · intro hp; rw [hp] at h2; exact h2.elim
      · intro j hp; rw [hp] at h2; exact h2.elim
    · exact absurd h2 (hr th (List.mem_of_getElem? h1) c x)
  · apply Classical.byContradiction
    intro hno
    apply hd
    intro th hth
    have hne : ¬ Enabled ((Sys.start nd calls).exec sch) th := fun h => hno ⟨th, hth, h⟩
    apply Classical.byContradiction
    intro hn
    apply hne
    constructor
    · intro hp hq; exact hn ⟨hp, hq⟩
    · intro j _
      cases hb : ((Sys.start nd calls).exec sch).nd.locked with
      | false => rfl
      | true => exact absurd hb hk

/-- C90: the threads cannot go on for ever: there is a bound on the number of steps, whatever the schedule. -/
theorem C90_ends (nd : NodeData) (calls : List (List Call)) :
    ∃ bound, ∀ sch, (Sys.start nd calls).Busy sch → sch.length ≤ bound := by
  refine ⟨(Sys.start nd calls).left (progBound nd), ?_⟩
  suffices h : ∀ (b a : List Nat), ((Sys.start nd calls).exec a).Busy b →
      b.length ≤ ((Sys.start nd calls).exec a).left (progBound nd) from fun sch hs => h sch [] hs
  intro b
  induction b with
  | nil => intro a _; exact Nat.zero_le _
  | cons t b ih =>
    intro a hb
    obtain ⟨⟨th, ht, he⟩, hb⟩ := hb
    rw [← exec_snoc] at hb
    have h1 := ih _ hb
    have h2 := (good_exec nd calls a).left ht he
    rw [progBound_exec, ← exec_snoc] at h2
    have h3 : progBound (Sys.start nd calls).nd = progBound nd := rfl
    rw [h3] at h2
    rw [List.length_cons]
    omega

/-- C90: a scheduler that lets a thread go on whenever one can brings all calls to an end, unless a call
raises: any such schedule can be continued to one after which all calls have been made. -/
theorem C90_completes (nd : NodeData) (hl : nd.locked = false) (calls : List (List Call)) (sch : List Nat)
    (hb : (Sys.start nd calls).Busy sch) :
    ∃ more, (Sys.start nd calls).Busy (sch ++ more) ∧
      (((Sys.start nd calls).exec (sch ++ more)).Done ∨
        ∃ th ∈ ((Sys.start nd calls).exec (sch ++ more)).threads, ∃ c x, (c, Outcome.raised x) ∈ th.results) := by
  obtain ⟨bound, hbound⟩ := C90_ends nd calls
  suffices h : ∀ (n : Nat) (sch : List Nat), (Sys.start nd calls).Busy sch → bound - sch.length ≤ n →
      ∃ more, (Sys.start nd calls).Busy (sch ++ more) ∧
      (((Sys.start nd calls).exec (sch ++ more)).Done ∨
        ∃ th ∈ ((Sys.start nd calls).exec (sch ++ more)).threads, ∃ c x, (c, Outcome.raised x) ∈ th.results) from
    h _ sch hb (Nat.le_refl _)
  intro n
  induction n with
  | zero =>
    intro sch hb hn
    have hle := hbound sch hb
    refine ⟨[], by simpa using hb, ?_⟩
    rw [List.append_nil]
    apply Classical.byContradiction
    intro hno
    have hd : ¬ ((Sys.start nd calls).exec sch).Done := fun h => hno (.inl h)
    obtain ⟨th, hth, he⟩ := C90_no_deadlock nd hl calls sch
      (fun th hth c x hx => hno (.inr ⟨th, hth, c, x, hx⟩)) hd
    obtain ⟨t, ht⟩ := List.getElem?_of_mem hth
    have := hbound _ (busy_snoc hb ht he)
    rw [List.length_append, List.length_singleton] at this
    omega
  | succ n ih =>
    intro sch hb hn
    by_cases hd : ((Sys.start nd calls).exec sch).Done
    · exact ⟨[], by simpa using hb, .inl (by rwa [List.append_nil])⟩
    · by_cases hr : ∃ th ∈ ((Sys.start nd calls).exec sch).threads, ∃ c x, (c, Outcome.raised x) ∈ th.results
      · exact ⟨[], by simpa using hb, .inr (by rwa [List.append_nil])⟩
      · obtain ⟨th, hth, he⟩ := C90_no_deadlock nd hl calls sch
          (fun th hth c x hx => hr ⟨th, hth, c, x, hx⟩) hd
        obtain ⟨t, ht⟩ := List.getElem?_of_mem hth
        have hb' := busy_snoc hb ht he
        have hlen := hbound _ hb'
        obtain ⟨more, h1, h2⟩ := ih (sch ++ [t]) hb' (by
          rw [List.length_append, List.length_singleton] at hlen ⊢; omega)
        rw [List.append_assoc] at h1 h2
        exact ⟨[t] ++ more, h1, h2⟩

section
/-- Two threads writing different ports, one of them also reading, and the receiving thread. -/
def thMix : List (List Call) :=
  [[.write 0 (.int 7), .read 1, .write 0 (.int 8)], [.arrive 0 [9, 5, 1, 0]], [.write 2 (.int 258), .read 1]]

/-- The threads take turns. -/
def thTurns : List Nat := (List.range 300).map (· % 3)

theorem thMix_oneWriter : OneWriter thMix := by
  intro t t' l l' i v v' h1 h2 h3 h4
  match t, t' with
  | 0, 0 => rfl
  | 1, 1 => rfl
  | 2, 2 => rfl
  | 0, 1 => simp [thMix] at h1 h2; subst h1 h2; simp at h3 h4
  | 0, 2 => simp [thMix] at h1 h2; subst h1 h2; simp at h3 h4; omega
  | 1, 0 => simp [thMix] at h1 h2; subst h1 h2; simp at h3 h4
  | 1, 2 => simp [thMix] at h1 h2; subst h1 h2; simp at h3 h4
  | 2, 0 => simp [thMix] at h1 h2; subst h1 h2; simp at h3 h4; omega
  | 2, 1 => simp [thMix] at h1 h2; subst h1 h2; simp at h3 h4
  | n + 3, _ => simp [thMix] at h1
  | _, n + 3 => simp [thMix] at h2

theorem thMix_oneReceiver : OneReceiver 1 thMix := by
  intro u l off data h1 h2
  match u with
  | 0 => simp [thMix] at h1; subst h1; simp at h2
  | 1 => rfl
  | 2 => simp [thMix] at h1; subst h1; simp at h2
  | n + 3 => simp [thMix] at h1

/-- Everything returns; the client is called for the two ports that the data cover. -/
def thMixOk : Bool := match ndNode with
  | .ok nd =>
    let s := (Sys.start nd thMix).exec thTurns
    thBetween s && decide (s.nd.outFile = some ⟨[8, 1, 254, 255, 2, 1]⟩) && thReads s.nd 8 && !nd.locked &&
    decide (nd.outFile ≠ none) &&
    decide (s.threads.map (fun th => th.results.map (·.2)) =
      [[.ok .null, .ok (.dict [("x".toList, .int 5), ("y".toList, .int 1)]), .ok .null],
       [.ok (.int 4), .ok (.int 9), .ok (.dict [("x".toList, .int 5), ("y".toList, .int 1)])],
       [.ok .null, .ok (.dict [("x".toList, .int 5), ("y".toList, .int 1)])]])
  | .error _ => false

example : thMixOk = true := by decide +kernel

/-- The condition of `C90_no_deadlock` is needed: a value that does not fit raises with the lock held, and then
the other thread waits for ever. -/
def thStuckOk : Bool := match ndNode with
  | .ok nd =>
    let s := (Sys.start nd [[.write 0 (.str [])], [.read 0]]).exec (List.replicate 30 0 ++ List.replicate 30 1)
    s.nd.locked && decide (s.threads.map (fun th => th.results.length) = [1, 0]) &&
    (match s.threads[1]? with
      | some th => match th.phase with
        | .waiting _ => true
        | _ => false
      | none => false)
  | .error _ => false

example : thStuckOk = true := by decide +kernel

/-- Whether the thread can make a step. -/
def thEnabled (s : Sys) (th : Thread) : Bool :=
  match th.phase with
  | .idle => !th.todo.isEmpty
  | .waiting _ => !s.nd.locked
  | _ => true

/-- The schedule that lets the first thread that can go on make a step. -/
def thGreedy : Nat → Sys → List Nat × Sys
  | 0, s => ([], s)
  | n + 1, s =>
    match s.threads.findIdx? (thEnabled s) with
    | none => ([], s)
    | some t => let r := thGreedy n (s.step t); (t :: r.1, r.2)

theorem thGreedy_busy (n : Nat) (s : Sys) : s.Busy (thGreedy n s).1 := by
  induction n generalizing s with
  | zero => trivial
  | succ n ih =>
    unfold thGreedy
    split
    · trivial
    · rename_i t ht
      refine ⟨?_, ih _⟩
      obtain ⟨h1, h2, _⟩ := List.findIdx?_eq_some_iff_getElem.1 ht
      refine ⟨s.threads[t], List.getElem?_eq_getElem h1, ?_, ?_⟩
      · intro hp hq; simp [thEnabled, hp, hq] at h2
      · intro j hp; simpa [thEnabled, hp] using h2

/-- The calls of both threads end after 18 steps of such a schedule. -/
def thEndsOk : Bool := match ndNode with
  | .ok nd =>
    let r := thGreedy 100 (Sys.start nd thCalls)
    decide (r.1.length = 18) && r.2.threads.all (fun th => th.todo.isEmpty)
  | .error _ => false

example : thEndsOk = true := by decide +kernel
end

end Apx.Threads
