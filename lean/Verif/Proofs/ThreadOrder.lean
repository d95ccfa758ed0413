import Verif.Proofs.ThreadSteps
import Verif.Props.NodeData

/-! The order in which the file is written. -/

namespace Apx.Threads

theorem sequential_snoc (nd : NodeData) (ws : List (Int × PyVal)) (i : Int) (v : PyVal) :
    sequential nd (ws ++ [(i, v)]) = (sequential nd ws).bind fun nd1 => sequential nd1 [(i, v)] := by
  induction ws generalizing nd with
  | nil => rfl
  | cons w ws ih =>
    obtain ⟨i', v'⟩ := w
    simp only [List.cons_append, sequential]
    split
    · exact ih _
    · rfl

theorem written_snoc (l : List (Call × Outcome PyVal)) (x : Call × Outcome PyVal) :
    written (l ++ [x]) = written l ++ written [x] := by
  simp [written, List.filterMap_append]

theorem written_read (c : Call) (o : Outcome PyVal) (h : ∀ i v, c = .write i v → ∃ x, o = .raised x) :
    written [(c, o)] = [] := by
  cases c with
  | write i v => obtain ⟨x, rfl⟩ := h i v rfl; rfl
  | read i => rfl
  | arrive off data => rfl
  | notify r => rfl

/-- The writes so far. -/
structure Linear (s : Sys) (sch : List Nat) (ws : List (Nat × Int × PyVal)) (nd1 : NodeData) : Prop where
  order : Interleaving (s.exec sch) ws
  seq : sequential s.nd (ws.map (·.2)) = some nd1
  file : (s.exec sch).nd.outFile = nd1.outFile
  ranges : nd1.outRanges = s.nd.outRanges
  progs : nd1.outProgs = s.nd.outProgs
  unlocked : nd1.locked = false

/-- The values read back: those of the sequential execution, but for ports about to be written to the file. -/
structure Values (s : Sys) (sch : List Nat) (nd1 : NodeData) : Prop where
  len : nd1.outValues.length = (s.exec sch).nd.outValues.length
  size : (s.exec sch).nd.outValues.length = s.nd.outRanges.length
  pending : ∀ (t : Nat) (th : Thread) (k : Nat) (v : PyVal), (s.exec sch).threads[t]? = some th → Pending th →
    th.todo.head? = some (.write k v) → (s.exec sch).nd.outValues[k]? = some (.val v)
  settled : ∀ k : Nat, (∀ (t : Nat) (th : Thread) (v : PyVal), (s.exec sch).threads[t]? = some th → Pending th →
    th.todo.head? ≠ some (.write k v)) → (s.exec sch).nd.outValues[k]? = nd1.outValues[k]?

theorem Interleaving.keep {s s2 : Sys} {ws : List (Nat × Int × PyVal)} (h : Interleaving s ws) {t : Nat} {th th2 : Thread}
    (ht : s.threads[t]? = some th) (hs : s2.threads = s.threads.set t th2) (hw : written th2.results = written th.results) :
    Interleaving s2 ws := by
  constructor
  · rw [hs, List.length_set]; exact h.1
  · intro u thu hu
    rw [hs, List.getElem?_set] at hu
    split at hu
    · rename_i hut
      subst hut
      split at hu
      · simp only [Option.some.injEq] at hu
        subst hu
        rw [hw]; exact h.2 t th ht
      · simp at hu
    · exact h.2 u thu hu

theorem Interleaving.more {s s2 : Sys} {ws : List (Nat × Int × PyVal)} (h : Interleaving s ws) {t : Nat} {th th2 : Thread}
    (ht : s.threads[t]? = some th) (hs : s2.threads = s.threads.set t th2) {i : Int} {v : PyVal}
    (hw : written th2.results = written th.results ++ [(i, v)]) :
    Interleaving s2 (ws ++ [(t, i, v)]) := by
  have hlt := (List.getElem?_eq_some_iff.1 ht).1
  constructor
  · rw [hs, List.length_set]
    intro w hw
    rw [List.mem_append] at hw
    rcases hw with hw | hw
    · exact h.1 w hw
    · simp only [List.mem_singleton] at hw; subst hw; exact hlt
  · intro u thu hu
    rw [hs, List.getElem?_set] at hu
    rw [List.filter_append, List.map_append]
    split at hu
    · rename_i hut
      subst hut
      simp only [Option.some.injEq] at hu
      subst hu
      rw [hw, h.2 t th ht]
      simp
    · rename_i hut
      rw [h.2 u thu hu]
      simp [hut]

theorem seq_one {nd1 : NodeData} {i : Int} {v : PyVal} {j : Job} {f : FileData} {data : Bytes}
    (h1 : NodeData.lookupRange nd1.outRanges i = .ok j.r) (h2 : nd1.outProgs[j.r.id]? = some j.prog)
    (h3 : nd1.locked = false) (h4 : execPackProg j.prog (List.replicate j.r.len 0) 0 v = .ok data)
    (h5 : nd1.outFile = some f) :
    sequential nd1 [(i, v)] = some { nd1 with
      outValues := nd1.outValues.set j.r.id (.val v), outFile := some (f.write j.r.offset data).1 } := by
  simp only [sequential, NodeData.writeProvide, h1, h2, h3, h4, h5, Bool.false_eq_true, if_false]

theorem snoc_induction {P : List Nat → Prop} (h0 : P []) (hs : ∀ sch t, P sch → P (sch ++ [t])) (sch : List Nat) : P sch := by
  suffices h : ∀ (a b : List Nat), P a → P (a ++ b) by exact h [] sch h0
  intro a b
  induction b generalizing a with
  | nil => intro h; simpa using h
  | cons t b ih =>
    intro h
    have := ih (a ++ [t]) (hs a t h)
    simpa using this

theorem step_none {s : Sys} {t : Nat} (h : s.threads[t]? = none) : s.step t = s := by
  unfold Sys.step
  rw [h]

/-- The calls a thread has yet to make are among those it was given, but for those to the client. -/
theorem todo_given (nd : NodeData) (calls : List (List Call)) (sch : List Nat) :
    ∀ (t : Nat) (th : Thread) (c : Call), ((Sys.start nd calls).exec sch).threads[t]? = some th →
      c ∈ th.todo → c.isNotify = false → ∃ l, calls[t]? = some l ∧ c ∈ l := by
  induction sch using snoc_induction with
  | h0 =>
    intro t th c ht hm hn
    simp only [Sys.exec, List.foldl_nil, Sys.start, List.getElem?_map, Option.map_eq_some_iff] at ht
    obtain ⟨l, hl, rfl⟩ := ht
    exact ⟨l, hl, hm⟩
  | hs sch u ih =>
    intro t th c ht hm hn
    rw [exec_snoc] at ht
    cases hu : ((Sys.start nd calls).exec sch).threads[u]? with
    | none =>
      rw [step_none hu] at ht
      exact ih t th c ht hm hn
    | some thu =>
      obtain ⟨th2, h1, h2⟩ := (good_exec nd calls sch).effect hu
      rw [h1, List.getElem?_set] at ht
      split at ht
      · rename_i hut
        subst hut
        split at ht
        · simp only [Option.some.injEq] at ht
          subst ht
          refine ih u thu c hu ?_ hn
          cases h2 with
          | quiet _ h2 => rw [← h2]; exact hm
          | cached _ _ _ _ _ _ h2 => rw [← h2]; exact hm
          | over c rest o h0 _ h2 =>
            rw [h0]
            rcases h2 _ hm with h | h
            · exact List.mem_cons_of_mem _ h
            · rw [hn] at h; cases h
          | stored _ _ rest _ _ h0 _ h2 =>
            rw [h0, ← h2]; exact List.mem_cons_of_mem _ hm
        · simp at ht
      · exact ih t th c ht hm hn

/-- No port is about to be written by two threads. -/
def Apart (s : Sys) : Prop :=
  ∀ (t t' : Nat) (th th' : Thread) (i : Int) (v v' : PyVal), s.threads[t]? = some th → s.threads[t']? = some th' →
    Call.write i v ∈ th.todo → Call.write i v' ∈ th'.todo → t = t'

theorem head_mem {α : Type} {l : List α} {a : α} (h : l.head? = some a) : a ∈ l := by
  cases l with
  | nil => simp at h
  | cons x l => simp only [List.head?_cons, Option.some.injEq] at h; subst h; exact List.mem_cons_self

theorem linear_step {s : Sys} {sch : List Nat} {ws : List (Nat × Int × PyVal)} {nd1 : NodeData}
    (hg : Good s sch) (h : Linear s sch ws nd1) (t : Nat) :
    ∃ ws' nd1', Linear s (sch ++ [t]) ws' nd1' ∧
      (∀ size, Consecutive 0 0 s.nd.outRanges size → Apart (s.exec sch) → s.nd.outFile ≠ none →
        Values s sch nd1 → Values s (sch ++ [t]) nd1') := by
  cases ht : (s.exec sch).threads[t]? with
  | none =>
    have he : s.exec (sch ++ [t]) = s.exec sch := by rw [exec_snoc, step_none ht]
    refine ⟨ws, nd1, ⟨?_, h.seq, ?_, h.ranges, h.progs, h.unlocked⟩, ?_⟩
    · rw [he]; exact h.order
    · rw [he]; exact h.file
    · intro _ _ _ _ hv
      refine ⟨?_, ?_, ?_, ?_⟩ <;> rw [he]
      · exact hv.len
      · exact hv.size
      · exact hv.pending
      · exact hv.settled
  | some th =>
    obtain ⟨th2, h1, h2⟩ := hg.effect ht
    rw [← exec_snoc] at h1 h2
    have hlt := (List.getElem?_eq_some_iff.1 ht).1
    have hself : (s.exec (sch ++ [t])).threads[t]? = some th2 := by rw [h1, List.getElem?_set_self hlt]
    have hother : ∀ u, u ≠ t → (s.exec (sch ++ [t])).threads[u]? = (s.exec sch).threads[u]? := by
      intro u hu
      rw [h1, List.getElem?_set_ne (Ne.symm hu)]
    cases h2 with
    | quiet a1 a2 a3 a4 a5 =>
      refine ⟨ws, nd1, ⟨h.order.keep ht h1 (by rw [a1]), h.seq, by rw [a3]; exact h.file, h.ranges, h.progs, h.unlocked⟩, ?_⟩
      intro _ _ _ _ hv
      refine ⟨by rw [a4]; exact hv.len, by rw [a4]; exact hv.size, ?_, ?_⟩
      · intro u thu k v hu hpu hh
        rw [a4]
        by_cases hut : u = t
        · subst hut
          rw [hself] at hu
          simp only [Option.some.injEq] at hu
          subst hu
          exact hv.pending u th k v ht (a5.1 hpu) (by rw [← a2]; exact hh)
        · rw [hother u hut] at hu
          exact hv.pending u thu k v hu hpu hh
      · intro k hk
        rw [a4]
        apply hv.settled
        intro u thu v hu hpu
        by_cases hut : u = t
        · subst hut
          rw [ht] at hu
          simp only [Option.some.injEq] at hu
          subst hu
          have := hk u th2 v hself (a5.2 hpu)
          rw [a2] at this; exact this
        · exact hk u thu v (by rw [hother u hut]; exact hu) hpu
    | cached i v rest j a0 a1 a2 a3 a4 a5 a6 a7 =>
      refine ⟨ws, nd1, ⟨h.order.keep ht h1 (by rw [a1]), h.seq, by rw [a3]; exact h.file, h.ranges, h.progs, h.unlocked⟩, ?_⟩
      intro size hc hap hf hv
      obtain ⟨_, b1, _⟩ := a4
      rw [hg.shape.outRanges] at b1
      obtain ⟨k, rfl, hk⟩ := (Apx.lookupRange_ok hc i j.r).mp b1
      have hid : j.r.id = k := by have := (hc.get hk).1; omega
      have hkl : k < (s.exec sch).nd.outValues.length := by
        rw [hv.size]; exact (List.getElem?_eq_some_iff.mp hk).1
      rw [hid] at a5
      refine ⟨by rw [a5, List.length_set]; exact hv.len, by rw [a5, List.length_set]; exact hv.size, ?_, ?_⟩
      · intro u thu k' v' hu hpu hh
        by_cases hut : u = t
        · subst hut
          rw [hself] at hu
          simp only [Option.some.injEq] at hu
          subst hu
          rw [a2, a0] at hh
          simp only [List.head?_cons, Option.some.injEq, Call.write.injEq] at hh
          obtain ⟨hkk, rfl⟩ := hh
          have : k = k' := by omega
          subst this
          rw [a5, List.getElem?_set_self hkl]
        · rw [hother u hut] at hu
          have hne : k ≠ k' := by
            rintro rfl
            exact hut (hap u t thu th k v' v hu ht (head_mem hh) (by rw [a0]; exact List.mem_cons_self))
          rw [a5, List.getElem?_set_ne hne]
          exact hv.pending u thu k' v' hu hpu hh
      · intro k' hk'
        have hne : k ≠ k' := by
          rintro rfl
          exact hk' t th2 v hself a7 (by rw [a2, a0]; rfl)
        rw [a5, List.getElem?_set_ne hne]
        apply hv.settled
        intro u thu v' hu hpu
        by_cases hut : u = t
        · subst hut
          rw [ht] at hu
          simp only [Option.some.injEq] at hu
          subst hu
          exact absurd hpu a6
        · exact hk' u thu v' (by rw [hother u hut]; exact hu) hpu
    | over c rest o a0 a1 a2 a3 a4 a5 a6 a7 =>
      refine ⟨ws, nd1, ⟨h.order.keep ht h1 (by rw [a1, written_snoc, written_read c o a5, List.append_nil]), h.seq,
        by rw [a3]; exact h.file, h.ranges, h.progs, h.unlocked⟩, ?_⟩
      intro size hc hap hf hv
      have hnp : ¬ Pending th := by
        intro hp
        have := a6 hp
        have hsh := hg.shape.outFile
        rw [this] at hsh
        cases hh : s.nd.outFile with
        | none => exact hf hh
        | some f => rw [hh] at hsh; simp at hsh
      refine ⟨by rw [a4]; exact hv.len, by rw [a4]; exact hv.size, ?_, ?_⟩
      · intro u thu k v hu hpu hh
        rw [a4]
        by_cases hut : u = t
        · subst hut
          rw [hself] at hu
          simp only [Option.some.injEq] at hu
          subst hu
          exact absurd hpu a7
        · rw [hother u hut] at hu
          exact hv.pending u thu k v hu hpu hh
      · intro k hk
        rw [a4]
        apply hv.settled
        intro u thu v hu hpu
        by_cases hut : u = t
        · subst hut
          rw [ht] at hu
          simp only [Option.some.injEq] at hu
          subst hu
          exact absurd hpu hnp
        · exact hk u thu v (by rw [hother u hut]; exact hu) hpu
    | stored i v rest j f a0 a1 a2 a3 a4 a5 a6 a7 a8 a9 =>
      obtain ⟨_, b1, b2, b3, b4⟩ := a6
      rw [b3] at a7
      have hone : sequential nd1 [(i, v)] = some { nd1 with
          outValues := nd1.outValues.set j.r.id (.val v), outFile := some (f.write j.r.offset th.data).1 } := by
        refine seq_one ?_ ?_ h.unlocked a7 ?_
        · rw [h.ranges, ← hg.shape.outRanges]; exact b1
        · rw [h.progs, ← hg.shape.outProgs]; exact b2
        · rw [← h.file]; exact a3
      refine ⟨ws ++ [(t, i, v)], { nd1 with
          outValues := nd1.outValues.set j.r.id (.val v), outFile := some (f.write j.r.offset th.data).1 },
        ⟨h.order.more ht h1 (by rw [a1, written_snoc]; rfl), ?_, ?_, ?_, ?_, ?_⟩, ?_⟩
      · rw [List.map_append]
        simp only [List.map_cons, List.map_nil]
        rw [sequential_snoc, h.seq, Option.bind_some, hone]
      · exact a4
      · exact h.ranges
      · exact h.progs
      · exact h.unlocked
      · intro size hc hap hf hv
        rw [hg.shape.outRanges] at b1
        obtain ⟨k, rfl, hk⟩ := (Apx.lookupRange_ok hc i j.r).mp b1
        have hid : j.r.id = k := by have := (hc.get hk).1; omega
        have hkl : k < nd1.outValues.length := by
          rw [hv.len, hv.size]; exact (List.getElem?_eq_some_iff.mp hk).1
        refine ⟨by rw [a5]; simp only [List.length_set]; exact hv.len, by rw [a5]; exact hv.size, ?_, ?_⟩
        · intro u thu k' v' hu hpu hh
          rw [a5]
          by_cases hut : u = t
          · subst hut
            rw [hself] at hu
            simp only [Option.some.injEq] at hu
            subst hu
            exact absurd hpu a9
          · rw [hother u hut] at hu
            exact hv.pending u thu k' v' hu hpu hh
        · intro k' hk'
          rw [a5]
          simp only [hid]
          by_cases hkk : k = k'
          · subst hkk
            rw [List.getElem?_set_self hkl]
            exact hv.pending t th k v ht a8 (by rw [a0]; rfl)
          · rw [List.getElem?_set_ne hkk]
            apply hv.settled
            intro u thu v' hu hpu
            by_cases hut : u = t
            · subst hut
              rw [ht] at hu
              simp only [Option.some.injEq] at hu
              subst hu
              rw [a0]
              simp only [List.head?_cons, ne_eq, Option.some.injEq, Call.write.injEq, not_and]
              omega
            · exact hk' u thu v' (by rw [hother u hut]; exact hu) hpu

theorem linear_start (nd : NodeData) (calls : List (List Call)) (hl : nd.locked = false) :
    Linear (Sys.start nd calls) [] [] nd := by
  refine ⟨⟨by simp, ?_⟩, rfl, rfl, rfl, rfl, hl⟩
  intro t th ht
  simp only [Sys.exec, List.foldl_nil, Sys.start, List.getElem?_map, Option.map_eq_some_iff] at ht
  obtain ⟨l, _, rfl⟩ := ht
  rfl

theorem linear_exec (nd : NodeData) (calls : List (List Call)) (hl : nd.locked = false) (sch : List Nat) :
    ∃ ws nd1, Linear (Sys.start nd calls) sch ws nd1 := by
  induction sch using snoc_induction with
  | h0 => exact ⟨[], nd, linear_start nd calls hl⟩
  | hs sch t ih =>
    obtain ⟨ws, nd1, h⟩ := ih
    obtain ⟨ws', nd1', h', _⟩ := linear_step (good_exec nd calls sch) h t
    exact ⟨ws', nd1', h'⟩

theorem values_exec (nd : NodeData) (calls : List (List Call)) (hl : nd.locked = false) (how : OneWriter calls)
    {size : Nat} (hc : Consecutive 0 0 nd.outRanges size) (hf : nd.outFile ≠ none)
    (hlen : nd.outValues.length = nd.outRanges.length) (sch : List Nat) :
    ∃ ws nd1, Linear (Sys.start nd calls) sch ws nd1 ∧ Values (Sys.start nd calls) sch nd1 := by
  induction sch using snoc_induction with
  | h0 =>
    refine ⟨[], nd, linear_start nd calls hl, rfl, hlen, ?_, fun _ _ => rfl⟩
    intro t th k v ht hp
    simp only [Sys.exec, List.foldl_nil, Sys.start, List.getElem?_map, Option.map_eq_some_iff] at ht
    obtain ⟨l, _, rfl⟩ := ht
    exact hp.elim
  | hs sch t ih =>
    obtain ⟨ws, nd1, h, hv⟩ := ih
    obtain ⟨ws', nd1', h', hv'⟩ := linear_step (good_exec nd calls sch) h t
    refine ⟨ws', nd1', h', hv' size hc ?_ hf hv⟩
    intro u u' th th' i v v' h1 h2 h3 h4
    obtain ⟨l, c1, c2⟩ := todo_given nd calls sch u th _ h1 h3 rfl
    obtain ⟨l', d1, d2⟩ := todo_given nd calls sch u' th' _ h2 h4 rfl
    exact how u u' l l' i v v' c1 d1 c2 d2

end Apx.Threads
