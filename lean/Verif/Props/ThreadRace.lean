import Verif.Props.Threads
import Verif.Props.NodeData

/-! C90: two threads that write the same port, for all ports and values. -/

namespace Apx.Threads

theorem exec_more (s : Sys) (a b : List Nat) : s.exec (a ++ b) = (s.exec a).exec b := List.foldl_append

/-- Thread `t` executes its program to the end, if nobody else runs. -/
theorem runs_alone (t : Nat) (j : Job) (m : Vm) : ∀ (l : Nat) (code : Bytes), code.length ≤ l →
    ∀ (s : Sys) (data : Bytes) (todo : List Call) (res : List (Call × Outcome PyVal)),
    s.threads[t]? = some ⟨.running j code, data, todo, res⟩ → s.vm.owner = t → s.vm.dir = j.dir →
    runVm j.dir s.vm.first code ⟨s.vm.st, data, s.vm.off⟩ = .ok m →
    ∃ n vm', s.exec (List.replicate n t) = ⟨s.nd, vm', s.threads.set t ⟨.ran j, m.data, todo, res⟩⟩ := by
  intro l
  induction l with
  | zero =>
    intro code hl s data todo res ht ho hd hrun
    have : code = [] := List.length_eq_zero_iff.mp (by omega)
    subst this
    rw [runVm_unfold] at hrun
    simp only [parseInstr, Except.ok.injEq] at hrun
    subst hrun
    refine ⟨1, s.vm, ?_⟩
    simp only [List.replicate, Sys.exec, List.foldl_cons, List.foldl_nil, Sys.step, ht, Sys.instruct, parseInstr, Sys.goto,
      modify_set _ _ _ _ ht]
  | succ l ih =>
    intro code hl s data todo res ht ho hd hrun
    rw [runVm_unfold] at hrun
    cases hpi : parseInstr code with
    | error x => rw [hpi] at hrun; cases hrun
    | ok oi =>
      cases oi with
      | none =>
        rw [hpi] at hrun
        simp only [Except.ok.injEq] at hrun
        subst hrun
        refine ⟨1, s.vm, ?_⟩
        simp only [List.replicate, Sys.exec, List.foldl_cons, List.foldl_nil, Sys.step, ht, Sys.instruct, hpi, Sys.goto,
          modify_set _ _ _ _ ht]
      | some ir =>
        obtain ⟨i, rest⟩ := ir
        rw [hpi] at hrun
        simp only at hrun
        by_cases hf : (s.vm.first && !isProgHeader j.dir i) = true
        · rw [if_pos hf] at hrun; cases hrun
        rw [if_neg hf] at hrun
        have hbuf : s.buffer = data := by simp only [Sys.buffer, ho, ht, Option.elim]
        cases hx : execInstr j.dir i ⟨s.vm.st, data, s.vm.off⟩ with
        | error x => rw [hx] at hrun; cases hrun
        | ok m' =>
          rw [hx] at hrun
          simp only at hrun
          have hlt := (List.getElem?_eq_some_iff.1 ht).1
          have hstep : s.step t = ⟨s.nd, ⟨j.dir, false, m'.st, m'.off, t⟩,
              s.threads.set t ⟨.running j rest, m'.data, todo, res⟩⟩ := by
            simp only [Sys.step, ht, Sys.instruct, hpi, if_neg hf, hd, hbuf, hx, Sys.setBuffer, Sys.goto, ho]
            rw [modify_set _ _ _ _ ht]
            rw [modify_set _ _ _ _ (List.getElem?_set_self hlt)]
            simp
          have hlen := parseInstr_length hpi
          obtain ⟨n, vm', he⟩ := ih rest (by omega) (s.step t) m'.data todo res
            (by rw [hstep]; exact List.getElem?_set_self hlt) (by rw [hstep]) (by rw [hstep]) (by rw [hstep]; exact hrun)
          refine ⟨n + 1, vm', ?_⟩
          rw [List.replicate_succ]
          show (s.step t).exec _ = _
          rw [he, hstep]
          simp

/-- Thread `t` makes its write up to the point where the lock has been released and the file not yet written. -/
theorem writes_alone {s : Sys} {t : Nat} {data : Bytes} {rest : List Call} {res : List (Call × Outcome PyVal)} {i : Int}
    {v : PyVal} {nd' : NodeData} {off : Nat} {d : Bytes} (ht : s.threads[t]? = some ⟨.idle, data, .write i v :: rest, res⟩)
    (hw : s.nd.writeProvide i v = (nd', .ok (off, d))) :
    ∃ n vm' j, j.r.offset = off ∧ s.exec (List.replicate n t) =
      ⟨{ s.nd with outValues := nd'.outValues }, vm', s.threads.set t ⟨.writing j, d, .write i v :: rest, res⟩⟩ := by
  unfold NodeData.writeProvide at hw
  split at hw
  · simp at hw
  rename_i r hr
  split at hw
  · simp at hw
  rename_i prog hprog
  split at hw
  · simp at hw
  rename_i hl
  split at hw
  · simp at hw
  rename_i dd hx
  simp only at hw
  split at hw
  · simp at hw
  rename_i f hf
  simp only [Prod.mk.injEq, Outcome.ok.injEq] at hw
  obtain ⟨rfl, rfl, rfl⟩ := hw
  simp only [execPackProg, bind_ok_iff, Except.ok.injEq] at hx
  obtain ⟨m, hrun, rfl⟩ := hx
  have hl : s.nd.locked = false := by simpa using hl
  have hlt := (List.getElem?_eq_some_iff.1 ht).1
  let j : Job := ⟨.pack, r, prog, List.replicate r.len 0, v⟩
  -- the first three steps
  have e1 : s.step t = ⟨s.nd, s.vm, s.threads.set t ⟨.waiting j, j.start, .write i v :: rest, res⟩⟩ := by
    simp only [Sys.step, ht, begin, startWrite, hr, hprog, Sys.setThread, Thread.wait, j]
  have e2 : (s.step t).step t = ⟨{ s.nd with locked := true }, s.vm,
      s.threads.set t ⟨.acquired j, j.start, .write i v :: rest, res⟩⟩ := by
    rw [e1]
    have h1 : (s.threads.set t (⟨.waiting j, j.start, .write i v :: rest, res⟩ : Thread))[t]? = some _ :=
      List.getElem?_set_self hlt
    simp only [Sys.step, h1, hl, Bool.false_eq_true, if_false, Sys.goto]
    rw [modify_set _ _ _ _ h1]
    simp
  have e3 : ((s.step t).step t).step t = ⟨{ s.nd with locked := true }, ⟨.pack, true, VmState.init v, 0, t⟩,
      s.threads.set t ⟨.running j j.prog, j.start, .write i v :: rest, res⟩⟩ := by
    rw [e2]
    have h1 : (s.threads.set t (⟨.acquired j, j.start, .write i v :: rest, res⟩ : Thread))[t]? = some _ :=
      List.getElem?_set_self hlt
    simp only [Sys.step, h1, Sys.goto]
    rw [modify_set _ _ _ _ h1]
    simp [j]
  obtain ⟨n, vm', e4⟩ := runs_alone t j m _ j.prog (Nat.le_refl _) (((s.step t).step t).step t) j.start (.write i v :: rest) res
    (by rw [e3]; exact List.getElem?_set_self hlt) (by rw [e3]) (by rw [e3]) (by rw [e3]; exact hrun)
  rw [e3] at e4
  simp only [List.set_set] at e4
  -- the value is stored and the lock released
  refine ⟨n + 5, vm', j, rfl, ?_⟩
  have hsched : List.replicate (n + 5) t = [t, t, t] ++ List.replicate n t ++ [t, t] := by
    rw [show n + 5 = 3 + n + 2 by omega, ← List.replicate_append_replicate, ← List.replicate_append_replicate]
    rfl
  rw [hsched, exec_more, exec_more]
  have h3 : s.exec [t, t, t] = ((s.step t).step t).step t := rfl
  rw [h3, e3, e4]
  have h1 : (s.threads.set t (⟨.ran j, m.data, .write i v :: rest, res⟩ : Thread))[t]? = some _ := List.getElem?_set_self hlt
  show (Sys.step (Sys.step _ t) t) = _
  have e5 : Sys.step ⟨{ s.nd with locked := true }, vm', s.threads.set t ⟨.ran j, m.data, .write i v :: rest, res⟩⟩ t =
      ⟨{ s.nd with locked := true, outValues := s.nd.outValues.set r.id (.val v) }, vm',
        s.threads.set t ⟨.releasing j .null, m.data, .write i v :: rest, res⟩⟩ := by
    simp only [Sys.step, h1, Sys.settle, Sys.goto]
    show (⟨_, _, _⟩ : Sys) = _
    rw [modify_set _ _ _ _ h1]
    simp [j]
  rw [e5]
  have h2 : (s.threads.set t (⟨.releasing j .null, m.data, .write i v :: rest, res⟩ : Thread))[t]? = some _ :=
    List.getElem?_set_self hlt
  simp only [Sys.step, h2, Sys.release, Sys.goto]
  show (⟨_, _, _⟩ : Sys) = _
  rw [modify_set _ _ _ _ h2]
  simp [hl]

theorem write_same (f : FileData) (o : Nat) (a b : Bytes) (h : a.length = b.length) :
    ((f.write o a).1.write o b).1 = (f.write o b).1 := by
  by_cases hf : o + a.length ≤ f.data.length
  · have hl : (f.data.take o).length = o := by simp; omega
    rw [FileData.write_fits f o a hf, FileData.write_fits f o b (by omega), FileData.write_fits _ o b (by simp; omega)]
    simp only [FileData.mk.injEq]
    have h1 : (f.data.take o ++ a ++ f.data.drop (o + a.length)).take o = f.data.take o := by
      rw [List.append_assoc, List.take_append_of_le_length (by omega), List.take_of_length_le (by omega)]
    have h2 : (f.data.take o ++ a ++ f.data.drop (o + a.length)).drop (o + b.length) = f.data.drop (o + b.length) := by
      rw [List.drop_append, List.drop_of_length_le (by simp; omega), List.length_append, hl, h]
      simp
    rw [h1, h2]
  · rw [FileData.write_rejects f o a (by omega)]

/-- A write that returns, also when other values are stored. -/
theorem write_inv {nd nd' : NodeData} {i : Int} {v : PyVal} {off : Nat} {d : Bytes}
    (hw : nd.writeProvide i v = (nd', .ok (off, d))) :
    ∃ r f, NodeData.lookupRange nd.outRanges i = .ok r ∧ off = r.offset ∧ nd.outFile = some f ∧
      nd' = { nd with outValues := nd.outValues.set r.id (.val v), outFile := some (f.write off d).1 } ∧
      ∀ vs, ({ nd with outValues := vs } : NodeData).writeProvide i v =
        ({ nd with outValues := vs.set r.id (.val v), outFile := some (f.write off d).1 }, .ok (off, d)) := by
  unfold NodeData.writeProvide at hw
  split at hw
  · simp at hw
  rename_i r hr
  split at hw
  · simp at hw
  rename_i prog hprog
  split at hw
  · simp at hw
  rename_i hl
  split at hw
  · simp at hw
  rename_i dd hx
  simp only at hw
  split at hw
  · simp at hw
  rename_i f hf
  simp only [Prod.mk.injEq, Outcome.ok.injEq] at hw
  obtain ⟨rfl, rfl, rfl⟩ := hw
  refine ⟨r, f, hr, rfl, hf, rfl, ?_⟩
  intro vs
  simp only [NodeData.writeProvide, hr, hprog, hl, hx, hf, Bool.false_eq_true, if_false]

/-- C90 fails for every port of every node data object, in whatever state it is, and every two values that it accepts:
when two threads write one each, there is a schedule in which both calls return, the object says that the port has
the value of the second, and the file that is sent has the data of the first. -/
theorem C90_every_port_violated (types : List NamedType) (rq pv : List NPort) (text : Str) (nd nd1 nd2 : NodeData)
    (hr : nd.Reachable types rq pv text) (i : Int) (v w : PyVal) (a b : Nat × Bytes)
    (h1 : nd.writeProvide i v = (nd1, .ok a)) (h2 : nd.writeProvide i w = (nd2, .ok b)) :
    ∃ sch, let s := (Sys.start nd [[.write i v], [.write i w]]).exec sch
      s.Done ∧ s.threads.map Thread.results = [[(.write i v, .ok .null)], [(.write i w, .ok .null)]] ∧
      s.nd.readProvide i = .ok (.val w) ∧ s.nd.outFile = nd1.outFile ∧ nd1.readProvide i = .ok (.val v) := by
  obtain ⟨o1, d1⟩ := a
  obtain ⟨o2, d2⟩ := b
  obtain ⟨r, f, a1, rfl, a3, a4, -⟩ := write_inv h1
  obtain ⟨r', f', b1, rfl, b3, b4, b5⟩ := write_inv h2
  rw [a1] at b1
  rw [a3] at b3
  cases b1
  cases b3
  obtain ⟨k, p, q, data, de, rfl, -, q3, q4, -, q6, -, q8, -, -, -, q12, -⟩ := C32_write _ _ _ _ _ _ hr _ _ _ h1
  obtain ⟨k', p', q', data', de', hk', -, u3, u4, -, u6, -, u8, -, -, -, u12, -⟩ := C32_write _ _ _ _ _ _ hr _ _ _ h2
  have : k' = k := by omega
  subst this
  rw [q3] at u3
  cases u3
  simp only [Prod.mk.injEq] at q4 u4
  obtain ⟨-, rfl⟩ := q4
  obtain ⟨-, rfl⟩ := u4
  have hlen : d1.length = d2.length := by
    simp only [portBytes, q3, Option.map_some, Option.some.injEq, a4, b4, fileBytes] at q6 u6
    have g1 := congrArg List.length q6
    have g2 := congrArg List.length u6
    simp only [List.length_take, List.length_drop, FileData.write_length] at g1 g2
    omega
  let s0 := Sys.start nd [[.write k' v], [.write k' w]]
  obtain ⟨n, vm1, j, hj, e1⟩ := writes_alone (s := s0) (t := 0) (data := []) (rest := []) (res := []) rfl h1
  obtain ⟨n', vm2, j', hj', e2⟩ := writes_alone (s := s0.exec (List.replicate n 0)) (t := 1) (data := []) (rest := [])
    (res := []) (i := k') (v := w) (by rw [e1]; rfl) (by rw [e1]; exact b5 _)
  refine ⟨List.replicate n 0 ++ List.replicate n' 1 ++ [1, 0], ?_⟩
  have e3 : (Sys.start nd [[.write k' v], [.write k' w]]).exec (List.replicate n 0 ++ List.replicate n' 1 ++ [1, 0]) =
      ⟨{ nd2 with outValues := nd1.outValues.set r.id (.val w), outFile := nd1.outFile }, vm2,
        [⟨.idle, d1, [], [(.write k' v, .ok .null)]⟩, ⟨.idle, d2, [], [(.write k' w, .ok .null)]⟩]⟩ := by
    rw [exec_more, exec_more]
    show Sys.exec ((s0.exec (List.replicate n 0)).exec (List.replicate n' 1)) [1, 0] = _
    rw [e2, e1]
    simp only [Sys.exec, List.foldl_cons, List.foldl_nil, Sys.step, s0, Sys.start, List.map_cons, List.map_nil,
      List.set_cons_zero, List.set_cons_succ, List.getElem?_cons_succ, List.getElem?_cons_zero, Sys.store, Sys.setThread,
      Thread.finish, a3, hj, hj', a4, b4, write_same f r.offset d2 d1 hlen.symm, List.nil_append]
  rw [e3]
  refine ⟨?_, rfl, ?_, rfl, q8⟩
  · intro th hth
    simp only [List.mem_cons, List.not_mem_nil, or_false] at hth
    rcases hth with rfl | rfl <;> exact ⟨rfl, rfl⟩
  · rw [b4] at u8 ⊢
    rw [a4]
    simp only [NodeData.readProvide] at u8 ⊢
    simpa using u8

/-- Two threads write a port of the example node: both writes return when made alone. -/
example : (match ndNode with
    | .ok nd => match nd.writeProvide 0 (.int 1), nd.writeProvide 0 (.int 2) with
      | (_, .ok _), (_, .ok _) => true
      | _, _ => false
    | .error _ => false) = true := by decide +kernel

end Apx.Threads
