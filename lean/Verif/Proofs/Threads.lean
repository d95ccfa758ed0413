import Verif.Spec.Threads
import Verif.Proofs.NodeData

/-! Invariants of threads using one node data object. -/

namespace Apx.Threads

/-- The thread holds the lock. -/
def Crit : Phase → Prop
  | .acquired _ => True
  | .running _ _ => True
  | .ran _ => True
  | .releasing _ _ => True
  | _ => False

/-- The local variables of a call in progress. -/
def Phase.job? : Phase → Option Job
  | .idle => none
  | .waiting j => some j
  | .acquired j => some j
  | .running j _ => some j
  | .ran j => some j
  | .releasing j _ => some j
  | .writing j => some j

/-- The execution of the whole program of a job. -/
def whole (j : Job) : Py Vm := runVm j.dir true j.prog ⟨VmState.init j.value, j.start, 0⟩

/-- What is known about the virtual machine and the local data. -/
def PhaseOk (vm : SharedVm) (t : Nat) (th : Thread) : Prop :=
  match th.phase with
  | .idle => True
  | .waiting j => th.data = j.start
  | .acquired j => th.data = j.start
  | .running j code => vm.owner = t ∧ vm.dir = j.dir ∧
      runVm j.dir vm.first code ⟨vm.st, th.data, vm.off⟩ = whole j
  | .ran j => whole j = .ok ⟨vm.st, th.data, vm.off⟩
  | .releasing j v => ∃ m, whole j = .ok m ∧ m.data = th.data ∧ (j.dir = .unpack → m.st.value = v)
  | .writing j => j.dir = .pack ∧ ∃ m, whole j = .ok m ∧ m.data = th.data

/-- The parts that never change. -/
structure Shape (a b : NodeData) : Prop where
  inRanges : b.inRanges = a.inRanges
  inProgs : b.inProgs = a.inProgs
  outRanges : b.outRanges = a.outRanges
  outProgs : b.outProgs = a.outProgs
  outFile : b.outFile.isSome = a.outFile.isSome

theorem Shape.refl (a : NodeData) : Shape a a := ⟨rfl, rfl, rfl, rfl, rfl⟩

theorem Shape.symm {a b : NodeData} (h : Shape a b) : Shape b a :=
  ⟨h.1.symm, h.2.symm, h.3.symm, h.4.symm, h.5.symm⟩

theorem Shape.trans {a b c : NodeData} (h : Shape a b) (g : Shape b c) : Shape a c :=
  ⟨g.1.trans h.1, g.2.trans h.2, g.3.trans h.3, g.4.trans h.4, g.5.trans h.5⟩

/-- A read of a port started with these local variables. -/
def StartsRead (nd : NodeData) (j : Job) : Prop :=
  j.dir = .unpack ∧ nd.inProgs[j.r.id]? = some j.prog ∧ j.value = .null ∧
    ∃ f, nd.inFile = some f ∧ f.read j.r.offset j.r.len = some j.start

/-- The call started with these local variables. -/
def Starts (nd : NodeData) (c : Call) (j : Job) : Prop :=
  match c with
  | .write i v => j.dir = .pack ∧ NodeData.lookupRange nd.outRanges i = .ok j.r ∧
      nd.outProgs[j.r.id]? = some j.prog ∧ j.start = List.replicate j.r.len 0 ∧ j.value = v
  | .read i => NodeData.lookupRange nd.inRanges i = .ok j.r ∧ StartsRead nd j
  | .notify r => j.r = r ∧ StartsRead nd j
  | .arrive _ _ => False

/-- The outcome without the data written. -/
def asUnit : Outcome (Nat × Bytes) → Outcome PyVal
  | .ok _ => .ok .null
  | .raised x => .raised x
  | .blocked => .blocked

/-- The outcome is that of the call made when nothing else is going on. -/
def Alone (nd : NodeData) (c : Call) (o : Outcome PyVal) : Prop :=
  match c with
  | .write i v => o = asUnit ((unlocked nd).writeProvide i v).2
  | .read i => o = ((unlocked nd).readRequire i).2
  | .notify r => o = ((unlocked nd).unpackRequire r).2
  | .arrive _ _ => True

/-- The invariant. -/
structure Good (s : Sys) (sch : List Nat) : Prop where
  shape : Shape s.nd (s.exec sch).nd
  excl : ∀ (t t' : Nat) (th th' : Thread), (s.exec sch).threads[t]? = some th → (s.exec sch).threads[t']? = some th' →
    Crit th.phase → Crit th'.phase → t = t'
  free : (s.exec sch).nd.locked = false → ∀ (t : Nat) (th : Thread), (s.exec sch).threads[t]? = some th → ¬ Crit th.phase
  phase : ∀ (t : Nat) (th : Thread), (s.exec sch).threads[t]? = some th → PhaseOk (s.exec sch).vm t th
  job : ∀ (t : Nat) (th : Thread) (j : Job), (s.exec sch).threads[t]? = some th → th.phase.job? = some j →
    ∃ c rest, th.todo = c :: rest ∧ AtCall s sch t th.results.length c (fun p => Starts p.nd c j)
  result : ∀ (t : Nat) (th : Thread) (k : Nat) (c : Call) (o : Outcome PyVal), (s.exec sch).threads[t]? = some th → th.results[k]? = some (c, o) →
    AtCall s sch t k c (fun p => Alone p.nd c o)

theorem exec_snoc (s : Sys) (sch : List Nat) (t : Nat) : s.exec (sch ++ [t]) = (s.exec sch).step t := by
  simp [Sys.exec, List.foldl_append]

theorem step_shape (s : Sys) (t : Nat) : Shape s.nd (s.step t).nd := by
  unfold Sys.step
  split
  · exact Shape.refl _
  · rename_i th ht
    split
    · split
      · exact Shape.refl _
      · rename_i c rest hc
        cases c with
        | write i v => exact Shape.refl _
        | read i =>
          simp only [begin, Sys.setThread]
          split <;> exact Shape.refl _
        | notify r => exact Shape.refl _
        | arrive off data =>
          simp only [begin, Sys.setThread]
          split <;> exact ⟨rfl, rfl, rfl, rfl, rfl⟩
    · split
      · exact Shape.refl _
      · exact ⟨rfl, rfl, rfl, rfl, rfl⟩
    · exact ⟨rfl, rfl, rfl, rfl, rfl⟩
    · unfold Sys.instruct
      split
      · exact Shape.refl _
      · exact Shape.refl _
      · split
        · exact Shape.refl _
        · split <;> exact ⟨rfl, rfl, rfl, rfl, rfl⟩
    · unfold Sys.settle
      split <;> exact ⟨rfl, rfl, rfl, rfl, rfl⟩
    · unfold Sys.release
      split <;> exact ⟨rfl, rfl, rfl, rfl, rfl⟩
    · unfold Sys.store
      split
      · exact Shape.refl _
      · rename_i f hf
        exact ⟨rfl, rfl, rfl, rfl, by simp [Sys.setThread, hf]⟩

theorem exec_shape (s : Sys) (sch : List Nat) : Shape s.nd (s.exec sch).nd := by
  induction sch generalizing s with
  | nil => exact Shape.refl _
  | cons t sch ih => exact (step_shape s t).trans (ih (s.step t))

theorem AtCall.snoc {s : Sys} {sch : List Nat} {t k : Nat} {c : Call} {P : Sys → Prop} (h : AtCall s sch t k c P)
    (u : Nat) : AtCall s (sch ++ [u]) t k c P := by
  obtain ⟨pre, post, th, h1, h2⟩ := h
  exact ⟨pre, post ++ [u], th, by rw [h1]; simp, h2⟩

theorem AtCall.now {s : Sys} {sch : List Nat} {t : Nat} {th : Thread} {c : Call} {P : Sys → Prop}
    (ht : (s.exec sch).threads[t]? = some th) (hi : th.phase = .idle) (hc : th.todo.head? = some c)
    (hp : P (s.exec sch)) : AtCall s (sch ++ [t]) t th.results.length c P :=
  ⟨sch, [], th, rfl, ht, hi, rfl, hc, hp⟩

theorem AtCall.mono {s : Sys} {sch : List Nat} {t k : Nat} {c : Call} {P Q : Sys → Prop} (h : AtCall s sch t k c P)
    (hpq : ∀ pre post, sch = pre ++ t :: post → P (s.exec pre) → Q (s.exec pre)) : AtCall s sch t k c Q := by
  obtain ⟨pre, post, th, h1, h2, h3, h4, h5, h6⟩ := h
  exact ⟨pre, post, th, h1, h2, h3, h4, h5, hpq _ _ h1 h6⟩

theorem modify_set {α : Type} (l : List α) (t : Nat) (f : α → α) (a : α) (h : l[t]? = some a) :
    l.modify t f = l.set t (f a) := by
  apply List.ext_getElem?
  intro i
  rw [List.getElem?_modify, List.getElem?_set]
  by_cases hi : t = i
  · subst hi
    obtain ⟨h1, h2⟩ := List.getElem?_eq_some_iff.1 h
    simp [h1, h2]
  · simp [hi]

/-- One thread changes; the others are not affected. -/
theorem Good.update {s : Sys} {sch : List Nat} (h : Good s sch) {t : Nat} {th th' : Thread} {s' : Sys}
    (hs : (s.exec sch).step t = s') (ht : (s.exec sch).threads[t]? = some th)
    (hth : s'.threads = (s.exec sch).threads.set t th') (hsh : Shape (s.exec sch).nd s'.nd)
    (hvm : s'.vm = (s.exec sch).vm ∨ Crit th.phase)
    (hcr : Crit th'.phase → Crit th.phase ∨ (s.exec sch).nd.locked = false)
    (hlk : s'.nd.locked = false → ¬ Crit th'.phase ∧ ((s.exec sch).nd.locked = false ∨ Crit th.phase))
    (hok : PhaseOk s'.vm t th')
    (hjob : ∀ j, th'.phase.job? = some j →
      ∃ c rest, th'.todo = c :: rest ∧ AtCall s (sch ++ [t]) t th'.results.length c (fun p => Starts p.nd c j))
    (hres : ∀ k c o, th'.results[k]? = some (c, o) → AtCall s (sch ++ [t]) t k c (fun p => Alone p.nd c o)) :
    Good s (sch ++ [t]) := by
  have hlt := (List.getElem?_eq_some_iff.1 ht).1
  have he : s.exec (sch ++ [t]) = s' := by rw [exec_snoc, hs]
  have get : ∀ (u : Nat) (x : Thread), s'.threads[u]? = some x →
      (u = t ∧ x = th') ∨ (u ≠ t ∧ (s.exec sch).threads[u]? = some x) := by
    intro u x hx
    rw [hth, List.getElem?_set] at hx
    by_cases hu : t = u
    · subst hu
      rw [if_pos rfl, if_pos hlt] at hx
      left; exact ⟨rfl, (Option.some.inj hx).symm⟩
    · rw [if_neg hu] at hx
      right; exact ⟨fun e => hu e.symm, hx⟩
  -- no other thread is critical when this one is or becomes critical
  have other : ∀ (u : Nat) (x : Thread), u ≠ t → (s.exec sch).threads[u]? = some x →
      (Crit th.phase ∨ (s.exec sch).nd.locked = false) → ¬ Crit x.phase := by
    rintro u x hu hx (hc | hl) hcx
    · exact hu (h.excl u t x th hx ht hcx hc)
    · exact h.free hl u x hx hcx
  refine ⟨?_, ?_, ?_, ?_, ?_, ?_⟩
  · rw [he]; exact h.shape.trans hsh
  · rw [he]
    intro a b x y ha hb hx hy
    rcases get a x ha with ⟨rfl, rfl⟩ | ⟨ha1, ha2⟩ <;> rcases get b y hb with ⟨rfl, rfl⟩ | ⟨hb1, hb2⟩
    · rfl
    · exact absurd hy (other b y hb1 hb2 (hcr hx))
    · exact absurd hx (other a x ha1 ha2 (hcr hy))
    · exact h.excl a b x y ha2 hb2 hx hy
  · rw [he]
    intro hl u x hu
    obtain ⟨g1, g2⟩ := hlk hl
    rcases get u x hu with ⟨rfl, rfl⟩ | ⟨hu1, hu2⟩
    · exact g1
    · exact other u x hu1 hu2 g2.symm
  · rw [he]
    intro u x hu
    rcases get u x hu with ⟨rfl, rfl⟩ | ⟨hu1, hu2⟩
    · exact hok
    · have h0 := h.phase u x hu2
      rcases hvm with hvm | hc
      · rw [hvm]; exact h0
      · have hn := other u x hu1 hu2 (.inl hc)
        unfold PhaseOk at h0 ⊢
        unfold Crit at hn
        cases hp : x.phase <;> rw [hp] at h0 hn <;> simp_all
  · rw [he]
    intro u x j hu hj
    rcases get u x hu with ⟨rfl, rfl⟩ | ⟨hu1, hu2⟩
    · exact hjob j hj
    · obtain ⟨c, rest, h1, h2⟩ := h.job u x j hu2 hj
      exact ⟨c, rest, h1, h2.snoc t⟩
  · rw [he]
    intro u x k c o hu hr
    rcases get u x hu with ⟨rfl, rfl⟩ | ⟨hu1, hu2⟩
    · exact hres k c o hr
    · exact (h.result u x k c o hu2 hr).snoc t

theorem Good.stay {s : Sys} {sch : List Nat} (h : Good s sch) {t : Nat} (hs : (s.exec sch).step t = s.exec sch) :
    Good s (sch ++ [t]) := by
  have he : s.exec (sch ++ [t]) = s.exec sch := by rw [exec_snoc, hs]
  refine ⟨by rw [he]; exact h.shape, by rw [he]; exact h.excl, by rw [he]; exact h.free, by rw [he]; exact h.phase, ?_, ?_⟩
  · rw [he]
    intro u x j hu hj
    obtain ⟨c, rest, h1, h2⟩ := h.job u x j hu hj
    exact ⟨c, rest, h1, h2.snoc t⟩
  · rw [he]
    intro u x k c o hu hr
    exact (h.result u x k c o hu hr).snoc t

theorem runVm_unfold (d : Dir) (first : Bool) (code : Bytes) (m : Vm) :
    runVm d first code m =
      match parseInstr code with
      | .error x => .error x
      | .ok none => .ok m
      | .ok (some (i, rest)) =>
        if first && !isProgHeader d i then .error .runtimeError
        else match execInstr d i m with
          | .error x => .error x
          | .ok m => runVm d false rest m := by
  rw [runVm]
  split
  · rename_i h; simp only [h]
  · rename_i h; simp only [h]
  · rename_i i rest h
    simp only [h]
    split
    · rfl
    · cases execInstr d i m <;> rfl

/-- The outcome of a call, from its local variables. -/
def jobOutcome (hasFile : Bool) (j : Job) : Outcome PyVal :=
  match whole j with
  | .error x => .raised x
  | .ok m =>
    match j.dir with
    | .unpack => .ok m.st.value
    | .pack => if hasFile then .ok .null else .raised .attributeError

theorem alone_unpack {nd : NodeData} {j : Job} (b : Bool) (h : StartsRead nd j) :
    ((unlocked nd).unpackRequire j.r).2 = jobOutcome b j := by
  obtain ⟨h1, h2, h3, f, h4, h5⟩ := h
  unfold NodeData.unpackRequire unlocked jobOutcome whole
  simp only [h2, h4, h5, h1, h3, Bool.false_eq_true, if_false, execUnpackProg]
  cases runVm .unpack true j.prog ⟨VmState.init .null, j.start, 0⟩ <;> rfl

theorem alone_pack {nd : NodeData} {j : Job} {i : Int} {v : PyVal} (h : Starts nd (.write i v) j) :
    asUnit ((unlocked nd).writeProvide i v).2 = jobOutcome nd.outFile.isSome j := by
  obtain ⟨h1, h2, h3, h4, h5⟩ := h
  unfold NodeData.writeProvide unlocked jobOutcome whole
  simp only [h2, h3, h1, h4, h5, Bool.false_eq_true, if_false, execPackProg]
  cases runVm .pack true j.prog ⟨VmState.init v, List.replicate j.r.len 0, 0⟩ with
  | error x => rfl
  | ok m =>
    simp only [ok_bind]
    cases nd.outFile <;> rfl

theorem starts_alone {nd : NodeData} {c : Call} {j : Job} (h : Starts nd c j) : Alone nd c (jobOutcome nd.outFile.isSome j) := by
  cases c with
  | write i v => exact (alone_pack h).symm
  | read i =>
    obtain ⟨h1, h2⟩ := h
    show _ = _
    unfold NodeData.readRequire
    have : NodeData.lookupRange (unlocked nd).inRanges i = .ok j.r := h1
    rw [this]
    exact (alone_unpack _ h2).symm
  | notify r =>
    obtain ⟨h1, h2⟩ := h
    subst h1
    exact (alone_unpack _ h2).symm
  | arrive off data => exact h.elim

theorem results_snoc {X : Nat → Call → Outcome PyVal → Prop} {l : List (Call × Outcome PyVal)} {c : Call} {o : Outcome PyVal}
    (h : ∀ k c o, l[k]? = some (c, o) → X k c o) (hx : X l.length c o) :
    ∀ k c' o', (l ++ [(c, o)])[k]? = some (c', o') → X k c' o' := by
  intro k c' o' hk
  rw [List.getElem?_append] at hk
  split at hk
  · exact h k c' o' hk
  · rename_i hl
    have hz : k - l.length = 0 := by
      rcases Nat.eq_zero_or_pos (k - l.length) with h0 | h0
      · exact h0
      · rw [List.getElem?_eq_none (by simp; omega)] at hk; cases hk
    rw [hz] at hk
    simp only [List.getElem?_cons_zero, Option.some.injEq, Prod.mk.injEq] at hk
    obtain ⟨rfl, rfl⟩ := hk
    have : k = l.length := by omega
    rw [this]; exact hx

/-- A call in progress ends. -/
theorem Good.ends {s : Sys} {sch : List Nat} (h : Good s sch) {t : Nat} {th th' : Thread} {j : Job} {c : Call}
    {rest rest' : List Call} {s' : Sys} {d : Bytes}
    (hs : (s.exec sch).step t = s') (ht : (s.exec sch).threads[t]? = some th)
    (hj : th.phase.job? = some j) (htodo : th.todo = c :: rest)
    (hth : s'.threads = (s.exec sch).threads.set t th')
    (hth' : th' = ⟨.idle, d, rest', th.results ++ [(c, jobOutcome (s.exec sch).nd.outFile.isSome j)]⟩)
    (hsh : Shape (s.exec sch).nd s'.nd) (hvm : s'.vm = (s.exec sch).vm)
    (hlk : s'.nd.locked = false → (s.exec sch).nd.locked = false ∨ Crit th.phase) :
    Good s (sch ++ [t]) := by
  obtain ⟨c', r', e1, e2⟩ := h.job t th j ht hj
  rw [htodo] at e1
  simp only [List.cons.injEq] at e1
  obtain ⟨rfl, -⟩ := e1
  refine h.update hs ht hth hsh (.inl hvm) ?_ ?_ ?_ ?_ ?_
  · rw [hth']; exact fun h => h.elim
  · rw [hth']; exact fun hl => ⟨fun h => h, hlk hl⟩
  · rw [hth']; trivial
  · rw [hth']; intro j hj; cases hj
  · rw [hth']
    apply results_snoc
    · intro k c o hk
      exact (h.result t th k c o ht hk).snoc t
    · apply (e2.snoc t).mono
      intro pre post hsch hst
      have hp := starts_alone hst
      have : (s.exec pre).nd.outFile.isSome = (s.exec sch).nd.outFile.isSome := by
        rw [(exec_shape s pre).outFile, (exec_shape s sch).outFile]
      rw [← this]; exact hp

theorem set_same {α : Type} (l : List α) (t : Nat) (a : α) (h : l[t]? = some a) : l.set t a = l := by
  apply List.ext_getElem?
  intro i
  rw [List.getElem?_set]
  split
  · rename_i hi
    subst hi
    rw [if_pos (List.getElem?_eq_some_iff.1 h).1, h]
  · rfl

/-- A call that ends in its first step. -/
theorem Good.endsAtOnce {s : Sys} {sch : List Nat} (h : Good s sch) {t : Nat} {th th' : Thread} {c : Call}
    {s' : Sys} {o : Outcome PyVal} (hs : (s.exec sch).step t = s') (ht : (s.exec sch).threads[t]? = some th)
    (hi : th.phase = .idle) (hc : th.todo.head? = some c) (hth : s'.threads = (s.exec sch).threads.set t th')
    (hp : th'.phase = .idle) (hr : th'.results = th.results ++ [(c, o)])
    (hal : Alone (s.exec sch).nd c o) (hvm : s'.vm = (s.exec sch).vm)
    (hlk : s'.nd.locked = (s.exec sch).nd.locked) : Good s (sch ++ [t]) := by
  have hsh : Shape (s.exec sch).nd s'.nd := hs ▸ step_shape _ t
  refine h.update hs ht hth hsh (.inl hvm) ?_ ?_ ?_ ?_ ?_
  · rw [hp]; exact fun h => h.elim
  · rw [hp, hlk]; exact fun hl => ⟨fun h => h, .inl hl⟩
  · unfold PhaseOk; rw [hp]; trivial
  · rw [hp]; intro j hj; cases hj
  · rw [hr]
    apply results_snoc
    · intro k c o hk
      exact (h.result t th k c o ht hk).snoc t
    · exact AtCall.now ht hi hc hal

/-- A call that goes on to the lock. -/
theorem Good.waits {s : Sys} {sch : List Nat} (h : Good s sch) {t : Nat} {th : Thread} {c : Call} {j : Job}
    {s' : Sys} (hs : (s.exec sch).step t = s') (ht : (s.exec sch).threads[t]? = some th)
    (hi : th.phase = .idle) (hc : th.todo.head? = some c) (hth : s'.threads = (s.exec sch).threads.set t (th.wait j))
    (hst : Starts (s.exec sch).nd c j) (hvm : s'.vm = (s.exec sch).vm)
    (hlk : s'.nd.locked = (s.exec sch).nd.locked) : Good s (sch ++ [t]) := by
  have hsh : Shape (s.exec sch).nd s'.nd := hs ▸ step_shape _ t
  refine h.update hs ht hth hsh (.inl hvm) ?_ ?_ ?_ ?_ ?_
  · exact fun h => h.elim
  · rw [hlk]; exact fun hl => ⟨fun h => h, .inl hl⟩
  · exact rfl
  · intro j' hj
    simp only [Thread.wait, Phase.job?, Option.some.injEq] at hj
    subst hj
    cases hq : th.todo with
    | nil => rw [hq] at hc; simp at hc
    | cons c' rest =>
      rw [hq] at hc
      simp only [List.head?_cons, Option.some.injEq] at hc
      subst hc
      refine ⟨c', rest, by simp [Thread.wait, hq], ?_⟩
      exact AtCall.now (th := th) ht hi (by rw [hq]; rfl) hst
  · intro k c o hk
    exact (h.result t th k c o ht hk).snoc t

theorem fail_phase {th : Thread} {c : Call} {rest : List Call} (h : th.todo = c :: rest) (x : PyErr) :
    th.fail x = ⟨.idle, th.data, rest.dropWhile Call.isNotify, th.results ++ [(c, .raised x)]⟩ := by
  unfold Thread.fail; rw [h]

theorem finish_phase {th : Thread} {c : Call} {rest : List Call} (h : th.todo = c :: rest) (o : Outcome PyVal) :
    th.finish o = ⟨.idle, th.data, rest, th.results ++ [(c, o)]⟩ := by
  unfold Thread.finish; rw [h]

theorem goto_set (s : Sys) (t : Nat) (p : Phase) (th : Thread) (h : s.threads[t]? = some th) :
    (s.goto t p).threads = s.threads.set t { th with phase := p } := modify_set _ _ _ _ h

theorem Good.idleStep {s : Sys} {sch : List Nat} (h : Good s sch) {t : Nat} {th : Thread} {c : Call} {rest : List Call}
    (ht : (s.exec sch).threads[t]? = some th) (hi : th.phase = .idle) (hc : th.todo = c :: rest) :
    Good s (sch ++ [t]) := by
  have hc' : th.todo.head? = some c := by rw [hc]; rfl
  have hst : (s.exec sch).step t =
      ({ s.exec sch with nd := (begin (s.exec sch).nd th c).1 } : Sys).setThread t (begin (s.exec sch).nd th c).2 := by
    unfold Sys.step
    simp only [ht, hi, hc]
  generalize hnd : (s.exec sch).nd = nd at hst
  have hread : ∀ (r : PortRange), (c = .notify r ∨ ∃ i, c = .read i ∧ NodeData.lookupRange nd.inRanges i = .ok r) →
      begin nd th c = (nd, startRead nd th r) → Good s (sch ++ [t]) := by
    intro r hcr hb
    rw [hb] at hst
    have hal : ∀ (o : Outcome PyVal), o = ((unlocked nd).unpackRequire r).2 → Alone nd c o := by
      rintro o ho
      rcases hcr with rfl | ⟨i, rfl, hi'⟩
      · exact ho
      · show o = _
        unfold NodeData.readRequire
        have : NodeData.lookupRange (unlocked nd).inRanges i = .ok r := hi'
        rw [this]; exact ho
    have hraise : ∀ (x : PyErr), startRead nd th r = th.fail x → ((unlocked nd).unpackRequire r).2 = .raised x →
        Good s (sch ++ [t]) := by
      intro x h1 h2
      rw [h1] at hst
      refine h.endsAtOnce (o := .raised x) hst ht hi hc' rfl ?_ ?_ (hnd ▸ hal _ h2.symm) rfl (by simp [Sys.setThread, hnd])
      · rw [fail_phase hc]
      · rw [fail_phase hc]
    unfold NodeData.unpackRequire at hraise
    simp only [unlocked, startRead] at hraise hst
    cases hp : nd.inProgs[r.id]? with
    | none => exact hraise .indexError (by simp [hp]) (by simp [hp])
    | some prog =>
      cases hf : nd.inFile with
      | none => exact hraise .attributeError (by simp [hp, hf]) (by simp [hp, hf])
      | some f =>
        cases hd : f.read r.offset r.len with
        | none => exact hraise .runtimeError (by simp [hp, hf, hd]) (by simp [hp, hf, hd])
        | some data =>
          simp only [hp, hf, hd] at hst
          have hsr : StartsRead nd ⟨.unpack, r, prog, data, .null⟩ := ⟨rfl, hp, rfl, f, hf, hd⟩
          refine h.waits hst ht hi hc' rfl ?_ rfl (by simp [Sys.setThread, hnd])
          rw [hnd]
          rcases hcr with rfl | ⟨i, rfl, hi'⟩
          · exact ⟨rfl, hsr⟩
          · exact ⟨hi', hsr⟩
  cases c with
  | notify r => exact hread r (.inl rfl) rfl
  | read i =>
    cases hl : NodeData.lookupRange nd.inRanges i with
    | ok r => exact hread r (.inr ⟨i, rfl, hl⟩) (by simp only [begin, hl])
    | error x =>
      simp only [begin, hl] at hst
      refine h.endsAtOnce (o := .raised x) hst ht hi hc' rfl ?_ ?_ ?_ rfl (by simp [Sys.setThread, hnd])
      · rw [fail_phase hc]
      · rw [fail_phase hc]
      · show _ = _
        rw [hnd]
        unfold NodeData.readRequire
        have : NodeData.lookupRange (unlocked nd).inRanges i = .error x := hl
        rw [this]
  | write i v =>
    simp only [begin, startWrite] at hst
    cases hl : NodeData.lookupRange nd.outRanges i with
    | error x =>
      simp only [hl] at hst
      refine h.endsAtOnce (o := .raised x) hst ht hi hc' rfl ?_ ?_ ?_ rfl (by simp [Sys.setThread, hnd])
      · rw [fail_phase hc]
      · rw [fail_phase hc]
      · show _ = _
        rw [hnd]
        unfold NodeData.writeProvide
        have : NodeData.lookupRange (unlocked nd).outRanges i = .error x := hl
        rw [this]; rfl
    | ok r =>
      cases hp : nd.outProgs[r.id]? with
      | none =>
        simp only [hl, hp] at hst
        refine h.endsAtOnce (o := .raised .indexError) hst ht hi hc' rfl ?_ ?_ ?_ rfl (by simp [Sys.setThread, hnd])
        · rw [fail_phase hc]
        · rw [fail_phase hc]
        · show _ = _
          rw [hnd]
          unfold NodeData.writeProvide
          have e1 : NodeData.lookupRange (unlocked nd).outRanges i = .ok r := hl
          have e2 : (unlocked nd).outProgs[r.id]? = none := hp
          simp only [e1, e2]; rfl
      | some prog =>
        simp only [hl, hp] at hst
        refine h.waits hst ht hi hc' rfl ?_ rfl (by simp [Sys.setThread, hnd])
        rw [hnd]
        exact ⟨rfl, hl, hp, rfl, rfl⟩
  | arrive off data =>
    simp only [begin] at hst
    cases hf : nd.inFile with
    | none =>
      simp only [hf] at hst
      refine h.endsAtOnce (o := .raised .attributeError) hst ht hi hc' rfl ?_ ?_ trivial rfl (by simp [Sys.setThread, hnd])
      · rw [fail_phase hc]
      · rw [fail_phase hc]
    | some f =>
      simp only [hf, startNotify] at hst
      generalize hw : f.inputWrite off data false true = w at hst
      obtain ⟨f', n, note⟩ := w
      cases note with
      | none =>
        refine h.endsAtOnce (o := .ok (.int n)) hst ht hi hc' rfl ?_ ?_ trivial rfl (by simp [Sys.setThread, hnd])
        · simp only [finish_phase hc]
        · simp only [finish_phase hc]
      | some nt =>
        cases hb : nd.byteToPort off data.length with
        | error x =>
          simp only [hb] at hst
          refine h.endsAtOnce (o := .raised x) hst ht hi hc' rfl ?_ ?_ trivial rfl (by simp [Sys.setThread, hnd])
          · rw [fail_phase hc]
          · rw [fail_phase hc]
        | ok rs =>
          simp only [hb] at hst
          refine h.endsAtOnce (o := .ok (.int n)) hst ht hi hc' rfl ?_ ?_ trivial rfl (by simp [Sys.setThread, hnd])
          · simp only [finish_phase hc]
          · simp only [finish_phase hc]

theorem Good.step {s : Sys} {sch : List Nat} (h : Good s sch) (t : Nat) : Good s (sch ++ [t]) := by
  cases ht : (s.exec sch).threads[t]? with
  | none => exact h.stay (by unfold Sys.step; rw [ht])
  | some th =>
    have hok := h.phase t th ht
    cases hp : th.phase with
    | idle =>
      cases hq : th.todo with
      | nil => exact h.stay (by unfold Sys.step; simp only [ht, hp, hq])
      | cons c rest => exact h.idleStep ht hp hq
    | waiting j =>
      by_cases hl : (s.exec sch).nd.locked = true
      · exact h.stay (by unfold Sys.step; simp only [ht, hp, hl, if_true])
      · have hst : (s.exec sch).step t =
            ({ s.exec sch with nd := { (s.exec sch).nd with locked := true } } : Sys).goto t (.acquired j) := by
          unfold Sys.step; simp only [ht, hp, if_neg hl]
        refine h.update hst ht (goto_set _ _ _ _ ht) (hst ▸ step_shape _ t) (.inl rfl) ?_ ?_ ?_ ?_ ?_
        · intro _; right; simpa using hl
        · intro hx; cases hx
        · unfold PhaseOk at hok; rw [hp] at hok; exact hok
        · intro j' hj
          simp only [Phase.job?, Option.some.injEq] at hj
          subst hj
          obtain ⟨c, rest, h1, h2⟩ := h.job t th j ht (by rw [hp]; rfl)
          exact ⟨c, rest, h1, h2.snoc t⟩
        · intro k c o hk
          exact (h.result t th k c o ht hk).snoc t
    | acquired j =>
      have hst : (s.exec sch).step t =
          ({ s.exec sch with vm := ⟨j.dir, true, VmState.init j.value, 0, t⟩ } : Sys).goto t (.running j j.prog) := by
        unfold Sys.step; simp only [ht, hp]
      have hcr : Crit th.phase := by rw [hp]; trivial
      refine h.update hst ht (goto_set _ _ _ _ ht) (hst ▸ step_shape _ t) (.inr hcr) (fun _ => .inl hcr) ?_ ?_ ?_ ?_
      · intro hx
        exact absurd hcr (h.free hx t th ht)
      · unfold PhaseOk at hok
        rw [hp] at hok
        refine ⟨rfl, rfl, ?_⟩
        simp only [Sys.goto, whole]
        rw [hok]
      · intro j' hj
        simp only [Phase.job?, Option.some.injEq] at hj
        subst hj
        obtain ⟨c, rest, h1, h2⟩ := h.job t th j ht (by rw [hp]; rfl)
        exact ⟨c, rest, h1, h2.snoc t⟩
      · intro k c o hk
        exact (h.result t th k c o ht hk).snoc t
    | running j code =>
      have hcr : Crit th.phase := by rw [hp]; trivial
      have hjq : th.phase.job? = some j := by rw [hp]; rfl
      obtain ⟨c, rest, hc, hat⟩ := h.job t th j ht hjq
      unfold PhaseOk at hok
      rw [hp] at hok
      obtain ⟨ho, hd, hrun⟩ := hok
      have hst : (s.exec sch).step t = (s.exec sch).instruct t th j code := by
        unfold Sys.step; simp only [ht, hp]
      have hbuf : (s.exec sch).buffer = th.data := by
        unfold Sys.buffer; rw [ho, ht]; rfl
      rw [runVm_unfold] at hrun
      have hfail : ∀ (x : PyErr), (s.exec sch).instruct t th j code = (s.exec sch).setThread t (th.fail x) →
          whole j = .error x → Good s (sch ++ [t]) := by
        intro x h1 h2
        refine h.ends (d := th.data) (rest' := rest.dropWhile Call.isNotify) (hst.trans h1) ht hjq hc rfl ?_
          (Shape.refl _) rfl (fun _ => .inr hcr)
        rw [fail_phase hc]
        simp only [jobOutcome, h2]
      unfold Sys.instruct at hst hfail
      cases hpi : parseInstr code with
      | error x =>
        simp only [hpi] at hfail hrun
        exact hfail x rfl hrun.symm
      | ok oi =>
        cases oi with
        | none =>
          simp only [hpi] at hrun hst
          refine h.update hst ht (goto_set _ _ _ _ ht) (Shape.refl _) (.inl rfl) (fun _ => .inl hcr) ?_ ?_ ?_ ?_
          · intro hx; exact absurd hcr (h.free hx t th ht)
          · exact hrun.symm
          · intro j' hj
            simp only [Phase.job?, Option.some.injEq] at hj
            subst hj
            exact ⟨c, rest, hc, hat.snoc t⟩
          · intro k c o hk
            exact (h.result t th k c o ht hk).snoc t
        | some ir =>
          obtain ⟨i, code'⟩ := ir
          simp only [hpi] at hfail hrun hst
          by_cases hf : ((s.exec sch).vm.first && !isProgHeader j.dir i) = true
          · rw [if_pos hf] at hrun
            simp only [if_pos hf] at hfail
            exact hfail .runtimeError rfl hrun.symm
          · rw [if_neg hf] at hrun hst
            simp only [if_neg hf] at hfail
            rw [hd, hbuf] at hst hfail
            cases hx : execInstr j.dir i ⟨(s.exec sch).vm.st, th.data, (s.exec sch).vm.off⟩ with
            | error x =>
              simp only [hx] at hfail hrun
              exact hfail x rfl hrun.symm
            | ok m =>
              simp only [hx] at hst hrun
              refine h.update (th' := ⟨.running j code', m.data, th.todo, th.results⟩) hst ht ?_ (hst ▸ step_shape _ t)
                (.inr hcr) (fun _ => .inl hcr) ?_ ?_ ?_ ?_
              · simp only [Sys.setBuffer, Sys.goto, ho]
                rw [modify_set _ _ _ _ ht]
                have hlt := (List.getElem?_eq_some_iff.1 ht).1
                rw [modify_set _ _ _ { th with data := m.data } (by rw [List.getElem?_set_self hlt])]
                simp
              · intro hx
                exact absurd hcr (h.free hx t th ht)
              · exact ⟨ho, hd, hrun⟩
              · intro j' hj
                simp only [Phase.job?, Option.some.injEq] at hj
                subst hj
                exact ⟨c, rest, hc, hat.snoc t⟩
              · intro k c o hk
                exact (h.result t th k c o ht hk).snoc t
    | ran j =>
      have hcr : Crit th.phase := by rw [hp]; trivial
      have hjq : th.phase.job? = some j := by rw [hp]; rfl
      obtain ⟨c, rest, hc, hat⟩ := h.job t th j ht hjq
      unfold PhaseOk at hok
      rw [hp] at hok
      have hst : (s.exec sch).step t = (s.exec sch).settle t j := by
        unfold Sys.step; simp only [ht, hp]
      have hgo : ∀ (s' : Sys) (v : PyVal), (s.exec sch).step t = s' →
          s'.threads = (s.exec sch).threads.set t { th with phase := .releasing j v } →
          s'.vm = (s.exec sch).vm → s'.nd.locked = (s.exec sch).nd.locked →
          (j.dir = .unpack → (s.exec sch).vm.st.value = v) → Good s (sch ++ [t]) := by
        intro s' v h1 h2 h3 h4 h5
        refine h.update h1 ht h2 (h1 ▸ step_shape _ t) (.inl h3) (fun _ => .inl hcr) ?_ ?_ ?_ ?_
        · intro hx
          rw [h4] at hx
          exact absurd hcr (h.free hx t th ht)
        · exact ⟨_, hok, rfl, h5⟩
        · intro j' hj
          simp only [Phase.job?, Option.some.injEq] at hj
          subst hj
          exact ⟨c, rest, hc, hat.snoc t⟩
        · intro k c o hk
          exact (h.result t th k c o ht hk).snoc t
      unfold Sys.settle at hst
      cases hd : j.dir with
      | pack =>
        simp only [hd] at hst
        exact hgo _ _ hst (goto_set _ _ _ _ ht) rfl rfl (fun h => by rw [hd] at h; cases h)
      | unpack =>
        simp only [hd] at hst
        exact hgo _ _ hst (goto_set _ _ _ _ ht) rfl rfl (fun _ => rfl)
    | releasing j v =>
      have hcr : Crit th.phase := by rw [hp]; trivial
      have hjq : th.phase.job? = some j := by rw [hp]; rfl
      obtain ⟨c, rest, hc, hat⟩ := h.job t th j ht hjq
      unfold PhaseOk at hok
      rw [hp] at hok
      obtain ⟨m, hm1, hm2, hm3⟩ := hok
      have hst : (s.exec sch).step t = (s.exec sch).release t th j v := by
        unfold Sys.step; simp only [ht, hp]
      unfold Sys.release at hst
      cases hd : j.dir with
      | pack =>
        simp only [hd] at hst
        refine h.update hst ht (goto_set _ _ _ _ ht) (hst ▸ step_shape _ t) (.inl rfl) (fun _ => .inl hcr) ?_ ?_ ?_ ?_
        · exact fun _ => ⟨fun h => h, .inr hcr⟩
        · exact ⟨hd, m, hm1, hm2⟩
        · intro j' hj
          simp only [Phase.job?, Option.some.injEq] at hj
          subst hj
          exact ⟨c, rest, hc, hat.snoc t⟩
        · intro k c o hk
          exact (h.result t th k c o ht hk).snoc t
      | unpack =>
        simp only [hd] at hst
        refine h.ends (d := th.data) (rest' := rest) hst ht hjq hc rfl ?_ (hst ▸ step_shape _ t) rfl (fun _ => .inr hcr)
        rw [finish_phase hc]
        simp only [jobOutcome, hm1, hd, hm3 hd]
    | writing j =>
      have hjq : th.phase.job? = some j := by rw [hp]; rfl
      obtain ⟨c, rest, hc, hat⟩ := h.job t th j ht hjq
      unfold PhaseOk at hok
      rw [hp] at hok
      obtain ⟨hd, m, hm1, hm2⟩ := hok
      have hst : (s.exec sch).step t = (s.exec sch).store t th j := by
        unfold Sys.step; simp only [ht, hp]
      unfold Sys.store at hst
      cases hf : (s.exec sch).nd.outFile with
      | none =>
        simp only [hf] at hst
        refine h.ends (d := th.data) (rest' := rest.dropWhile Call.isNotify) hst ht hjq hc rfl ?_ (Shape.refl _) rfl
          (fun hl => .inl hl)
        rw [fail_phase hc]
        simp only [jobOutcome, hm1, hd, hf]
        rfl
      | some f =>
        simp only [hf] at hst
        refine h.ends (d := th.data) (rest' := rest) hst ht hjq hc rfl ?_ (hst ▸ step_shape _ t) rfl
          (fun hl => .inl hl)
        rw [finish_phase hc]
        simp only [jobOutcome, hm1, hd, hf]
        rfl

theorem Good.start {nd : NodeData} {calls : List (List Call)} : Good (Sys.start nd calls) [] := by
  have hth : ∀ (t : Nat) (th : Thread), (Sys.start nd calls).threads[t]? = some th → th.phase = .idle ∧ th.results = [] := by
    intro t th h
    simp only [Sys.start, List.getElem?_map, Option.map_eq_some_iff] at h
    obtain ⟨l, _, rfl⟩ := h
    exact ⟨rfl, rfl⟩
  refine ⟨Shape.refl _, ?_, ?_, ?_, ?_, ?_⟩
  · intro t t' th th' h1 _ hc _
    rw [(hth t th h1).1] at hc; exact hc.elim
  · intro _ t th h1 hc
    rw [(hth t th h1).1] at hc; exact hc
  · intro t th h1
    unfold PhaseOk
    rw [(hth t th h1).1]; trivial
  · intro t th j h1 hj
    rw [(hth t th h1).1] at hj; cases hj
  · intro t th k c o h1 hk
    rw [(hth t th h1).2] at hk; simp at hk

theorem good_exec (nd : NodeData) (calls : List (List Call)) (sch : List Nat) : Good (Sys.start nd calls) sch := by
  suffices h : ∀ (a b : List Nat), Good (Sys.start nd calls) a → Good (Sys.start nd calls) (a ++ b) by
    exact h [] sch Good.start
  intro a b
  induction b generalizing a with
  | nil => intro h; simpa using h
  | cons t b ih =>
    intro h
    have := ih (a ++ [t]) (h.step t)
    simpa using this

end Apx.Threads
