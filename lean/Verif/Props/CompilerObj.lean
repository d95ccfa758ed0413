import Verif.Spec.CompilerObj
import Verif.Proofs.NodeData
import Verif.Proofs.Again
import Verif.Props.Partition

/-! C100: compiling a port by itself. -/

namespace Apx

/-! ### The object computes the programs of `Verif.Model.Compiler` -/

theorem emitArray_eq (d : Dir) (header : Bool) (e : Elem) (prog : Bytes) :
    (emitArray d header e prog).2 = (compileArray d e).map (·.2) ∧
      ∀ c n, compileArray d e = .ok (c, n) → (emitArray d header e prog).1 = emitHeaderIf header d n prog ++ c := by
  have hno : ∀ (q : Bytes × Py Nat) (w : Py (Bytes × Nat)), q = (prog, .error .notImplemented) → w = .error .notImplemented →
      q.2 = w.map (·.2) ∧ ∀ c n, w = .ok (c, n) → q.1 = emitHeaderIf header d n prog ++ c := by
    rintro q w rfl rfl
    exact ⟨rfl, by intro c n h; simp at h⟩
  cases e with
  | prim tc mn mx a =>
    cases a with
    | none => exact hno _ _ rfl rfl
    | some k =>
      cases tc <;> first
        | exact hno _ _ rfl rfl
        | (refine ⟨rfl, ?_⟩
           intro c n h
           cases h
           rfl)
  | _ => exact hno _ _ rfl rfl

theorem emitScalar_eq (d : Dir) (header : Bool) (tc : TypeCode) (prog : Bytes) :
    (emitScalar d header tc prog).2 = (compileScalar d tc).map (·.2) ∧
      ∀ c n, compileScalar d tc = .ok (c, n) → (emitScalar d header tc prog).1 = emitHeaderIf header d n prog ++ c := by
  unfold emitScalar compileScalar
  cases tc.intT with
  | none => exact ⟨rfl, by intro c n h; simp at h⟩
  | some t =>
    refine ⟨rfl, ?_⟩
    intro c n h
    simp only [Except.ok.injEq, Prod.mk.injEq] at h
    obtain ⟨rfl, rfl⟩ := h
    rfl

theorem emitSelect_eq (name : Option Str) (prog : Bytes) :
    (∀ s, recordSelect name = .ok s → emitSelect name prog = (prog ++ s, .ok ())) ∧
      ∀ x, recordSelect name = .error x → (emitSelect name prog).2 = .error x := by
  unfold emitSelect recordSelect
  cases name with
  | none => exact ⟨by intro s h; simp at h, by intro x h; simpa using h⟩
  | some s =>
    cases hb : ordBytes s with
    | error y => exact ⟨by intro t h; simp [hb, error_bind] at h, by intro x h; simpa [hb, error_bind] using h⟩
    | ok b =>
      refine ⟨?_, by intro x h; simp [hb, ok_bind] at h⟩
      intro t h
      simp only [hb, ok_bind, Except.ok.injEq] at h
      subst h
      simp [hb]

theorem emitLeave_eq (d : Dir) (header : Bool) (prog : Bytes) (hp : header = true → prog = []) (r : Bytes × Py Nat)
    (q : Py (Bytes × Nat)) (h1 : r.2 = q.map (·.2)) (h2 : ∀ c n, q = .ok (c, n) → r.1 = prog ++ [opEnter] ++ c) :
    let w : Py (Bytes × Nat) := do
      let (code, n) ← q
      .ok (opEnter :: (code ++ [opLeave]), n)
    (emitLeave d header r).2 = w.map (·.2) ∧
      ∀ c n, w = .ok (c, n) → (emitLeave d header r).1 = emitHeaderIf header d n prog ++ c := by
  obtain ⟨b, o⟩ := r
  cases q with
  | error x =>
    simp only [Except.map] at h1
    subst h1
    exact ⟨rfl, by intro c n h; simp [error_bind] at h⟩
  | ok cn =>
    obtain ⟨c0, n0⟩ := cn
    simp only [Except.map] at h1
    subst h1
    have h3 := h2 c0 n0 rfl
    simp only at h3
    subst h3
    refine ⟨rfl, ?_⟩
    intro c n h
    simp only [ok_bind, Except.ok.injEq, Prod.mk.injEq] at h
    obtain ⟨rfl, rfl⟩ := h
    cases header with
    | false => simp [emitLeave, emitHeaderIf]
    | true =>
      rw [hp rfl]
      simp [emitLeave, emitHeaderIf, emitHeader]

mutual
theorem emitElem_eq (d : Dir) (header : Bool) (prog : Bytes) (hp : header = true → prog = []) : (e : Elem) →
    (emitElem d header e prog).2 = (compileElem d e).map (·.2) ∧
      ∀ c n, compileElem d e = .ok (c, n) → (emitElem d header e prog).1 = emitHeaderIf header d n prog ++ c
  | .prim tc mn mx a => by
    rw [emitElem, compileElem]
    generalize Elem.isArray _ = w
    rcases w with x | (_ | _)
    · exact ⟨rfl, by intro c n h; simp at h⟩
    · exact emitScalar_eq ..
    · exact emitArray_eq ..
  | .record fs a => by
    have ih := emitFields_eq d fs (prog ++ [opEnter]) 0
    rw [emitElem, compileElem]
    generalize Elem.isArray _ = w
    rcases w with x | (_ | _)
    · exact ⟨rfl, by intro c n h; simp at h⟩
    · refine emitLeave_eq d header prog hp _ (compileFields d fs) ?_ ih.2
      rw [ih.1]
      cases compileFields d fs <;> simp [Except.map]
    · exact emitArray_eq ..
  | .refType m (.prim tc _ _ _) => by
    rw [emitElem, compileElem]
    generalize Elem.isArray _ = w
    rcases w with x | (_ | _)
    · exact ⟨rfl, by intro c n h; simp at h⟩
    · exact emitScalar_eq ..
    · exact emitArray_eq ..
  | .refType m (.record fs _) => by
    have ih := emitFields_eq d fs (prog ++ [opEnter]) 0
    rw [emitElem, compileElem]
    generalize Elem.isArray _ = w
    rcases w with x | (_ | _)
    · exact ⟨rfl, by intro c n h; simp at h⟩
    · refine emitLeave_eq d header prog hp _ (compileFields d fs) ?_ ih.2
      rw [ih.1]
      cases compileFields d fs <;> simp [Except.map]
    · exact emitArray_eq ..
  | .refType m (.refType _ _) => by
    rw [emitElem, compileElem] <;> try (intros; contradiction)
    generalize Elem.isArray _ = w
    rcases w with x | (_ | _)
    · exact ⟨rfl, by intro c n h; simp at h⟩
    · exact ⟨rfl, by intro c n h; simp at h⟩
    · exact emitArray_eq ..
  | .refType m (.refId _) => by
    rw [emitElem, compileElem] <;> try (intros; contradiction)
    generalize Elem.isArray _ = w
    rcases w with x | (_ | _)
    · exact ⟨rfl, by intro c n h; simp at h⟩
    · exact ⟨rfl, by intro c n h; simp at h⟩
    · exact emitArray_eq ..
  | .refType m (.refName _) => by
    rw [emitElem, compileElem] <;> try (intros; contradiction)
    generalize Elem.isArray _ = w
    rcases w with x | (_ | _)
    · exact ⟨rfl, by intro c n h; simp at h⟩
    · exact ⟨rfl, by intro c n h; simp at h⟩
    · exact emitArray_eq ..
  | .refId _ => by
    rw [emitElem, compileElem]
    generalize Elem.isArray _ = w
    rcases w with x | (_ | _)
    · exact ⟨rfl, by intro c n h; simp at h⟩
    · exact ⟨rfl, by intro c n h; simp at h⟩
    · exact emitArray_eq ..
  | .refName _ => by
    rw [emitElem, compileElem]
    generalize Elem.isArray _ = w
    rcases w with x | (_ | _)
    · exact ⟨rfl, by intro c n h; simp at h⟩
    · exact ⟨rfl, by intro c n h; simp at h⟩
    · exact emitArray_eq ..

theorem emitFields_eq (d : Dir) : (fs : Fields) → (prog : Bytes) → (k : Nat) →
    (emitFields d fs prog k).2 = (compileFields d fs).map (k + ·.2) ∧
      ∀ c n, compileFields d fs = .ok (c, n) → (emitFields d fs prog k).1 = prog ++ c
  | .nil, prog, k => by
    rw [emitFields, compileFields]
    refine ⟨rfl, ?_⟩
    intro c n h
    simp only [Except.ok.injEq, Prod.mk.injEq] at h
    obtain ⟨rfl, rfl⟩ := h
    simp
  | .cons name e r, prog, k => by
    rw [emitFields, compileFields]
    cases hs : recordSelect name with
    | error x =>
      have h1 := (emitSelect_eq name prog).2 x hs
      generalize emitSelect name prog = w at h1
      obtain ⟨p, o⟩ := w
      simp only at h1
      subst h1
      exact ⟨rfl, by intro c n h; simp [error_bind] at h⟩
    | ok s =>
      rw [(emitSelect_eq name prog).1 s hs]
      simp only [ok_bind]
      have ih := emitElem_eq d false (prog ++ s) (by simp) e
      generalize emitElem d false e (prog ++ s) = w at ih
      obtain ⟨p, o⟩ := w
      cases he : compileElem d e with
      | error x =>
        rw [he] at ih
        have h1 := ih.1
        simp only [Except.map] at h1
        subst h1
        exact ⟨rfl, by intro c n h; simp [error_bind] at h⟩
      | ok cn =>
        obtain ⟨c0, n0⟩ := cn
        rw [he] at ih
        have h1 := ih.1
        simp only [Except.map] at h1
        subst h1
        have h2 := ih.2 c0 n0 rfl
        simp only [emitHeaderIf, Bool.false_eq_true, if_false] at h2
        subst h2
        simp only [ok_bind]
        have ih2 := emitFields_eq d r (prog ++ s ++ c0) (k + n0)
        cases hr : compileFields d r with
        | error x =>
          rw [hr] at ih2
          exact ⟨ih2.1, by intro c n h; simp [error_bind] at h⟩
        | ok cn =>
          obtain ⟨c1, n1⟩ := cn
          rw [hr] at ih2
          refine ⟨by rw [ih2.1]; simp [Except.map, ok_bind]; omega, ?_⟩
          intro c n h
          simp only [ok_bind, Except.ok.injEq, Prod.mk.injEq] at h
          obtain ⟨rfl, rfl⟩ := h
          rw [ih2.2 c1 n1 rfl]
          simp
end

theorem compile_eq (o : CompilerObj) (d : Dir) (e : Elem) : (o.compile d e).2 = compileProg d e := by
  have h := emitElem_eq d true [] (fun _ => rfl) e
  unfold CompilerObj.compile compileProg
  generalize emitElem d true e [] = w at h
  obtain ⟨p, r⟩ := w
  cases he : compileElem d e with
  | error x =>
    rw [he] at h
    have h1 := h.1
    simp only [Except.map] at h1
    subst h1
    rfl
  | ok cn =>
    obtain ⟨c, n⟩ := cn
    rw [he] at h
    have h1 := h.1
    simp only [Except.map] at h1
    subst h1
    have h2 := h.2 c n rfl
    simp only at h2
    subst h2
    simp [ok_bind, emitHeaderIf, emitHeader, progHeader]

theorem exec_eq (o : CompilerObj) (s : Side) (p : Port) :
    (o.exec (.port s p)).2 = (do let e ← p.dataElement; compileProg s.dir e) := by
  simp only [CompilerObj.exec]
  cases p.dataElement with
  | error x => rfl
  | ok e => exact compile_eq ..

/-! ### Ports and the programs of their node -/

mutual
/-- What compiles has no open references left. -/
theorem compiled_resolved (d : Dir) (types : List NamedType) : (e : Elem) → (r : Bytes × Nat) → compileElem d e = .ok r →
    e.resolveType types = .ok e
  | .prim .., _, _ => rfl
  | .refType .., _, _ => rfl
  | .refId _, r, h => by
    rw [compileElem] at h
    simp [Elem.isArray, Elem.resolveDataElement, maxRecurseDepth, Elem.resolveLoop, error_bind] at h
  | .refName _, r, h => by
    rw [compileElem] at h
    simp [Elem.isArray, Elem.resolveDataElement, maxRecurseDepth, Elem.resolveLoop, error_bind] at h
  | .record fs a, r, h => by
    rw [compileElem] at h
    generalize Elem.isArray _ = w at h
    rcases w with x | (_ | _)
    · simp at h
    · simp only [bind_ok_iff] at h
      obtain ⟨q, h1, _⟩ := h
      rw [Elem.resolveType, compiledF_resolved d types fs q h1]
      rfl
    · simp [compileArray] at h
/-- See `compiled_resolved`. -/
theorem compiledF_resolved (d : Dir) (types : List NamedType) : (fs : Fields) → (r : Bytes × Nat) →
    compileFields d fs = .ok r → fs.resolveType types = .ok fs
  | .nil, _, _ => rfl
  | .cons n e r, q, h => by
    rw [compileFields] at h
    simp only [bind_ok_iff] at h
    obtain ⟨_, _, q1, h1, q2, h2, _⟩ := h
    rw [Fields.resolveType, compiled_resolved d types e q1 h1, compiledF_resolved d types r q2 h2]
    rfl
end

theorem resolveLoop_data (n : Nat) (e de : Elem) (h : e.resolveLoop n = .ok de) : de = e.data := by
  induction n generalizing e with
  | zero => cases e <;> simp_all [Elem.resolveLoop, Elem.data]
  | succ n ih =>
    cases e with
    | refType m t => exact ih t h
    | _ => simp_all [Elem.resolveLoop, Elem.data]

theorem resolveLoop_more (n : Nat) (e de : Elem) (h : e.resolveLoop n = .ok de) : e.resolveLoop (n + 1) = .ok de := by
  induction n generalizing e with
  | zero => cases e <;> simp_all [Elem.resolveLoop]
  | succ n ih =>
    cases e with
    | refType m t => exact ih t h
    | _ => simp_all [Elem.resolveLoop]

theorem isArray_ref2 {m2 : Str} {u de : Elem} (h : u.resolveLoop 8 = .ok de) :
    (Elem.refType m2 u).isArray = .ok de.arrayLen.isSome := by
  unfold Elem.isArray Elem.resolveDataElement maxRecurseDepth
  rw [Elem.resolveLoop, resolveLoop_more 8 u de h]
  rfl

/-- The program of a resolved element, compiled by way of `data_element`. -/
theorem exec_resolved (d : Dir) (p : Port) (de : Elem) (c : Bytes) (h1 : p.elem.resolveDataElement = .ok de)
    (h2 : compileProg d de = .ok c) :
    (do let e ← p.dataElement; compileProg d e) = if p.elem.FewNames then .ok c else .error .notImplemented := by
  have hd := resolveLoop_data _ _ _ h1
  unfold Port.dataElement
  generalize p.elem = e at h1 hd
  cases e with
  | prim tc mn mx a =>
    simp only [Elem.data] at hd
    subst hd
    rw [if_pos (by exact Or.inl (by simp [Elem.names]))]
    simp [ok_bind, h2]
  | record fs a =>
    simp only [Elem.data] at hd
    subst hd
    rw [if_pos (by exact Or.inl (by simp [Elem.names]))]
    simp [ok_bind, h2]
  | refId i => simp [Elem.resolveDataElement, maxRecurseDepth, Elem.resolveLoop] at h1
  | refName n => simp [Elem.resolveDataElement, maxRecurseDepth, Elem.resolveLoop] at h1
  | refType m t =>
    simp only [ok_bind, Elem.data] at hd ⊢
    have h3 : t.resolveLoop 9 = .ok de := h1
    cases t with
    | prim tc mn mx a =>
      simp only [Elem.data] at hd
      subst hd
      rw [if_pos (by exact Or.inl (by simp [Elem.names])), h2]
    | record fs a =>
      simp only [Elem.data] at hd
      subst hd
      rw [if_pos (by exact Or.inl (by simp [Elem.names])), h2]
    | refId i => simp [Elem.resolveLoop] at h3
    | refName n => simp [Elem.resolveLoop] at h3
    | refType m2 u =>
      have h4 : u.resolveLoop 8 = .ok de := h3
      have ha := isArray_ref2 (m2 := m2) h4
      simp only [Elem.data] at hd
      cases hl : de.arrayLen with
      | some k =>
        rw [hl] at ha
        rw [if_neg (by
          rintro (h | ⟨_, h⟩)
          · simp only [Elem.names] at h; omega
          · simp only [Elem.data, ← hd, hl] at h; cases h)]
        unfold compileProg
        rw [compileElem.eq_def, ha]
        rfl
      | none =>
        rw [hl] at ha
        have hf : ∀ x : Elem, x.arrayLen = none → x.isReference = false → x.isArray = .ok false := by
          intro x hx hr
          cases x <;> simp_all [Elem.isArray, Elem.resolveDataElement, maxRecurseDepth, Elem.resolveLoop, ok_bind,
            Elem.isReference]
        cases u with
        | prim tc mn mx a =>
          simp only [Elem.data] at hd
          subst hd
          rw [if_pos (by exact Or.inr ⟨rfl, hl⟩), ← h2]
          unfold compileProg
          rw [compileElem.eq_def, ha, compileElem.eq_def, hf _ hl rfl]
          rfl
        | record fs a =>
          simp only [Elem.data] at hd
          subst hd
          rw [if_pos (by exact Or.inr ⟨rfl, hl⟩), ← h2]
          unfold compileProg
          rw [compileElem.eq_def, ha, compileElem.eq_def, hf _ hl rfl]
          rfl
        | refId i => simp [Elem.resolveLoop] at h4
        | refName n => simp [Elem.resolveLoop] at h4
        | refType m3 v =>
          rw [if_neg (by simp only [Elem.FewNames, Elem.names]; omega)]
          unfold compileProg
          rw [compileElem.eq_def, ha]
          rfl

/-- The program of a port in the node data. -/
theorem nodeData_program {n : Node} {nd : NodeData} (h : n.nodeData = .ok nd) (s : Side) {i : Nat} {p : Port}
    (hp : (n.ports s)[i]? = some p) :
    ∃ e de c, p.elem.resolveType n.named = .ok e ∧ e.resolveDataElement = .ok de ∧ compileProg s.dir de = .ok c ∧
      (nd.programs s)[i]? = some c := by
  unfold Node.nodeData at h
  simp only [bind_ok_iff] at h
  obtain ⟨text, _, hb⟩ := h
  have hr : nd.Reachable n.named (n.requires.map Port.toNPort) (n.provides.map Port.toNPort) text := ⟨nd, [], hb, rfl⟩
  have hw := hr.wf
  cases s with
  | require =>
    obtain ⟨bs, hP⟩ := hw.inP
    obtain ⟨r, c, b, _, h2, _, h4⟩ := hP.get (i := i) (p := p.toNPort) (by rw [List.getElem?_map]; exact congrArg _ hp)
    obtain ⟨e, de, e1, e2, _, e4, _⟩ := h4.ex
    exact ⟨e, de, c, e1, e2, e4, h2⟩
  | provide =>
    obtain ⟨bs, hP⟩ := hw.outP
    obtain ⟨r, c, b, _, h2, _, h4⟩ := hP.get (i := i) (p := p.toNPort) (by rw [List.getElem?_map]; exact congrArg _ hp)
    obtain ⟨e, de, e1, e2, _, e4, _⟩ := h4.ex
    exact ⟨e, de, c, e1, e2, e4, h2⟩

theorem resolveInPlace_elem {types : List NamedType} {p p' : Port} (h : resolveInPlace types p = .ok p') :
    p.elem.resolveType types = .ok p'.elem := by
  unfold resolveInPlace at h
  simp only [bind_ok_iff, Except.ok.injEq] at h
  obtain ⟨e, h1, rfl⟩ := h
  exact h1

theorem afterNodeData_port {n n' : Node} (h : n.afterNodeData = .ok n') (s : Side) {i : Nat} {p' : Port}
    (hp : (n'.ports s)[i]? = some p') :
    ∃ p, (n.ports s)[i]? = some p ∧ p.elem.resolveType n.named = .ok p'.elem := by
  unfold Node.afterNodeData at h
  simp only [bind_ok_iff, Except.ok.injEq] at h
  obtain ⟨_, _, r, hr, q, hq, rfl⟩ := h
  have key : ∀ (l r : List Port), mapPy (resolveInPlace n.named) l = .ok r → r[i]? = some p' →
      ∃ p, l[i]? = some p ∧ p.elem.resolveType n.named = .ok p'.elem := by
    intro l r hm hi
    obtain ⟨h1, h2⟩ := mapPy_get _ _ _ hm
    have hlt : i < l.length := by
      rw [← h1]
      exact (List.getElem?_eq_some_iff.mp hi).1
    exact ⟨l[i], List.getElem?_eq_getElem hlt, resolveInPlace_elem (h2 i _ _ (List.getElem?_eq_getElem hlt) hi)⟩
  cases s with
  | require => exact key _ _ hr hp
  | provide => exact key _ _ hq hp

/-! ### C100 -/

/-- C100: whatever a compiler object has been used for before, also without success: if it compiles a
port of a node by itself, the program is the one the node data of the node runs for that port. -/
theorem C100_agrees (n : Node) (nd : NodeData) (h : n.nodeData = .ok nd) (s : Side) (i : Nat) (p : Port)
    (hp : (n.ports s)[i]? = some p) (before : List CompilerUse) (c : Bytes)
    (hc : ((before.foldl CompilerObj.use CompilerObj.new).exec (.port s p)).2 = .ok c) :
    (nd.programs s)[i]? = some c := by
  rw [exec_eq] at hc
  simp only [bind_ok_iff] at hc
  obtain ⟨x, hx, hc⟩ := hc
  obtain ⟨e, de, c', h1, h2, h3, h4⟩ := nodeData_program h s hp
  rw [h4]
  have he : e = p.elem := by
    have hr : p.elem.resolveType n.named = .ok p.elem := by
      unfold compileProg at hc
      simp only [bind_ok_iff] at hc
      obtain ⟨q, hq, _⟩ := hc
      unfold Port.dataElement at hx
      split at hx
      · rename_i heq; rw [heq]; rfl
      · cases hx
      · cases hx
      · have := Except.ok.inj hx
        rw [this]
        exact compiled_resolved s.dir n.named x q hq
    rw [hr] at h1
    exact (Except.ok.inj h1).symm
  subst he
  have hx2 := exec_resolved s.dir p de c' h2 h3
  rw [hx, ok_bind, hc] at hx2
  split at hx2
  · rw [Except.ok.inj hx2]
  · cases hx2

/-- C100: after the node data has been made, a port of the node can be compiled by itself, to the same
program, if at most one type name leads to its data, or two to data that is no array.
Missing: the other ports, below. -/
theorem C100_few_names_partial (n n' : Node) (nd : NodeData) (h : n.nodeData = .ok nd) (h' : n.afterNodeData = .ok n')
    (s : Side) (i : Nat) (p : Port) (hp : (n'.ports s)[i]? = some p) (hf : p.elem.FewNames) (before : List CompilerUse) :
    ∃ c, (nd.programs s)[i]? = some c ∧
      ((before.foldl CompilerObj.use CompilerObj.new).exec (.port s p)).2 = .ok c := by
  obtain ⟨p0, hp0, hr⟩ := afterNodeData_port h' s hp
  obtain ⟨e, de, c, h1, h2, h3, h4⟩ := nodeData_program h s hp0
  rw [hr] at h1
  have he := Except.ok.inj h1
  subst he
  exact ⟨c, h4, by rw [exec_eq, exec_resolved s.dir p de c h2 h3, if_pos hf]⟩

/-- C100 fails for all other ports: the node has a program for the port, but compiling the port by
itself raises `NotImplementedError`. -/
theorem C100_many_names_violated (n n' : Node) (nd : NodeData) (h : n.nodeData = .ok nd) (h' : n.afterNodeData = .ok n')
    (s : Side) (i : Nat) (p : Port) (hp : (n'.ports s)[i]? = some p) (hf : ¬ p.elem.FewNames) (before : List CompilerUse) :
    (∃ c, (nd.programs s)[i]? = some c) ∧
      ((before.foldl CompilerObj.use CompilerObj.new).exec (.port s p)).2 = .error .notImplemented := by
  obtain ⟨p0, hp0, hr⟩ := afterNodeData_port h' s hp
  obtain ⟨e, de, c, h1, h2, h3, h4⟩ := nodeData_program h s hp0
  rw [hr] at h1
  have he := Except.ok.inj h1
  subst he
  exact ⟨⟨c, h4⟩, by rw [exec_eq, exec_resolved s.dir p de c h2 h3, if_neg hf]⟩

/-- C100: what is not a port, and a port whose type has not been looked up yet, is refused. -/
theorem C100_refused (o : CompilerObj) (s : Side) (p : Port) :
    (o.exec .other).2 = .error .valueError ∧
      ((∃ i, p.elem = .refId i) ∨ (∃ m, p.elem = .refName m) → (o.exec (.port s p)).2 = .error .apxTypeError) := by
  refine ⟨rfl, ?_⟩
  intro h
  rw [exec_eq]
  unfold Port.dataElement
  rcases h with ⟨i, h⟩ | ⟨m, h⟩ <;> rw [h] <;> rfl

/-! ### The theorems apply -/

/-- A node with types `A` = `C[4]`, `B` = `T["A"]` and `D` = `S`, `E` = `T["D"]`, `F` = `T["E"]`, and ports of
some of them. -/
def ceNode : Node :=
  (Node.new ['N']).run [.addType ['A'] "C[4]".toList none, .addType ['B'] "T[\"A\"]".toList none,
    .addType ['D'] "S".toList none, .addType ['E'] "T[\"D\"]".toList none, .addType ['F'] "T[\"E\"]".toList none,
    .addPort .provide ['p'] "T[\"A\"]".toList none, .addPort .provide ['q'] "T[\"B\"]".toList none,
    .addPort .require ['r'] "T[\"E\"]".toList none, .addPort .require ['s'] "T[\"F\"]".toList none,
    .addPort .require ['t'] "{\"x\"T[\"D\"]}".toList none,
    .finalize false false]

/-- What is seen of a port. -/
structure CeSeen where
  program : Option Bytes
  names : Option Nat
  few : Option Bool
  compiled : Option Bytes
  deriving DecidableEq

/-- The program of a port of a node whose node data has been made, and what a compiler used for the text of
port `q` first gives for it. -/
def ceSee (s : Side) (i : Nat) : Option CeSeen :=
  match ceNode.nodeData, ceNode.afterNodeData with
  | .ok nd, .ok n' =>
    let used : CompilerObj := match n'.provides[1]? with
      | some q => (CompilerObj.new.exec (.port .provide q)).1
      | none => CompilerObj.new
    some ⟨(nd.programs s)[i]?, (n'.ports s)[i]?.map (·.elem.names), (n'.ports s)[i]?.map (decide ·.elem.FewNames),
      (n'.ports s)[i]?.bind fun p => (used.exec (.port s p)).2.toOption⟩
  | _, _ => none

/-- One name, two names for a number, no name. -/
example : ceSee .provide 0 = some ⟨some [1, 4, 0, 0, 0, 10, 4, 0], some 1, some true, some [1, 4, 0, 0, 0, 10, 4, 0]⟩ ∧
    ceSee .require 0 = some ⟨some [2, 2, 0, 0, 0, 17], some 2, some true, some [2, 2, 0, 0, 0, 17]⟩ ∧
    ceSee .require 2 = some ⟨some [2, 2, 0, 0, 0, 29, 30, 120, 0, 17, 31], some 0, some true,
      some [2, 2, 0, 0, 0, 29, 30, 120, 0, 17, 31]⟩ := by decide +kernel

/-- Two names for an array, three names: the node has a program, the compiler gives none. -/
example : ceSee .provide 1 = some ⟨some [1, 4, 0, 0, 0, 10, 4, 0], some 2, some false, none⟩ ∧
    ceSee .require 1 = some ⟨some [2, 2, 0, 0, 0, 17], some 3, some false, none⟩ := by decide +kernel

end Apx
