import Verif.Model.Generator
import Verif.Props.NodeData
import Verif.Props.Node

/-! C53: the generator's data layout. -/

namespace Apx

theorem ctypename_resolved {e : Elem} {t : Str} (h : e.ctypename = .ok t) (types : List NamedType) :
    e.resolveType types = .ok e := by
  cases e with
  | prim tc mn mx a => rfl
  | refType n t => rfl
  | _ => simp [Elem.ctypename] at h

theorem resolveLoop_init (n : Nat) (e de : Elem) (h : e.resolveLoop n = .ok de) (v : InitVal) :
    e.initInner v = de.initInner v := by
  induction n generalizing e with
  | zero =>
    cases e <;> simp [Elem.resolveLoop] at h <;> subst h <;> rfl
  | succ n ih =>
    cases e with
    | refType nm t =>
      simp only [Elem.resolveLoop] at h
      simp only [Elem.initInner]
      exact ih t h
    | refId i => simp [Elem.resolveLoop] at h
    | refName s => simp [Elem.resolveLoop] at h
    | prim _ _ _ _ => simp [Elem.resolveLoop] at h; subst h; rfl
    | record _ _ => simp [Elem.resolveLoop] at h; subst h; rfl

/-- When the initial data can be made at all, it does not depend on following the reference first. -/
theorem createInitData_inner {e : Elem} {v : InitVal} {b : Bytes} (h : e.createInitData v = .ok b) :
    e.initInner v = .ok b := by
  unfold Elem.createInitData at h
  split at h
  · rename_i fs a l
    split at h
    · simp at h
    · rename_i hl
      simp only [Elem.initInner]
      rw [if_neg hl]
      exact h
  · exact h

/-- Signals and ranges of one port agree. -/
theorem genSignal_agrees {side : Side} {types : List NamedType} {offset : Nat} {p : Port} {s : Signal}
    (h : genSignal side types offset p = .ok s) {d : Dir} {r : PortRange} {prog b : Bytes}
    (hp : PortOk d types p.toNPort r prog b) :
    s.name = p.name ∧ s.offset = offset ∧ s.packLen = r.len ∧ s.initData = b ∧ b.length = r.len := by
  unfold genSignal at h
  simp only [bind_ok_iff] at h
  obtain ⟨_, _, _, h2, n, h3, e, h4, h5⟩ := h
  obtain ⟨e', de, g1, g2, g3, g4, g5⟩ := hp.ex
  have hres := ctypename_resolved h2 types
  unfold resolveDsg at h4
  rw [hres] at h4
  simp only [ok_bind, bind_ok_iff, Except.ok.injEq] at h4
  obtain ⟨de', h6, rfl⟩ := h4
  have he' : e' = p.elem := by
    have : p.toNPort.elem = p.elem := rfl
    rw [this, hres] at g1
    exact (Except.ok.inj g1).symm
  subst he'
  rw [h3] at g3
  have hn : n = r.len := Except.ok.inj g3
  rw [h6] at g2
  have hde : de' = de := Except.ok.inj g2
  subst hde
  unfold mkSignal at h5
  rw [bind_ok_iff] at h5
  obtain ⟨b', h7, h8⟩ := h5
  have hb : b' = b := by
    cases hi : p.toNPort.init with
    | none =>
      rw [hi] at h7 g5
      simp only [signalInit, portInit, Except.ok.injEq] at h7 g5
      rw [← h7, ← g5, hn]
    | some v =>
      rw [hi] at h7 g5
      simp only [signalInit, portInit] at h7 g5
      have a1 := createInitData_inner h7
      have a2 := createInitData_inner g5
      have h6' : p.elem.resolveLoop maxRecurseDepth = .ok de' := h6
      rw [resolveLoop_init _ _ _ h6', a2] at a1
      exact (Except.ok.inj a1).symm
  split at h8
  · rename_i hl
    cases h8
    exact ⟨rfl, rfl, hn, hb, by rw [← hb, ← hn]; exact hl⟩
  · simp at h8

/-- Signals and ranges of a list of ports agree. -/
theorem genSignals_agree {side : Side} {types : List NamedType} {d : Dir} (ports : List Port) :
    ∀ (offset k : Nat) (ss : List Signal) (rs : List PortRange) (cs bs : List Bytes) (stop : Nat),
      genSignals side types offset ports = .ok ss → PortsOk d types (ports.map Port.toNPort) rs cs bs →
      Consecutive offset k rs stop →
      ss.map Signal.name = ports.map Port.name ∧
      ss.map (fun s => (s.offset, s.packLen)) = rs.map (fun r => (r.offset, r.len)) ∧
      ss.map Signal.initData = bs ∧ (∀ s ∈ ss, s.initData.length = s.packLen) ∧ offset + totalLen ss = stop := by
  induction ports with
  | nil =>
    intro offset k ss rs cs bs stop h1 h2 h3
    simp only [genSignals, Except.ok.injEq] at h1
    subst h1
    cases rs <;> cases cs <;> cases bs <;> simp [PortsOk] at h2
    exact ⟨rfl, rfl, rfl, by simp, by simpa [totalLen, Consecutive] using h3⟩
  | cons p ports ih =>
    intro offset k ss rs cs bs stop h1 h2 h3
    simp only [genSignals, bind_ok_iff, Except.ok.injEq] at h1
    obtain ⟨s, g1, ss', g2, rfl⟩ := h1
    cases rs with
    | nil => simp [PortsOk] at h2
    | cons r rs =>
      cases cs with
      | nil => simp [PortsOk] at h2
      | cons c cs =>
        cases bs with
        | nil => simp [PortsOk] at h2
        | cons b bs =>
          obtain ⟨h4, h5⟩ := h2
          obtain ⟨h6, h7, h8⟩ := h3
          obtain ⟨a1, a2, a3, a4, a5⟩ := genSignal_agrees g1 h4
          rw [a3] at g2
          obtain ⟨b1, b2, b3, b4, b5⟩ := ih _ _ _ _ _ _ _ g2 h5 h8
          refine ⟨by simp [a1, b1], by simp [a2, a3, b2, h6], by simp [a4, b3], ?_, ?_⟩
          · intro s' hs'
            rcases List.mem_cons.mp hs' with rfl | hs'
            · rw [a4, a3, a5]
            · exact b4 s' hs'
          · simp only [totalLen, List.map_cons, List.foldr_cons] at b5 ⊢
            rw [a3]; omega

theorem signalNamed_nodup (ss : List Signal) (hnd : (ss.map Signal.name).Nodup) :
    ∀ s ∈ ss, signalNamed ss s.name = some s := by
  intro s hs
  unfold signalNamed
  cases hf : ss.reverse.find? fun t => decide (t.name = s.name) with
  | none =>
    rw [List.find?_eq_none] at hf
    exact absurd (by simp) (hf s (List.mem_reverse.mpr hs))
  | some t =>
    have h1 : t.name = s.name := by simpa using List.find?_some hf
    have h2 : t ∈ ss := List.mem_reverse.mp (List.mem_of_find?_eq_some hf)
    obtain ⟨i, hi, rfl⟩ := List.getElem_of_mem h2
    obtain ⟨j, hj, rfl⟩ := List.getElem_of_mem hs
    have hij : i = j := by
      have hk := List.getElem_inj (h₀ := by simpa using hi) (h₁ := by simpa using hj) hnd (i := i) (j := j)
      exact hk.mp (by simpa using h1)
    subst hij; rfl

theorem emitInit_nodup {ss : List Signal} {ports : List Port} {b : Bytes}
    (hn : ss.map Signal.name = ports.map Port.name) (hnd : (ports.map Port.name).Nodup)
    (hlen : ∀ s ∈ ss, s.initData.length = s.packLen) (h : emitInit ss ports = .ok b) :
    b = (ss.map Signal.initData).flatten := by
  unfold emitInit at h
  have hbytes : namedInits ss ports = (ss.map Signal.initData).flatten := by
    unfold namedInits
    congr 1
    have hss := signalNamed_nodup ss (hn ▸ hnd)
    have h0 : (ports.map fun p => match signalNamed ss p.name with | some s => s.initData | none => []) =
        (ports.map Port.name).map fun nm => match signalNamed ss nm with | some s => s.initData | none => [] := by
      rw [List.map_map]; rfl
    refine h0.trans ?_
    rw [← hn, List.map_map]
    apply List.map_congr_left
    intro s hs
    simp only [Function.comp, hss s hs]
  split at h
  · rw [hbytes] at h
    split at h
    · exact (Except.ok.inj h).symm
    · simp at h
  · rename_i hz
    have hb : b = [] := (Except.ok.inj h).symm
    subst hb
    have hsum : ∀ (l : List Signal), totalLen l = 0 → (∀ s ∈ l, s.initData.length = s.packLen) →
        (l.map Signal.initData).flatten = [] := by
      intro l
      induction l with
      | nil => simp
      | cons s l ih =>
        intro h1 h2
        simp only [totalLen, List.map_cons, List.foldr_cons] at h1
        have h3 := h2 s List.mem_cons_self
        have h4 : s.initData = [] := List.eq_nil_of_length_eq_zero (by omega)
        simp only [List.map_cons, List.flatten_cons, h4, List.nil_append]
        exact ih (by simp only [totalLen]; omega) fun s' hs' => h2 s' (List.mem_cons_of_mem _ hs')
    exact (hsum ss (by omega) hlen).symm

/-- C53: whenever the generator succeeds on a node and node data can be built for the node as the
generator leaves it (which is the node itself if it was finalized before), the generated code has the
same offset and length for every port, the same total lengths and, if no two ports of a direction share
their name, the same initial data. -/
theorem C53_layout_partial (n : Node) (g : Generated) (hg : generate n = .ok g) (nd : NodeData)
    (hnd : g.node.nodeData = .ok nd) :
    (n.isFinalized = true → g.node = n) ∧
    g.require.map (fun s => (s.name, s.offset, s.packLen)) =
      (g.node.requires.zip nd.inRanges).map (fun pr => (pr.1.name, pr.2.offset, pr.2.len)) ∧
    g.provide.map (fun s => (s.name, s.offset, s.packLen)) =
      (g.node.provides.zip nd.outRanges).map (fun pr => (pr.1.name, pr.2.offset, pr.2.len)) ∧
    g.inLen = (fileBytes nd.inFile).length ∧ g.outLen = (fileBytes nd.outFile).length ∧
    ((g.node.requires.map Port.name).Nodup → g.inInit = fileBytes nd.inFile) ∧
    ((g.node.provides.map Port.name).Nodup → g.outInit = fileBytes nd.outFile) := by
  unfold generate at hg
  simp only [bind_ok_iff] at hg
  obtain ⟨n', h1, rs, h2, ps, h3, o, h4, i, h5, h6⟩ := hg
  cases h6
  simp only at hnd ⊢
  unfold Node.nodeData at hnd
  rw [bind_ok_iff] at hnd
  obtain ⟨text, -, hb⟩ := hnd
  obtain ⟨li, lo, df, b1, b2, b3, b4, -, b5⟩ := build_inv hb
  obtain ⟨ri, ci, bi, a1, -, a3, a4, a5⟩ := addPorts_ok b1
  obtain ⟨ro, co, bo, c1, -, c3, c4, c5⟩ := addPorts_ok b3
  obtain ⟨f1, f2, -⟩ := createPortFile_ok b2
  obtain ⟨f3, f4, -⟩ := createPortFile_ok b4
  simp only [PortLayout.empty, List.nil_append, List.length_nil] at a1 a3 a4 c1 c3 c4
  have hin : nd.inRanges = ri := by rw [b5]; exact a1
  have hout : nd.outRanges = ro := by rw [b5]; exact c1
  obtain ⟨d1, d2, d3, d4, d5⟩ := genSignals_agree _ _ _ _ _ _ _ _ h2 a5 a4
  obtain ⟨e1, e2, e3, e4, e5⟩ := genSignals_agree _ _ _ _ _ _ _ _ h3 c5 c4
  have zipform : ∀ (ss : List Signal) (ports : List Port) (rs : List PortRange),
      ss.map Signal.name = ports.map Port.name →
      ss.map (fun s => (s.offset, s.packLen)) = rs.map (fun r => (r.offset, r.len)) →
      ss.map (fun s => (s.name, s.offset, s.packLen)) =
        (ports.zip rs).map (fun pr => (pr.1.name, pr.2.offset, pr.2.len)) := by
    intro ss
    induction ss with
    | nil =>
      intro ports rs h _
      have : ports = [] := by simpa using h.symm
      subst this; rfl
    | cons s ss ih =>
      intro ports rs h h'
      cases ports with
      | nil => simp at h
      | cons p ports =>
        cases rs with
        | nil => simp at h'
        | cons r rs =>
          simp only [List.map_cons, List.cons.injEq, Prod.mk.injEq] at h h'
          simp only [List.map_cons, List.zip_cons_cons, h.1, h'.1.1, h'.1.2, ih ports rs h.2 h'.2]
  refine ⟨?_, ?_, ?_, ?_, ?_, ?_, ?_⟩
  · intro hf
    unfold Node.finalizeForGenerator at h1
    rw [if_pos hf] at h1
    exact (Except.ok.inj h1).symm
  · rw [hin]; exact zipform _ _ _ d1 d2
  · rw [hout]; exact zipform _ _ _ e1 e2
  · rw [f1, f2]; omega
  · rw [f3, f4]; omega
  · intro hn
    rw [emitInit_nodup d1 hn d4 h5, d3, f1, a3]
  · intro hn
    rw [emitInit_nodup e1 hn e4 h4, e3, f3, c3]

/-- C53 without any condition on the names: whenever code is generated at all, an initializer has
exactly as many bytes as the buffer it initializes. -/
theorem C53_init_length (n : Node) (g : Generated) (hg : generate n = .ok g) :
    g.inInit.length = g.inLen ∧ g.outInit.length = g.outLen := by
  unfold generate at hg
  simp only [bind_ok_iff] at hg
  obtain ⟨n', -, rs, -, ps, -, o, h4, i, h5, h6⟩ := hg
  cases h6
  have key : ∀ ss ports (b : Bytes), emitInit ss ports = .ok b → b.length = totalLen ss := by
    intro ss ports b h
    unfold emitInit at h
    split at h
    · split at h
      · rename_i hl
        rw [← Except.ok.inj h]; exact hl
      · cases h
    · rw [← Except.ok.inj h]; simp; omega
  exact ⟨key _ _ _ h5, key _ _ _ h4⟩

section Examples

/-- Ports of simple, array, string and record types, with and without init values. -/
def geOps : List NodeOp :=
  [.addType ['A'] ['{', '"', 'x', '"', 'C', '"', 'y', '"', 'S', '}'] none,
   .addPort .require ['R'] ['T', '[', '"', 'A', '"', ']'] (some ['=', '{', '1', ',', '5', '1', '3', '}']),
   .addPort .require ['Q'] ['a', '[', '4', ']'] (some ['=', '"', 'a', 'b', '"']),
   .addPort .provide ['P'] ['S'] (some ['=', '2', '5', '8']), .addPort .provide ['O'] ['C', '[', '2', ']'] none]

/-- The node, finalized without sorting the ports. -/
def geNode : Node := (Node.new ['N']).run (geOps ++ [.finalize false false])

example : (match generate geNode, geNode.nodeData with
    | .ok g, .ok nd => decide (g.inInit = [1, 1, 2, 97, 98, 0, 0] ∧ g.outInit = [2, 1, 0, 0] ∧
        g.provide.map (fun s => (s.offset, s.packLen)) = [(0, 2), (2, 2)] ∧ fileBytes nd.inFile = g.inInit)
    | _, _ => false) = true := by decide +kernel

end Examples

/-- Two provide ports with one name. -/
def geTwice : Node := (Node.new ['N']).run
  [.addPort .provide ['P'] ['C'] (some ['=', '1']), .addPort .provide ['P'] ['C'] (some ['=', '2']), .finalize false false]

/-- Two provide ports with one name and different types: nothing is generated. -/
example : (match generate ((Node.new ['N']).run [.addPort .provide ['P'] ['C'] none,
      .addPort .provide ['P'] ['S'] none, .finalize false false]) with
    | .ok _ => false
    | .error x => decide (x = .assertionError)) = true := by decide +kernel

/-- C53 is violated for nodes with two ports of one name: the emitted initial data is that of the last
one, twice. -/
example : (match generate geTwice, geTwice.nodeData with
    | .ok g, .ok nd => decide (g.outInit = [2, 2] ∧ fileBytes nd.outFile = [1, 2])
    | _, _ => false) = true := by decide +kernel

end Apx
