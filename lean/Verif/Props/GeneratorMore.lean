import Verif.Props.Generator

/-! C53: when exactly the emitted initial data is that of the node data. -/

namespace Apx

/-- The port files hold the initial data of the signals. -/
theorem generate_files (n : Node) (g : Generated) (hg : generate n = .ok g) (nd : NodeData) (hnd : g.node.nodeData = .ok nd) :
    (g.require.map Signal.name = g.node.requires.map Port.name ∧ (∀ s ∈ g.require, s.initData.length = s.packLen) ∧
      fileBytes nd.inFile = (g.require.map Signal.initData).flatten ∧ emitInit g.require g.node.requires = .ok g.inInit) ∧
    (g.provide.map Signal.name = g.node.provides.map Port.name ∧ (∀ s ∈ g.provide, s.initData.length = s.packLen) ∧
      fileBytes nd.outFile = (g.provide.map Signal.initData).flatten ∧ emitInit g.provide g.node.provides = .ok g.outInit) := by
  unfold generate at hg
  simp only [bind_ok_iff] at hg
  obtain ⟨n', h1, rs, h2, ps, h3, o, h4, i, h5, h6⟩ := hg
  cases h6
  simp only at hnd ⊢
  unfold Node.nodeData at hnd
  rw [bind_ok_iff] at hnd
  obtain ⟨text, -, hb⟩ := hnd
  obtain ⟨li, lo, df, b1, b2, b3, b4, -, b5⟩ := build_inv hb
  obtain ⟨ri, ci, bi, a1, -, a3, a4, a5⟩ := addPorts_ok b1
  obtain ⟨ro, co, bo, c1, -, c3, c4, c5⟩ := addPorts_ok b3
  obtain ⟨f1, f2, -⟩ := createPortFile_ok b2
  obtain ⟨f3, f4, -⟩ := createPortFile_ok b4
  simp only [PortLayout.empty, List.nil_append, List.length_nil] at a1 a3 a4 c1 c3 c4
  obtain ⟨d1, d2, d3, d4, d5⟩ := genSignals_agree _ _ _ _ _ _ _ _ h2 a5 a4
  obtain ⟨e1, e2, e3, e4, e5⟩ := genSignals_agree _ _ _ _ _ _ _ _ h3 c5 c4
  refine ⟨⟨d1, d4, ?_, h5⟩, e1, e4, ?_, h4⟩
  · rw [d3, f1, a3]
  · rw [e3, f3, c3]

/-- Equal bytes in pieces of equal lengths are equal pieces. -/
theorem flatten_pieces {α : Type} (l : List α) (f g : α → Bytes) (hl : ∀ x ∈ l, (f x).length = (g x).length) :
    (l.map f).flatten = (l.map g).flatten ↔ ∀ x ∈ l, f x = g x := by
  induction l with
  | nil => simp
  | cons x l ih =>
    simp only [List.map_cons, List.flatten_cons, List.forall_mem_cons] at hl ⊢
    rw [← ih hl.2]
    constructor
    · intro h
      exact List.append_inj h hl.1
    · rintro ⟨h1, h2⟩
      rw [h1, h2]

/-- The signal found for a name has that name and is one of the signals. -/
theorem signalNamed_of {ss : List Signal} {s : Signal} (h : s ∈ ss) :
    ∃ s' ∈ ss, signalNamed ss s.name = some s' ∧ s'.name = s.name := by
  unfold signalNamed
  cases hf : ss.reverse.find? (fun x => decide (x.name = s.name)) with
  | none =>
    have := List.find?_eq_none.mp hf s (by simpa using h)
    simp at this
  | some s' =>
    have h1 := List.find?_some hf
    have h2 := List.mem_of_find?_eq_some hf
    exact ⟨s', by simpa using h2, rfl, by simpa using h1⟩

theorem emitInit_exactly {ss : List Signal} {ports : List Port} {b : Bytes} (hn : ss.map Signal.name = ports.map Port.name)
    (hlen : ∀ s ∈ ss, s.initData.length = s.packLen) (h : emitInit ss ports = .ok b)
    (hsame : ∀ s ∈ ss, ∀ s' ∈ ss, s.name = s'.name → s.packLen = s'.packLen) :
    b = (ss.map Signal.initData).flatten ↔ ∀ s ∈ ss, ∀ s' ∈ ss, s.name = s'.name → s.initData = s'.initData := by
  have hbytes : namedInits ss ports =
      (ss.map fun s => match signalNamed ss s.name with | some s => s.initData | none => []).flatten := by
    unfold namedInits
    congr 1
    have h0 : (ports.map fun p => match signalNamed ss p.name with | some s => s.initData | none => []) =
        (ports.map Port.name).map fun nm => match signalNamed ss nm with | some s => s.initData | none => [] := by
      rw [List.map_map]; rfl
    refine h0.trans ?_
    rw [← hn, List.map_map]
    rfl
  have hiff : namedInits ss ports = (ss.map Signal.initData).flatten ↔
      ∀ s ∈ ss, ∀ s' ∈ ss, s.name = s'.name → s.initData = s'.initData := by
    rw [hbytes, flatten_pieces]
    · constructor
      · intro h s hs s' hs' e
        have h1 := h s hs
        have h2 := h s' hs'
        rw [← e] at h2
        rw [← h1, ← h2]
      · intro h s hs
        obtain ⟨s', h1, h2, h3⟩ := signalNamed_of hs
        rw [h2]
        exact h s' h1 s hs h3
    · intro s hs
      obtain ⟨s', h1, h2, h3⟩ := signalNamed_of hs
      rw [h2]
      show s'.initData.length = _
      rw [hlen s' h1, hlen s hs, hsame s' h1 s hs h3]
  unfold emitInit at h
  split at h
  · split at h
    · rw [← Except.ok.inj h]
      exact hiff
    · cases h
  · rename_i hz
    have hnil : ∀ (l : List Signal), totalLen l = 0 → (∀ s ∈ l, s.initData.length = s.packLen) → ∀ s ∈ l, s.initData = [] := by
      intro l
      induction l with
      | nil => simp
      | cons s l ih =>
        intro h1 h2 x hx
        simp only [totalLen, List.map_cons, List.foldr_cons] at h1
        rcases List.mem_cons.mp hx with rfl | hx
        · have := h2 x List.mem_cons_self
          exact List.eq_nil_of_length_eq_zero (by omega)
        · exact ih (by simp only [totalLen]; omega) (fun s' hs' => h2 s' (List.mem_cons_of_mem _ hs')) x hx
    have hall := hnil ss (by omega) hlen
    rw [← Except.ok.inj h]
    constructor
    · intro _ s hs s' hs' _
      rw [hall s hs, hall s' hs']
    · intro _
      symm
      rw [List.flatten_eq_nil_iff]
      intro l hl
      obtain ⟨s, hs, rfl⟩ := List.mem_map.mp hl
      exact hall s hs

/-- C53, exactly, for nodes in which ports of one name have equal lengths: the emitted initial data of a direction is that
of the node data if and only if ports of one name have the same initial data. -/
theorem C53_exactly (n : Node) (g : Generated) (hg : generate n = .ok g) (nd : NodeData) (hnd : g.node.nodeData = .ok nd) :
    ((∀ s ∈ g.require, ∀ s' ∈ g.require, s.name = s'.name → s.packLen = s'.packLen) →
      (g.inInit = fileBytes nd.inFile ↔
        ∀ s ∈ g.require, ∀ s' ∈ g.require, s.name = s'.name → s.initData = s'.initData)) ∧
    ((∀ s ∈ g.provide, ∀ s' ∈ g.provide, s.name = s'.name → s.packLen = s'.packLen) →
      (g.outInit = fileBytes nd.outFile ↔
        ∀ s ∈ g.provide, ∀ s' ∈ g.provide, s.name = s'.name → s.initData = s'.initData)) := by
  obtain ⟨⟨a1, a2, a3, a4⟩, b1, b2, b3, b4⟩ := generate_files n g hg nd hnd
  rw [a3, b3]
  exact ⟨emitInit_exactly a1 a2 a4, emitInit_exactly b1 b2 b4⟩

/-- C53 is violated for every node with two provide ports of one name and different initial data, if ports of one name
have equal lengths: the emitted initial data is not that of the node data. -/
theorem C53_same_name_violated (n : Node) (g : Generated) (hg : generate n = .ok g) (nd : NodeData)
    (hnd : g.node.nodeData = .ok nd) (hl : ∀ s ∈ g.provide, ∀ s' ∈ g.provide, s.name = s'.name → s.packLen = s'.packLen)
    (s s' : Signal) (hs : s ∈ g.provide) (hs' : s' ∈ g.provide) (hn : s.name = s'.name) (hd : s.initData ≠ s'.initData) :
    g.outInit ≠ fileBytes nd.outFile :=
  fun h => hd ((((C53_exactly n g hg nd hnd).2 hl).mp h) s hs s' hs' hn)

/-- The hypotheses hold of a node with two ports of one name, initially 1 and 2. -/
example : (match generate geTwice with
    | .ok g => decide (g.node.nodeData.toOption.isSome ∧ (∀ s ∈ g.provide, ∀ s' ∈ g.provide, s.name = s'.name → s.packLen = s'.packLen) ∧
        ∃ s ∈ g.provide, ∃ s' ∈ g.provide, s.name = s'.name ∧ s.initData ≠ s'.initData)
    | .error _ => false) = true := by decide +kernel

end Apx
