import Verif.Proofs.Node
import Verif.Proofs.NodeData
import Verif.Model.NodeBuild

/-! C42-C46: nodes. -/

namespace Apx

/-! ### C42 -/

/-- Port identifiers are positions. -/
def PortIds (n : Node) : Prop := ∀ side (i : Nat) (p : Port), (n.ports side)[i]? = some p → p.id = some i

/-- Port identifiers are the numbers below the number of ports, in some order. -/
def PortIdsPerm (n : Node) : Prop :=
  ∀ side, ((n.ports side).map Port.id).Perm ((List.range (n.ports side).length).map some)

theorem resolvePort_id_name (types : List NamedType) (p q : Port) (h : resolvePort types p = .ok q) :
    q.id = p.id ∧ q.name = p.name ∧ q.attr = p.attr := by
  unfold resolvePort at h
  split at h
  · rw [bind_ok_iff] at h
    obtain ⟨e, _, h⟩ := h
    simp only [Except.ok.injEq] at h
    subst h
    exact ⟨rfl, rfl, rfl⟩
  · simp only [Except.ok.injEq] at h
    subst h
    exact ⟨rfl, rfl, rfl⟩

theorem addPort_ids (n n' : Node) (side : Side) (p q : Port) (h : n.addPort side p = .ok (n', q)) :
    (PortIds n → PortIds n') ∧ (PortIdsPerm n → PortIdsPerm n') ∧
      q.id = some (n.ports side).length ∧ q.name = p.name := by
  obtain ⟨h1, rfl⟩ := addPort_cases n n' side p q h
  obtain ⟨hid, hname, _⟩ := resolvePort_id_name _ _ _ h1
  refine ⟨?_, ?_, hid, hname⟩
  · intro hi side' i r hr
    rw [ports_setPorts] at hr
    split at hr
    · rename_i hs
      subst hs
      rw [List.getElem?_append] at hr
      split at hr
      · exact hi side' i r hr
      · have := (List.getElem?_eq_some_iff.mp hr).1
        simp only [List.length_singleton] at this
        have e : i = (n.ports side').length := by omega
        subst e
        simp only [Nat.sub_self, List.getElem?_cons_zero, Option.some.injEq] at hr
        subst hr
        exact hid
    · exact hi side' i r hr
  · intro hi side'
    rw [ports_setPorts]
    split
    · rename_i hs
      subst hs
      simp only [List.map_append, List.length_append, List.map_cons, List.map_nil, List.length_singleton,
        List.range_succ]
      rw [hid]
      exact (hi side').append_right _
    · exact hi side'

theorem Grows.ids {n m : Node} (h : Grows n m) : (PortIds n → PortIds m) ∧ (PortIdsPerm n → PortIdsPerm m) := by
  refine ⟨fun hi side i p hp => ?_, fun hi side => ?_⟩
  · rw [h.ports] at hp; exact hi side i p hp
  · rw [h.ports]; exact hi side

theorem addPortFrom_ids (n src : Node) (side : Side) (p : Port) (ig : Bool) :
    (PortIds n → PortIds (n.addPortFrom src side p ig).1) ∧
      (PortIdsPerm n → PortIdsPerm (n.addPortFrom src side p ig).1) := by
  have h := addPortFrom_result n src side p ig
  cases h' : n.addPortFrom src side p ig with
  | mk m r =>
    rw [h'] at h
    cases h with
    | existing q => exact ⟨id, id⟩
    | failed _ x hg _ => exact hg.ids
    | added m m' c q _ hg _ _ _ _ hadd =>
      have := addPort_ids _ _ _ _ _ hadd
      exact ⟨fun hi => this.1 (hg.ids.1 hi), fun hi => this.2.1 (hg.ids.2 hi)⟩

theorem addType_ports (n n' : Node) (t t' : TypeObj) (h : n.addType t = .ok (n', t')) (side : Side) :
    n'.ports side = n.ports side := by
  rcases addType_cases n n' t t' h with ⟨rfl, _⟩ | ⟨_, e, _, _, rfl, rfl⟩
  · rfl
  · cases side <;> rfl

theorem finalize_cases (n n' : Node) (sort compact : Bool) (h : n.finalize sort compact = .ok n') (hi : NodeInv n) :
    n' = n ∨ n' = n.finalized sort compact := by
  cases hf : n.isFinalized with
  | true =>
    unfold Node.finalize at h
    rw [if_pos hf] at h
    simp only [Except.ok.injEq] at h
    exact Or.inl h.symm
  | false =>
    rw [finalize_eq n sort compact hi.toNodeInv0 hf] at h
    simp only [Except.ok.injEq] at h
    exact Or.inr h.symm

theorem step_ids (n : Node) (op : NodeOp) (hinv : NodeInv n) :
    (¬ op.Sorts → ¬ op.Mirrors → PortIds n → PortIds (n.step op)) ∧
      (¬ op.Mirrors → PortIdsPerm n → PortIdsPerm (n.step op)) := by
  cases op with
  | addType name dsg attr =>
    simp only [Node.step]
    split
    · rename_i n' t h
      rw [bind_ok_iff] at h
      obtain ⟨c, _, h2⟩ := h
      have := addType_ports _ _ _ _ h2
      refine ⟨fun _ _ hi side i p hp => ?_, fun _ hi side => ?_⟩
      · rw [this] at hp; exact hi side i p hp
      · rw [this]; exact hi side
    · exact ⟨fun _ _ h => h, fun _ h => h⟩
  | addPort side name dsg attr =>
    simp only [Node.step]
    split
    · rename_i n' t h
      rw [bind_ok_iff] at h
      obtain ⟨c, _, h2⟩ := h
      have := addPort_ids _ _ _ _ _ h2
      exact ⟨fun _ _ h => this.1 h, fun _ h => this.2.1 h⟩
    · exact ⟨fun _ _ h => h, fun _ h => h⟩
  | append text =>
    simp only [Node.step]
    split
    · rename_i n' q h
      obtain ⟨side, name, dsg, attr, p, _, h2⟩ := appendText_cases _ _ _ _ h
      have := addPort_ids _ _ _ _ _ h2
      exact ⟨fun _ _ h => this.1 h, fun _ h => this.2.1 h⟩
    · exact ⟨fun _ _ h => h, fun _ h => h⟩
  | addPortFrom src side p ig =>
    have := addPortFrom_ids n src side p ig
    exact ⟨fun _ _ h => this.1 h, fun _ h => this.2 h⟩
  | extend src =>
    exact ⟨fun _ _ h => extend_ind PortIds src (fun n side p h => (addPortFrom_ids n src side p false).1 h) n h,
      fun _ h => extend_ind PortIdsPerm src (fun n side p h => (addPortFrom_ids n src side p false).2 h) n h⟩
  | finalize sort compact =>
    simp only [Node.step]
    split
    · rename_i n' h
      rcases finalize_cases n n' sort compact h hinv with rfl | rfl
      · exact ⟨fun _ _ h => h, fun _ h => h⟩
      · refine ⟨fun hs _ hi side i p hp => ?_, fun _ hi side => ?_⟩
        · rw [finalized_ports, if_neg (by simpa [NodeOp.Sorts] using hs)] at hp
          exact hi side i p hp
        · rw [finalized_ports]
          split
          · have hp := sortedByName_perm Port.name (n.ports side)
            rw [hp.length_eq]
            exact (hp.map _).trans (hi side)
          · exact hi side
    · exact ⟨fun _ _ h => h, fun _ h => h⟩
  | mirror name => exact ⟨fun _ h => absurd trivial h, fun h => absurd trivial h⟩

/-- C42: in any history of additions, copies and finalizations that does not sort the ports (and
does not replace the node by its mirror), the identifier of every port is its position among the
ports of its direction. -/
theorem C42_ids_are_positions_partial (name : Str) (ops : List NodeOp)
    (h : ∀ op ∈ ops, ¬ op.Sorts ∧ ¬ op.Mirrors) (side : Side) (i : Nat) (p : Port)
    (hp : (((Node.new name).run ops).ports side)[i]? = some p) : p.id = some i := by
  have key : ∀ (ops : List NodeOp) (n : Node), (∀ op ∈ ops, ¬ op.Sorts ∧ ¬ op.Mirrors) → NodeInv n →
      PortIds n → PortIds (n.run ops) := by
    intro ops
    induction ops with
    | nil => intro n _ _ hn; exact hn
    | cons op ops ih =>
      intro n hops hi hn
      have := hops op (by simp)
      exact ih _ (fun o ho => hops o (by simp [ho])) (step_inv n op hi) ((step_ids n op hi).1 this.1 this.2 hn)
  refine key ops _ h (nodeInv_new name) ?_ side i p hp
  intro side i p hp
  cases side <;> simp [Node.new, Node.ports] at hp

/-- C42: in any history without mirroring, sorting included, the identifiers of the ports of one
direction are the numbers below the number of ports: each occurs exactly once. -/
theorem C42_ids_unique (name : Str) (ops : List NodeOp) (h : ∀ op ∈ ops, ¬ op.Mirrors) (side : Side) :
    let ports := ((Node.new name).run ops).ports side
    (ports.map Port.id).Nodup ∧ ∀ k, k < ports.length ↔ ∃ p ∈ ports, p.id = some k := by
  have key : ∀ (ops : List NodeOp) (n : Node), (∀ op ∈ ops, ¬ op.Mirrors) → NodeInv n →
      PortIdsPerm n → PortIdsPerm (n.run ops) := by
    intro ops
    induction ops with
    | nil => intro n _ _ hn; exact hn
    | cons op ops ih =>
      intro n hops hi hn
      exact ih _ (fun o ho => hops o (by simp [ho])) (step_inv n op hi)
        ((step_ids n op hi).2 (hops op (by simp)) hn)
  have hperm := key ops (Node.new name) h (nodeInv_new name)
    (by intro side; cases side <;> exact .refl _) side
  simp only
  constructor
  · rw [hperm.nodup_iff, List.nodup_iff_pairwise_ne, List.pairwise_map]
    exact List.Pairwise.imp (fun h e => h (by simpa using e)) (List.nodup_iff_pairwise_ne.mp List.nodup_range)
  · intro k
    have := hperm.mem_iff (a := some k)
    simp only [List.mem_map, List.mem_range, Option.some.injEq, exists_eq_right] at this
    exact this.symm

theorem addPort_alone {d : Dir} {types : List NamedType} {p : NPort} {s' : PortLayout} {f : Option FileData}
    (h : addPorts d types .empty [{ p with id := some 0 }] = .ok s') (hf : createPortFile s' = .ok f)
    (s : PortLayout) (hs : s.initData.length = s.offset) (hid : p.id = some (s.progs.length : Int)) :
    ∃ t, Apx.addPort d types s p = .ok t ∧ t.initData.length = t.offset ∧
      t.progs.length = s.progs.length + 1 := by
  simp only [addPorts, bind_ok_iff] at h
  obtain ⟨s1, h, he⟩ := h
  simp only [Except.ok.injEq] at he
  subst he
  unfold Apx.addPort at h
  simp only [bind_ok_iff] at h
  obtain ⟨_, _, e, h1, de, h2, n, h3, prog, h4, _, _, b, h5, h6⟩ := h
  simp only [Except.ok.injEq] at h6
  subst h6
  have hlen := (createPortFile_ok hf).2.1
  simp only [PortLayout.empty, List.nil_append, Nat.zero_add] at hlen
  refine ⟨⟨s.offset + n, s.ranges ++ [⟨s.offset, n, s.progs.length⟩], s.progs ++ [prog], s.initData ++ b⟩, ?_, ?_, ?_⟩
  · unfold Apx.addPort
    have ha : assertId d p.id = .ok () := by unfold assertId; rw [if_neg (by simp [hid])]
    have hc : checkId s.progs.length p.id = .ok () := by rw [hid]; simp [checkId]
    simp [ha, h1, h2, h3, h4, hc, h5]
  · simp [hs, hlen]
  · simp

theorem addPorts_positions {d : Dir} {types : List NamedType} (ps : List NPort) (s : PortLayout)
    (hs : s.initData.length = s.offset)
    (hid : ∀ (i : Nat) (p : NPort), ps[i]? = some p → p.id = some ((s.progs.length + i : Nat) : Int))
    (halone : ∀ p ∈ ps, ∃ s' f, addPorts d types .empty [{ p with id := some 0 }] = .ok s' ∧
      createPortFile s' = .ok f) :
    ∃ t, addPorts d types s ps = .ok t ∧ t.initData.length = t.offset := by
  induction ps generalizing s with
  | nil => exact ⟨s, rfl, hs⟩
  | cons p ps ih =>
    obtain ⟨s', f, h1, h2⟩ := halone p (by simp)
    obtain ⟨t, h3, h4, h5⟩ := addPort_alone h1 h2 s hs (by simpa using hid 0 p rfl)
    obtain ⟨t', h6, h7⟩ := ih t h4 (fun i q hq => by rw [hid (i + 1) q (by simpa using hq), h5]; congr 2; omega)
      (fun q hq => halone q (by simp [hq]))
    exact ⟨t', by simp [addPorts, h3, h6], h7⟩

theorem createPortFile_of_length (s : PortLayout) (h : s.initData.length = s.offset) :
    ∃ f, createPortFile s = .ok f := by
  unfold createPortFile
  rw [if_neg (by simp [h])]
  split
  · rw [FileData.create, if_neg (by omega)]
    simp [h]
  · exact ⟨_, rfl⟩

/-- C42: so node data can be built. If the definition text is printable and node data could be built
for each port on its own, then it can be built for the node. -/
theorem C42_node_data_partial (name : Str) (ops : List NodeOp) (h : ∀ op ∈ ops, ¬ op.Sorts ∧ ¬ op.Mirrors)
    (n : Node) (hn : n = (Node.new name).run ops) (text : Str) (htext : n.definitionText false = .ok text)
    (hempty : ∃ nd, NodeData.build n.named [] [] text = .ok nd)
    (hreq : ∀ p ∈ n.requires, ∃ nd, NodeData.build n.named [{ p.toNPort with id := some 0 }] [] text = .ok nd)
    (hprov : ∀ p ∈ n.provides, ∃ nd, NodeData.build n.named [] [{ p.toNPort with id := some 0 }] text = .ok nd) :
    ∃ nd, n.nodeData = .ok nd := by
  have hids : PortIds n := by
    intro side i p hp
    rw [hn] at hp
    exact C42_ids_are_positions_partial name ops h side i p hp
  obtain ⟨_, hempty⟩ := hempty
  obtain ⟨_, _, df, _, _, _, _, hdf, _⟩ := build_inv hempty
  obtain ⟨i, h1, h2⟩ := addPorts_positions (d := .unpack) (types := n.named) (n.requires.map Port.toNPort) .empty rfl
    (by
      intro i q hq
      rw [List.getElem?_map, Option.map_eq_some_iff] at hq
      obtain ⟨p, hp, rfl⟩ := hq
      have := hids .require i p hp
      simp [Port.toNPort, this, PortLayout.empty])
    (by
      intro q hq
      obtain ⟨p, hp, rfl⟩ := List.mem_map.mp hq
      obtain ⟨nd, hb⟩ := hreq p hp
      obtain ⟨i, o, df, a1, a2, _⟩ := build_inv hb
      exact ⟨i, _, a1, a2⟩)
  obtain ⟨o, h3, h4⟩ := addPorts_positions (d := .pack) (types := n.named) (n.provides.map Port.toNPort) .empty rfl
    (by
      intro i q hq
      rw [List.getElem?_map, Option.map_eq_some_iff] at hq
      obtain ⟨p, hp, rfl⟩ := hq
      have := hids .provide i p hp
      simp [Port.toNPort, this, PortLayout.empty])
    (by
      intro q hq
      obtain ⟨p, hp, rfl⟩ := List.mem_map.mp hq
      obtain ⟨nd, hb⟩ := hprov p hp
      obtain ⟨i, o, df, _, _, a1, a2, _⟩ := build_inv hb
      exact ⟨o, _, a1, a2⟩)
  obtain ⟨f, h5⟩ := createPortFile_of_length i h2
  obtain ⟨g, h6⟩ := createPortFile_of_length o h4
  unfold Node.nodeData
  rw [htext, ok_bind]
  unfold NodeData.build
  simp [h1, h3, h5, h6, hdf]

/-- The two ports of the counterexamples below. -/
def noOps : List NodeOp :=
  [.addType ['T'] ['C'] none, .addPort .require ['B'] ['S'] none, .addPort .require ['A'] ['T', '[', '0', ']'] none,
   .addPort .provide ['P'] ['C'] (some ['=', '7'])]

/-- The node built by them. -/
def noNode : Node := (Node.new ['N']).run noOps

/-- Whether a computation succeeds. -/
def Py.succeeds {α : Type} : Py α → Bool
  | .ok _ => true
  | .error _ => false

theorem Py.succeeds_iff {α : Type} (x : Py α) : x.succeeds = true ↔ ∃ a, x = .ok a := by
  cases x <;> simp [Py.succeeds]

/-- C42 fails after sorting: dumping the node as text (which finalizes it sorted) makes it impossible
to create its node data, which was possible before. -/
example : (∃ nd, noNode.nodeData = .ok nd) ∧
    ∃ n' text, noNode.dumps false = .ok (n', text) ∧ n'.nodeData.toOption.isNone ∧
      n'.requires.map Port.id = [some 1, some 0] := by
  refine ⟨(Py.succeeds_iff _).mp (by decide +kernel), ?_⟩
  have h : (match noNode.dumps false with
      | .ok (n', _) => n'.nodeData.toOption.isNone && decide (n'.requires.map Port.id = [some 1, some 0])
      | .error _ => false) = true := by decide +kernel
  split at h
  · rename_i n' text he
    simp only [Bool.and_eq_true, decide_eq_true_eq] at h
    exact ⟨n', text, he, h.1, h.2⟩
  · simp at h

/-- C42 fails after mirroring: the ports of the mirror have no identifiers, and node data cannot be
created. -/
example : ∃ n', noNode.mirror none = .ok n' ∧ n'.nodeData.toOption.isNone ∧
    n'.provides.map Port.id = [none, none] := by
  have h : (match noNode.mirror none with
      | .ok n' => n'.nodeData.toOption.isNone && decide (n'.provides.map Port.id = [none, none])
      | .error _ => false) = true := by decide +kernel
  split at h
  · rename_i n' he
    simp only [Bool.and_eq_true, decide_eq_true_eq] at h
    exact ⟨n', he, h.1, h.2⟩
  · simp at h

example : (∀ op ∈ noOps, ¬ op.Sorts ∧ ¬ op.Mirrors) ∧ noNode.requires.length = 2 := by
  refine ⟨?_, by decide +kernel⟩
  simp [noOps, NodeOp.Sorts, NodeOp.Mirrors]

/-- The hypotheses of `C42_node_data_partial` hold of the example node. -/
example : ∃ text, noNode.definitionText false = .ok text ∧
    (∃ nd, NodeData.build noNode.named [] [] text = .ok nd) ∧
    (∀ p ∈ noNode.requires, ∃ nd, NodeData.build noNode.named [{ p.toNPort with id := some 0 }] [] text = .ok nd) ∧
    (∀ p ∈ noNode.provides, ∃ nd, NodeData.build noNode.named [] [{ p.toNPort with id := some 0 }] text = .ok nd) := by
  have h : (match noNode.definitionText false with
      | .ok text => (NodeData.build noNode.named [] [] text).succeeds &&
        noNode.requires.all (fun p => (NodeData.build noNode.named [{ p.toNPort with id := some 0 }] [] text).succeeds) &&
        noNode.provides.all (fun p => (NodeData.build noNode.named [] [{ p.toNPort with id := some 0 }] text).succeeds)
      | .error _ => false) = true := by decide +kernel
  split at h
  · rename_i text he
    simp only [Bool.and_eq_true, Py.succeeds_iff, List.all_eq_true] at h
    exact ⟨text, he, h.1.1, h.1.2, h.2⟩
  · simp at h

/-! ### C43 -/

/-- C43: `finalize` succeeds on every node built through the API. If the node was not finalized
before, the types are the same (apart from their numbers and short names) in another order, sorted by
name, and numbered by position; the ports are the same objects, sorted by name if asked for, else in
the same order; types and ports of the same name keep their order. -/
theorem C43_finalize (n : Node) (hb : n.Built) (sort compact : Bool) :
    ∃ n', n.finalize sort compact = .ok n' ∧ n'.isFinalized = true ∧ n'.name = n.name ∧
      (n.isFinalized = true → n' = n) ∧
      (n.isFinalized = false →
        (n'.types.map TypeObj.content).Perm (n.types.map TypeObj.content) ∧
        SortedByName TypeObj.name n'.types ∧
        (∀ (i : Nat) (t : TypeObj), n'.types[i]? = some t → t.id = some i) ∧
        ∀ side, (n'.ports side).Perm (n.ports side) ∧
          (sort = false → n'.ports side = n.ports side) ∧
          (sort = true → SortedByName Port.name (n'.ports side) ∧ ∀ m : Str,
            (n'.ports side).filter (fun p => p.name = m) = (n.ports side).filter (fun p => p.name = m))) := by
  have hi := hb.inv
  cases hf : n.isFinalized with
  | true =>
    refine ⟨n, ?_, hf, rfl, fun _ => rfl, by simp⟩
    unfold Node.finalize
    rw [if_pos hf]
  | false =>
    refine ⟨_, finalize_eq n sort compact hi.toNodeInv0 hf, rfl, ?_, by simp, fun _ => ⟨?_, ?_, ?_, ?_⟩⟩
    · unfold Node.finalized Node.sortElements
      cases compact <;> cases sort <;> rfl
    · rw [finalized_content]
      exact (sortedByName_perm _ _).map _
    · have := names_of_content _ _ (finalized_content n sort compact)
      have hs := sortedByName_sorted TypeObj.name n.types
      unfold SortedByName at hs ⊢
      rw [← List.pairwise_map (f := TypeObj.name) (R := fun a b => a ≤ b)] at hs ⊢
      rw [this]; exact hs
    · intro i t ht
      rw [finalized_types, List.getElem?_mapIdx, Option.map_eq_some_iff] at ht
      obtain ⟨u, _, rfl⟩ := ht
      rfl
    · intro side
      rw [finalized_ports]
      refine ⟨?_, fun h => by rw [if_neg (by simp [h])], fun h => ?_⟩
      · split
        · exact sortedByName_perm _ _
        · exact .refl _
      · rw [if_pos h]
        exact ⟨sortedByName_sorted _ _, fun m => sortedByName_stable _ _ m⟩

/-- C43: a second `finalize`, with whatever arguments, changes nothing. -/
theorem C43_twice (n n' : Node) (sort compact sort' compact' : Bool) (h : n.finalize sort compact = .ok n') :
    n'.finalize sort' compact' = .ok n' := by
  have : n'.isFinalized = true := by
    unfold Node.finalize at h
    split at h
    · simp only [Except.ok.injEq] at h
      subst h; assumption
    · rw [bind_ok_iff] at h
      obtain ⟨m, _, h⟩ := h
      simp only [Except.ok.injEq] at h
      subst h; rfl
  unfold Node.finalize
  rw [if_pos this]

/-- C43: even without the flag, sorting, numbering and shortening once more would change nothing. -/
theorem C43_idempotent (n : Node) (hb : n.Built) (hf : n.isFinalized = false) (sort compact : Bool) (n' : Node)
    (h : n.finalize sort compact = .ok n') :
    ({ n' with isFinalized := false } : Node).finalize sort compact = .ok n' := by
  have hi := hb.inv
  rw [finalize_eq n sort compact hi.toNodeInv0 hf] at h
  simp only [Except.ok.injEq] at h
  subst h
  have hi' := finalized_inv n sort compact hi.toNodeInv0
  have hi2 : NodeInv0 ({ n.finalized sort compact with isFinalized := false } : Node) :=
    ⟨hi'.names, hi'.refs, hi'.leaves, hi'.data, hi'.tattr, fun side p hp => hi'.ports side p (by cases side <;> exact hp)⟩
  rw [finalize_eq _ sort compact hi2 rfl]
  congr 1
  have hsorted : sortedByName TypeObj.name (n.finalized sort compact).types = (n.finalized sort compact).types := by
    apply sortedByName_of_sorted
    have := names_of_content _ _ (finalized_content n sort compact)
    have hs := sortedByName_sorted TypeObj.name n.types
    unfold SortedByName at hs ⊢
    rw [← List.pairwise_map (f := TypeObj.name) (R := fun a b => a ≤ b)] at hs ⊢
    rw [this]; exact hs
  have ht : (({ n.finalized sort compact with isFinalized := false } : Node).finalized sort compact).types
      = (n.finalized sort compact).types := by
    rw [finalized_types]
    simp only [hsorted]
    rw [finalized_types]
    simp only [List.mapIdx_mapIdx]
    congr 1
    funext i t
    cases compact <;> rfl
  have hp : ∀ side, (({ n.finalized sort compact with isFinalized := false } : Node).finalized sort compact).ports side
      = (n.finalized sort compact).ports side := by
    intro side
    rw [finalized_ports]
    have e : ({ n.finalized sort compact with isFinalized := false } : Node).ports side
        = (n.finalized sort compact).ports side := by cases side <;> rfl
    rw [e, finalized_ports]
    split
    · exact sortedByName_of_sorted _ _ (sortedByName_sorted _ _)
    · rfl
  have hname : (({ n.finalized sort compact with isFinalized := false } : Node).finalized sort compact).name
      = (n.finalized sort compact).name := by
    unfold Node.finalized Node.sortElements
    cases compact <;> cases sort <;> rfl
  have hfin : (({ n.finalized sort compact with isFinalized := false } : Node).finalized sort compact).isFinalized
      = (n.finalized sort compact).isFinalized := rfl
  have h1 := hp .require
  have h2 := hp .provide
  simp only [Node.ports] at h1 h2
  generalize ({ n.finalized sort compact with isFinalized := false } : Node).finalized sort compact = x at *
  generalize n.finalized sort compact = y at *
  cases x; cases y
  simp only at *
  subst hname hfin ht h1 h2
  rfl

example : noNode.Built ∧ noNode.isFinalized = false := ⟨⟨_, _, rfl⟩, by decide +kernel⟩

/-! ### C44 -/

theorem portNamed_none (n : Node) (name : Str) (h : n.portNamed name = none) : name ∉ n.portNames := by
  unfold Node.portNamed at h
  split at h
  · simp at h
  · rename_i h1
    rw [Option.map_eq_none_iff] at h
    rw [List.find?_eq_none] at h h1
    unfold Node.portNames
    intro hm
    rcases List.mem_append.mp hm with hm | hm
    · obtain ⟨p, hp, he⟩ := List.mem_map.mp hm
      exact h p hp (by simpa using he)
    · obtain ⟨p, hp, he⟩ := List.mem_map.mp hm
      exact h1 p hp (by simpa using he)

theorem portNamed_some (n : Node) (name : Str) (side : Side) (p : Port) (h : n.portNamed name = some (side, p)) :
    p ∈ n.ports side ∧ p.name = name := by
  unfold Node.portNamed at h
  split at h
  · rename_i q hq
    simp only [Option.some.injEq, Prod.mk.injEq] at h
    obtain ⟨rfl, rfl⟩ := h
    exact ⟨List.mem_of_find?_eq_some hq, by simpa using List.find?_some hq⟩
  · rw [Option.map_eq_some_iff] at h
    obtain ⟨q, hq, h⟩ := h
    simp only [Prod.mk.injEq] at h
    obtain ⟨rfl, rfl⟩ := h
    exact ⟨List.mem_of_find?_eq_some hq, by simpa using List.find?_some hq⟩

/-- C44 for copies: if a port of that name exists, in the other direction, the copy is refused; in the
same direction, with the same text, the existing port is returned; with another text, the copy is
refused. In all three cases the node is unchanged, and `ignore_duplicates` makes no difference. -/
theorem C44_copy_duplicate_partial (n src : Node) (side side' : Side) (p q : Port) (ignoreDuplicates : Bool)
    (hq : n.portNamed p.name = some (side', q)) :
    (side' ≠ side → n.addPortFrom src side p ignoreDuplicates = (n, .error .valueError)) ∧
    (∀ s t, side' = side → q.toStr n.ids true side = .ok s → p.toStr src.ids true side = .ok t →
      (s = t → n.addPortFrom src side p ignoreDuplicates = (n, .ok q)) ∧
      (s ≠ t → n.addPortFrom src side p ignoreDuplicates = (n, .error .valueError))) := by
  constructor
  · intro hs
    unfold Node.addPortFrom Node.checkDuplicate
    simp only [hq, if_pos hs]
  · intro s t hs h1 h2
    subst hs
    have hc : n.checkDuplicate src side' p = if s ≠ t then .error .valueError else .ok (some q) := by
      unfold Node.checkDuplicate
      simp only [hq, ne_eq, not_true, if_false, verifyEqual, h1, h2, ok_bind]
      by_cases he : s = t <;> simp [he]
    constructor
    · intro he
      unfold Node.addPortFrom
      rw [hc, if_neg (by simpa using he)]
    · intro he
      unfold Node.addPortFrom
      rw [hc, if_pos he]

theorem addPort_names (n n' : Node) (side : Side) (p q : Port) (h : n.addPort side p = .ok (n', q))
    (hn : p.name ∉ n.portNames) (hd : n.portNames.Nodup) : n'.portNames.Nodup := by
  obtain ⟨h1, rfl⟩ := addPort_cases n n' side p q h
  have hname : q.name = p.name := (resolvePort_id_name _ _ _ h1).2.1
  unfold Node.portNames at *
  cases side with
  | require =>
    simp only [Node.setPorts, Node.ports, List.map_append, List.map_cons, List.map_nil, List.append_assoc]
    have : (q.name :: (n.requires.map Port.name ++ n.provides.map Port.name)).Nodup := by
      rw [List.nodup_cons]; exact ⟨hname ▸ hn, hd⟩
    exact (List.perm_middle).nodup_iff.mpr this
  | provide =>
    simp only [Node.setPorts, Node.ports, List.map_append, List.map_cons, List.map_nil]
    rw [← List.append_assoc]
    have : (q.name :: (n.requires.map Port.name ++ n.provides.map Port.name)).Nodup := by
      rw [List.nodup_cons]; exact ⟨hname ▸ hn, hd⟩
    exact (List.perm_append_singleton _ _).nodup_iff.mpr this

theorem Grows.portNames {n m : Node} (h : Grows n m) : m.portNames = n.portNames := by
  unfold Node.portNames; rw [h.req, h.prov]

theorem addPortFrom_names (n src : Node) (side : Side) (p : Port) (ig : Bool) (hd : n.portNames.Nodup) :
    (n.addPortFrom src side p ig).1.portNames.Nodup := by
  have h := addPortFrom_result n src side p ig
  cases h' : n.addPortFrom src side p ig with
  | mk m r =>
    rw [h'] at h
    cases h with
    | existing q => exact hd
    | failed _ x hg _ => simp only [hg.portNames]; exact hd
    | added m m' c q hn hg _ hc _ _ hadd =>
      exact addPort_names _ _ _ _ _ hadd (by rw [hg.portNames, hc]; exact portNamed_none _ _ hn)
        (by rw [hg.portNames]; exact hd)

theorem mirror_names (n m : Node) (name : Option Str) (h : n.mirror name = .ok m) (side : Side) :
    (m.ports side).map Port.name = (n.ports side.other).map Port.name := by
  obtain ⟨_, _, _, hp⟩ := mirror_ok n m name h
  obtain ⟨l, h1, h2⟩ := hp side
  rw [map_ok_map h2 Port.name Port.name (fun x y he => (resolvePort_id_name _ _ _ he).2.1),
    map_ok_map h1 Port.name Port.name]
  intro x y he
  unfold Port.mirror at he
  rw [bind_ok_iff] at he
  obtain ⟨s, _, he⟩ := he
  exact (mkPort_facts _ _ _ _ he).1

theorem step_names (n : Node) (op : NodeOp) (hinv : NodeInv n) (hop : ¬ op.AddsDirectly) (hd : n.portNames.Nodup) :
    (n.step op).portNames.Nodup := by
  cases op with
  | addType name dsg attr =>
    simp only [Node.step]
    split
    · rename_i n' t h
      rw [bind_ok_iff] at h
      obtain ⟨c, _, h2⟩ := h
      have h3 := addType_ports _ _ _ _ h2 .require
      have h4 := addType_ports _ _ _ _ h2 .provide
      simp only [Node.ports] at h3 h4
      unfold Node.portNames at *
      rw [h3, h4]; exact hd
    · exact hd
  | addPort side name dsg attr => exact absurd trivial hop
  | append text => exact absurd trivial hop
  | addPortFrom src side p ig => exact addPortFrom_names n src side p ig hd
  | extend src =>
    exact extend_ind (fun n => n.portNames.Nodup) src (fun n side p h => addPortFrom_names n src side p false h) n hd
  | finalize sort compact =>
    simp only [Node.step]
    split
    · rename_i n' h
      rcases finalize_cases n n' sort compact h hinv with rfl | rfl
      · exact hd
      · have h1 := finalized_ports n sort compact .require
        have h2 := finalized_ports n sort compact .provide
        simp only [Node.ports] at h1 h2
        unfold Node.portNames at *
        rw [h1, h2]
        cases sort with
        | false => exact hd
        | true =>
          have p1 := (sortedByName_perm Port.name n.requires).map Port.name
          have p2 := (sortedByName_perm Port.name n.provides).map Port.name
          exact (p1.append p2).nodup_iff.mpr hd
    · exact hd
  | mirror name =>
    simp only [Node.step]
    split
    · rename_i n' h
      have h1 := mirror_names n n' name h .require
      have h2 := mirror_names n n' name h .provide
      simp only [Node.ports, Side.other] at h1 h2
      unfold Node.portNames at *
      rw [h1, h2]
      exact List.perm_append_comm.nodup_iff.mpr hd
    · exact hd

/-- C44: as long as ports are added only by copying them from other nodes (with `add_port_from_node` or
`extend`), all port names of the node, both directions together, are different, whatever the other
nodes contain. -/
theorem C44_names_unique_partial (n : Node) (hb : n.Built) (hd : n.portNames.Nodup) (ops : List NodeOp)
    (hops : ∀ op ∈ ops, ¬ op.AddsDirectly) : (n.run ops).portNames.Nodup := by
  have key : ∀ (ops : List NodeOp) (n : Node), (∀ op ∈ ops, ¬ op.AddsDirectly) → NodeInv n →
      n.portNames.Nodup → (n.run ops).portNames.Nodup := by
    intro ops
    induction ops with
    | nil => intro n _ _ hn; exact hn
    | cons op ops ih =>
      intro n hops hi hn
      exact ih _ (fun o ho => hops o (by simp [ho])) (step_inv n op hi)
        (step_names n op hi (hops op (by simp)) hn)
  exact key ops n hops hb.inv hd

/-- C44 fails for ports added directly: two different ports with one name are accepted. -/
example :
    ((Node.new ['N']).run [.append ['R', '"', 'A', '"', 'C'], .append ['R', '"', 'A', '"', 'S']]).portNames
      = [['A'], ['A']] := by decide +kernel

/-- C44 fails for copies: the documented behaviour is that a port whose name exists is ignored if
`ignore_duplicates` is given and refused otherwise. In fact an equal port is accepted without
`ignore_duplicates`, and a different one is refused with it. -/
example :
    let n := (Node.new ['N']).run [.append ['R', '"', 'A', '"', 'C']]
    let same := (Node.new ['M']).run [.append ['R', '"', 'A', '"', 'C']]
    let diff := (Node.new ['M']).run [.append ['R', '"', 'A', '"', 'S']]
    (∀ p ∈ same.requires, (n.addPortFrom same .require p false).2.toOption.isSome) ∧
    (∀ p ∈ diff.requires, (n.addPortFrom diff .require p true).2.toOption.isNone) ∧
    same.requires.length = 1 ∧ diff.requires.length = 1 := by decide +kernel

example : noNode.portNames.Nodup := by decide +kernel

/-- A node with a port of the same name as one of `noNode`. -/
def noOther : Node := (Node.new ['O']).run [.addPort .require ['P'] ['C'] none, .addPort .provide ['Q'] ['L'] none]

example : ∃ p ∈ noOther.requires, ∃ q, noNode.portNamed p.name = some (.provide, q) := by
  have h : noOther.requires.any (fun p => match noNode.portNamed p.name with
    | some (.provide, _) => true
    | _ => false) = true := by decide +kernel
  rw [List.any_eq_true] at h
  obtain ⟨p, hp, h⟩ := h
  split at h
  · rename_i q hq
    exact ⟨p, hp, q, hq⟩
  · simp at h

/-! ### C45 -/

theorem nodeInv_resolvedIn {n : Node} (hi : NodeInv n) (m : Str) (t : Elem) (h : (⟨m, t⟩ : NamedType) ∈ n.named) :
    (Elem.refType m t).ResolvedIn n.named n.ids := by
  have huniq : ∀ u ∈ n.named, u.name = m → u = ⟨m, t⟩ := by
    intro u hu hn
    obtain ⟨x, hx, rfl⟩ := List.mem_map.mp hu
    obtain ⟨y, hy, hye⟩ := List.mem_map.mp h
    have hnames : x.name = y.name := by
      have : y.name = m := congrArg NamedType.name hye
      rw [this]; exact hn
    obtain ⟨i, hi1⟩ := List.getElem?_of_mem hx
    obtain ⟨j, hj1⟩ := List.getElem?_of_mem hy
    have hlt := (List.getElem?_eq_some_iff.mp hi1).1
    have hij : i = j := by
      have hni : (n.types.map TypeObj.name)[i]? = some x.name := by simp [hi1]
      have hnj : (n.types.map TypeObj.name)[j]? = some x.name := by simp [hj1, hnames]
      exact (List.getElem?_inj (by simpa using hlt) hi.names).mp (hni.trans hnj.symm)
    subst hij
    rw [hi1] at hj1
    simp only [Option.some.injEq] at hj1
    rw [hj1]; exact hye
  refine ⟨huniq, h, ?_⟩
  intro i hid
  unfold Node.ids at hid
  rw [Option.bind_eq_some_iff] at hid
  obtain ⟨u, hu, hid⟩ := hid
  rw [Option.map_eq_some_iff] at hid
  obtain ⟨k, hk, rfl⟩ := hid
  obtain ⟨hum, hun⟩ := typeNamed_some _ _ _ hu
  obtain ⟨j, hj⟩ := List.getElem?_of_mem hum
  have : k = j := by
    rcases hi.ids j u hj with h' | h' <;> rw [hk] at h' <;> simp at h'
    exact h'
  subst this
  refine ⟨Int.natCast_nonneg _, ?_⟩
  have hnm : u.named = ⟨m, t⟩ := huniq _ (List.mem_map.mpr ⟨u, hum, rfl⟩) hun
  show n.named[k]? = _
  unfold Node.named
  simp [hj, hnm]

mutual
theorem Elem.raw_noResolved (e : Elem) (h : e.Raw) : e.NoResolved := by
  match e with
  | .prim _ _ _ _ => trivial
  | .record fs _ => exact Fields.raw_noResolved fs h.2
  | .refType _ _ => exact h.elim
  | .refId _ => trivial
  | .refName _ => trivial
theorem Fields.raw_noResolved (fs : Fields) (h : fs.Raw) : fs.NoResolved := by
  match fs with
  | .nil => trivial
  | .cons _ e r => exact ⟨Elem.raw_noResolved e h.1, Fields.raw_noResolved r h.2⟩
end

/-- Printing, parsing and resolving a port gives the port back. -/
theorem reparse_port {n : Node} (hi : NodeInv n) (p : Port) (hp : PortInv n.named p) (hw : p.elem.WellFormed)
    (normalized : Bool) :
    ∃ s c, p.elem.toStr n.ids normalized = .ok s ∧ mkPort p.name s (p.attr.map PortAttr.str) = .ok c ∧
      c.name = p.name ∧ c.attr = p.attr ∧ c.id = none ∧ c.elem = p.elem.asWritten n.ids normalized ∧
      resolvePort n.named c = .ok { p with id := none } := by
  obtain ⟨s, h1, h2⟩ := Elem.parse_toStr_data n.ids normalized p.elem hw
  have ha : optArg portAttribute (p.attr.map PortAttr.str) = .ok p.attr := by
    cases hpa : p.attr with
    | none => rfl
    | some a => simp [optArg, hp.attr a hpa]
  refine ⟨s, ⟨p.name, p.elem.asWritten n.ids normalized, p.attr, none⟩, h1, ?_, rfl, rfl, rfl, rfl, ?_⟩
  · simp [mkPort, h2, ha]
  · cases hr : p.elem.isReference with
    | false =>
      have := Elem.asWritten_noResolved n.ids normalized p.elem (Elem.raw_noResolved _ (hp.raw hr))
      unfold resolvePort
      simp [this, hr]
    | true =>
      obtain ⟨m, t, he, hm, d, hd⟩ := hp.ref hr
      have h3 := Elem.resolve_asWritten n.named n.ids normalized p.elem
        (by rw [he]; exact nodeInv_resolvedIn hi m t hm)
      unfold resolvePort
      have : (p.elem.asWritten n.ids normalized).isReference = true := by
        rw [he]; simp only [Elem.asWritten]; split <;> rfl
      simp [this, resolveDsg, h3, hd]

theorem mirror_list {n : Node} (hi : NodeInv n) (side : Side) (ps : List Port) (hps : ∀ p ∈ ps, PortInv n.named p)
    (hw : ∀ p ∈ ps, p.elem.WellFormed) :
    ∃ l, mapPy (Port.mirror n.ids side) ps = .ok l ∧
      mapPy (resolvePort n.named) l = .ok (ps.map fun p => { p with id := none }) := by
  induction ps with
  | nil => exact ⟨[], rfl, rfl⟩
  | cons p ps ih =>
    obtain ⟨l, h1, h2⟩ := ih (fun q hq => hps q (by simp [hq])) (fun q hq => hw q (by simp [hq]))
    obtain ⟨s, c, h3, h4, _, _, _, _, h5⟩ := reparse_port hi p (hps p (by simp)) (hw p (by simp)) (side = .require)
    refine ⟨c :: l, ?_, ?_⟩
    · simp [mapPy, Port.mirror, h3, h4, h1]
    · simp [mapPy, h5, h2]

theorem mirror_eq {n : Node} (hi : NodeInv n) (name : Option Str)
    (hw : ∀ side, ∀ p ∈ n.ports side, p.elem.WellFormed) :
    n.mirror name = .ok ⟨name.getD n.name, false, n.types,
      n.provides.map fun p => { p with id := none }, n.requires.map fun p => { p with id := none }⟩ := by
  obtain ⟨l, h1, h2⟩ := mirror_list hi .provide n.provides (hi.ports .provide) (hw .provide)
  obtain ⟨l', h3, h4⟩ := mirror_list hi .require n.requires (hi.ports .require) (hw .require)
  unfold Node.mirror
  rw [h1, h3]
  simp only [ok_bind, Node.resolveTypes, Node.named] at *
  rw [h2, h4]
  rfl

/-- C45: if the ports' types are well-formed (no delimiters in names, record fields named, no type
numbers inside records), mirroring a node built through the API succeeds. The ports of each direction
are those of the other direction: same names, types and attributes in the same order. The types are
the same. Mirroring the mirror gives ports with the names, types and attributes of the original's. -/
theorem C45_mirror_partial (n : Node) (hb : n.Built) (name name' : Option Str)
    (hw : ∀ side, ∀ p ∈ n.ports side, p.elem.WellFormed) :
    ∃ m m', n.mirror name = .ok m ∧ m.mirror name' = .ok m' ∧
      m.name = name.getD n.name ∧ m'.name = name'.getD m.name ∧
      m.types = n.types ∧ m'.types = n.types ∧
      m.requires.map Port.content = n.provides.map Port.content ∧
      m.provides.map Port.content = n.requires.map Port.content ∧
      m'.requires.map Port.content = n.requires.map Port.content ∧
      m'.provides.map Port.content = n.provides.map Port.content := by
  have hm := mirror_eq hb.inv name hw
  have hi' := mirror_inv _ _ name hb.inv hm
  have hm' := mirror_eq hi' name' (by
    intro side p hp
    cases side with
    | require =>
      obtain ⟨q, hq, rfl⟩ := List.mem_map.mp hp
      exact hw .provide q hq
    | provide =>
      obtain ⟨q, hq, rfl⟩ := List.mem_map.mp hp
      exact hw .require q hq)
  refine ⟨_, _, hm, hm', rfl, rfl, rfl, rfl, ?_, ?_, ?_, ?_⟩ <;>
    simp [Port.content, Function.comp_def, List.map_map] <;> rfl

example : ∀ side, ∀ p ∈ noNode.ports side, p.elem.WellFormed := by
  have h : noNode.requires.map Port.elem = [.prim .u16 none none none, .refType ['T'] (.prim .u8 none none none)] ∧
      noNode.provides.map Port.elem = [.prim .u8 none none none] := by decide +kernel
  intro side p hp
  have : p.elem ∈ (noNode.ports side).map Port.elem := List.mem_map.mpr ⟨p, hp, rfl⟩
  cases side with
  | require =>
    simp only [Node.ports, h.1] at this
    simp only [List.mem_cons, List.not_mem_nil, or_false] at this
    rcases this with h | h <;> rw [h] <;> simp [Elem.WellFormed, RefNameOk]
  | provide =>
    simp only [Node.ports, h.2] at this
    simp only [List.mem_cons, List.not_mem_nil, or_false] at this
    rw [this]; simp [Elem.WellFormed]

/-- C45 fails for a port whose type is a record with a type number inside: the node accepts the port,
but cannot be mirrored. -/
example :
    let n := (Node.new ['N']).run [.addType ['T'] ['C'] none,
      .addPort .require ['A'] ['{', '"', 'x', '"', 'T', '[', '0', ']', '}'] none]
    n.requires.length = 1 ∧ (n.mirror none).toOption.isNone := by decide +kernel

/-- A record with a nameless field, which the parser of signatures accepts: the mirror has a field called `None`
(`C45_nameless_violated`). -/
example :
    let n := (Node.new ['N']).run [.addPort .require ['A'] ['{', 'C', '}'] none]
    n.requires.map Port.elem = [.record (.cons none (.prim .u8 none none none) .nil) none] ∧
    (n.mirror none).toOption.map (fun m => m.provides.map Port.elem)
      = some [.record (.cons (some ['N', 'o', 'n', 'e']) (.prim .u8 none none none) .nil) none] := by
  decide +kernel

/-! ### C46 -/

theorem step_earlier (n : Node) (op : NodeOp) (hop : ¬ op.Finalizes) (h : Earlier n) : Earlier (n.step op) := by
  have hports : ∀ n n' : Node, ∀ side p q, n.addPort side p = .ok (n', q) → Earlier n → Earlier n' := by
    intro n n' side p q hadd h
    obtain ⟨_, rfl⟩ := addPort_cases _ _ _ _ _ hadd
    unfold Earlier
    rw [setPorts_types]
    exact h
  have hcopy : ∀ (src n : Node) side p ig, Earlier n → Earlier (n.addPortFrom src side p ig).1 := by
    intro src n side p ig h
    have hr := addPortFrom_result n src side p ig
    cases h' : n.addPortFrom src side p ig with
    | mk m r =>
      rw [h'] at hr
      cases hr with
      | existing q => exact h
      | failed _ x hg _ => exact hg.earlier h
      | added m m' c q _ hg _ _ _ _ hadd => exact hports _ _ _ _ _ hadd (hg.earlier h)
  cases op with
  | addType name dsg attr =>
    simp only [Node.step]
    split
    · rename_i n' t ht
      rw [bind_ok_iff] at ht
      obtain ⟨c, h1, h2⟩ := ht
      exact (addType_grows _ _ _ _ h2 (mkType_facts _ _ _ _ h1).2.1).1.earlier h
    · exact h
  | addPort side name dsg attr =>
    simp only [Node.step]
    split
    · rename_i n' q hq
      rw [bind_ok_iff] at hq
      obtain ⟨c, _, h2⟩ := hq
      exact hports _ _ _ _ _ h2 h
    · exact h
  | append text =>
    simp only [Node.step]
    split
    · rename_i n' q hq
      obtain ⟨side, name, dsg, attr, p, _, h2⟩ := appendText_cases _ _ _ _ hq
      exact hports _ _ _ _ _ h2 h
    · exact h
  | addPortFrom src side p ig => exact hcopy src n side p ig h
  | extend src => exact extend_ind Earlier src (fun n side p h => hcopy src n side p false h) n h
  | finalize _ _ => exact absurd trivial hop
  | mirror name =>
    simp only [Node.step]
    split
    · rename_i n' hm
      have := (mirror_ok _ _ _ hm).2.2.1
      unfold Earlier
      rw [this]; exact h
    · exact h

theorem run_earlier (ops : List NodeOp) (n : Node) (hops : ∀ op ∈ ops, ¬ op.Finalizes) (h : Earlier n) :
    Earlier (n.run ops) := by
  unfold Node.run
  induction ops generalizing n with
  | nil => exact h
  | cons op ops ih => exact ih _ (fun o ho => hops o (by simp [ho])) (step_earlier n op (hops op (by simp)) h)

/-- C46: in any history before the node is finalized, every reference inside a type is resolved and
points to a type added earlier. -/
theorem C46_earlier (name : Str) (ops : List NodeOp) (hops : ∀ op ∈ ops, ¬ op.Finalizes) (i : Nat) (t : TypeObj)
    (h : ((Node.new name).run ops).types[i]? = some t) :
    t.elem.RefsIn ((((Node.new name).run ops).types.take i).map TypeObj.named) :=
  run_earlier ops _ hops (by intro i t h; simp [Node.new] at h) i t h

/-- C46: in any history, finalizing included, every type has a defined length, the sum of the sizes of
its leaves, and so has every port that refers to a type. -/
theorem C46_length_defined (n : Node) (hb : n.Built) :
    (∀ t ∈ n.types, ∃ ls, t.elem.leaves = some ls ∧ t.elem.packLen = .ok (totalSize ls)) ∧
    (∀ side, ∀ p ∈ n.ports side, p.elem.isReference = true →
      ∃ t ∈ n.types, p.elem = .refType t.name t.elem ∧ p.elem.packLen = t.elem.packLen ∧
        ∃ d, p.elem.resolveDataElement = .ok d) := by
  have hi := hb.inv
  constructor
  · intro t ht
    obtain ⟨ls, hl⟩ := hi.leaves t ht
    exact ⟨ls, hl, packLen_leaves _ _ hl⟩
  · intro side p hp hr
    obtain ⟨m, t, h1, h2, h3⟩ := (hi.ports side p hp).ref hr
    obtain ⟨u, hu, he⟩ := List.mem_map.mp h2
    simp only [TypeObj.named, NamedType.mk.injEq] at he
    obtain ⟨rfl, rfl⟩ := he
    obtain ⟨ls, hl⟩ := hi.leaves u hu
    refine ⟨u, hu, h1, ?_, h3⟩
    rw [h1, packLen_leaves _ ls hl, packLen_leaves _ ls (by simpa [Elem.leaves] using hl)]

theorem resolveLoop_chain (names : List Str) (d : Elem) (hd : d.isReference = false) (k : Nat) :
    (refChain names d).resolveLoop k = if names.length ≤ k then .ok d else .error .runtimeError := by
  induction names generalizing k with
  | nil => cases d <;> cases k <;> simp_all [refChain, Elem.resolveLoop, Elem.isReference]
  | cons a names ih =>
    cases k with
    | zero => simp [refChain, Elem.resolveLoop]
    | succ k =>
      have := ih k
      simp only [refChain] at this
      simp only [refChain, List.foldr_cons, Elem.resolveLoop, this, List.length_cons, Nat.add_le_add_iff_right]

/-- C46, how deep references may go: an element that reaches a data element that is not a reference through
a chain of references is resolved to it if there are at most ten of them; otherwise RuntimeError is
raised, and so it is when asked whether it is an array. -/
theorem C46_depth (names : List Str) (d : Elem) (hd : d.isReference = false) :
    (refChain names d).resolveDataElement = (if names.length ≤ 10 then .ok d else .error .runtimeError) ∧
    (refChain names d).isArray =
      (if names.length ≤ 10 then .ok d.arrayLen.isSome else .error .runtimeError) := by
  have h : (refChain names d).resolveDataElement =
      (if names.length ≤ 10 then .ok d else .error .runtimeError) := resolveLoop_chain names d hd 10
  refine ⟨h, ?_⟩
  rw [Elem.isArray, h]
  split <;> rfl

example : (Elem.prim .u8 none none (some 3)).isReference = false ∧
    (refChain [['A'], ['B']] (.prim .u8 none none (some 3))) =
      .refType ['A'] (.refType ['B'] (.prim .u8 none none (some 3))) := by decide +kernel

/-- C46: adding a type (of a new name) whose text mentions, at any depth, a type name that does not
exist, or a number outside the list, raises and leaves the node unchanged; so does adding a port that
refers to one. -/
theorem C46_unknown_raises (n : Node) (name dsg : Str) (attr : Option Str) (e r : Elem)
    (hd : dataSignature dsg = .ok e) (hr : Unknown n.named r) :
    (Elem.Mentions r e → (∀ t ∈ n.types, t.name ≠ name) →
      (∃ x, (mkType name dsg attr >>= n.addType) = .error x) ∧ n.step (.addType name dsg attr) = n) ∧
    (∀ side, e = r →
      (∃ x, (mkPort name dsg attr >>= n.addPort side) = .error x) ∧ n.step (.addPort side name dsg attr) = n) := by
  constructor
  · intro hm hn
    have key : ∃ x, (mkType name dsg attr >>= n.addType) = .error x := by
      cases hk : mkType name dsg attr with
      | error x => exact ⟨x, rfl⟩
      | ok t =>
        obtain ⟨f1, _, _, _, f2, _, _⟩ := mkType_facts _ _ _ _ hk
        rw [hd] at f2
        simp only [Except.ok.injEq] at f2
        subst f2
        obtain ⟨x, hx⟩ := Elem.resolve_unknown n.named r hr t.elem hm
        have : n.typeNamed t.name = none := by
          unfold Node.typeNamed
          rw [List.find?_eq_none]
          intro u hu
          simpa [f1] using hn u hu
        exact ⟨x, by simp [Node.addType, this, resolveDsg, hx]⟩
    refine ⟨key, ?_⟩
    obtain ⟨x, hx⟩ := key
    simp only [Node.step, hx]
  · intro side he
    subst he
    have key : ∃ x, (mkPort name dsg attr >>= n.addPort side) = .error x := by
      cases hk : mkPort name dsg attr with
      | error x => exact ⟨x, rfl⟩
      | ok p =>
        obtain ⟨f1, _, _, f2, _, _⟩ := mkPort_facts _ _ _ _ hk
        rw [hd] at f2
        simp only [Except.ok.injEq] at f2
        have hmen : Elem.Mentions e e := by
          cases e with
          | record => exact hr.elim
          | prim => exact hr.elim
          | refType => exact hr.elim
          | refId => rfl
          | refName => rfl
        obtain ⟨x, hx⟩ := Elem.resolve_unknown n.named e hr e hmen
        have hre : e.isReference = true := by
          cases e with
          | record => exact hr.elim
          | prim => exact hr.elim
          | refType => exact hr.elim
          | refId => rfl
          | refName => rfl
        exact ⟨x, by simp [Node.addPort, resolvePort, hre, resolveDsg, ← f2, hx]⟩
    refine ⟨key, ?_⟩
    obtain ⟨x, hx⟩ := key
    simp only [Node.step, hx]

/-- A chain of types: a record referring by name and by number. -/
def noChain : List NodeOp :=
  [.addType ['A'] ['C'] none, .addType ['B'] ['S'] none,
   .addType ['R'] ['{', '"', 'x', '"', 'T', '[', '"', 'B', '"', ']', '"', 'y', '"', 'T', '[', '0', ']', '}'] none]

example : (∀ op ∈ noChain, ¬ op.Finalizes) ∧ ((Node.new ['N']).run noChain).types.map TypeObj.elem =
    [.prim .u8 none none none, .prim .u16 none none none,
     .record (.cons (some ['x']) (.refType ['B'] (.prim .u16 none none none))
       (.cons (some ['y']) (.refType ['A'] (.prim .u8 none none none)) .nil)) none] := by
  refine ⟨by simp [noChain, NodeOp.Finalizes], by decide +kernel⟩

example : dataSignature ['{', '"', 'x', '"', 'T', '[', '7', ']', '}']
      = .ok (.record (.cons (some ['x']) (.refId 7) .nil) none) ∧
    Unknown noNode.named (.refId 7) ∧
    Elem.Mentions (.refId 7) (.record (.cons (some ['x']) (.refId 7) .nil) none) := by
  refine ⟨by decide +kernel, ?_, Or.inl rfl⟩
  have : noNode.named.length = 1 := by decide +kernel
  simp only [Unknown, this]; omega

/-- C46 is violated by negative numbers: `T[-1]` denotes no type, but is accepted and resolves to the
type added last. -/
example :
    ((Node.new ['N']).run [.addType ['A'] ['C'] none, .addType ['B'] ['T', '[', '-', '1', ']'] none]).types.map
      TypeObj.elem = [.prim .u8 none none none, .refType ['A'] (.prim .u8 none none none)] := by
  decide +kernel

/-- Finalizing sorts types by name, and a type can then come before a type it refers to (`C46_sorted_violated`). -/
example :
    let n := (Node.new ['N']).run [.addType ['B'] ['C'] none,
      .addType ['A'] ['{', '"', 'x', '"', 'T', '[', '"', 'B', '"', ']', '}'] none, .finalize false false]
    n.types.map TypeObj.elem = [.record (.cons (some ['x']) (.refType ['B'] (.prim .u8 none none none)) .nil) none,
      .prim .u8 none none none] := by
  decide +kernel

end Apx
