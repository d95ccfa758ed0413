import Verif.Props.GeneratorMore

/-! C53: nodes that have not been finalized. -/

namespace Apx

/-- The signals have the names of the ports. -/
theorem genSignals_names {side : Side} {types : List NamedType} (ports : List Port) :
    ∀ (offset : Nat) (ss : List Signal), genSignals side types offset ports = .ok ss →
      ss.map Signal.name = ports.map Port.name := by
  induction ports with
  | nil =>
    intro offset ss h
    simp only [genSignals, Except.ok.injEq] at h
    subst h
    rfl
  | cons p ports ih =>
    intro offset ss h
    simp only [genSignals, bind_ok_iff, Except.ok.injEq] at h
    obtain ⟨s, h1, r, h2, rfl⟩ := h
    have hs : s.name = p.name := by
      unfold genSignal at h1
      simp only [bind_ok_iff] at h1
      obtain ⟨-, -, -, -, k, -, e, -, h5⟩ := h1
      unfold mkSignal at h5
      rw [bind_ok_iff] at h5
      obtain ⟨b, -, h6⟩ := h5
      split at h6
      · cases h6
        rfl
      · cases h6
    simp [hs, ih _ _ h2]

/-- Names that are sorted cannot be those of ports that are not. -/
theorem unsorted_apart {ss : List Signal} {ports : List Port} (hs : (ss.map Signal.name) = (sortedByName Port.name ports).map Port.name)
    (hu : ¬ SortedByName Port.name ports) (rs : List PortRange) :
    ss.map (fun s => (s.name, s.offset, s.packLen)) ≠ (ports.zip rs).map (fun pr => (pr.1.name, pr.2.offset, pr.2.len)) := by
  intro h
  have hn : ss.map Signal.name = (ports.zip rs).map (fun pr => pr.1.name) := by
    have := congrArg (List.map Prod.fst) h
    simpa [List.map_map, Function.comp_def] using this
  have hlen : ports.length = (ports.zip rs).length := by
    have h1 := congrArg List.length hs
    have h2 := congrArg List.length hn
    simp only [List.length_map, (sortedByName_perm Port.name ports).length_eq] at h1 h2
    omega
  have hz : (ports.zip rs).map Prod.fst = ports := by
    rw [List.map_fst_zip]
    rw [List.length_zip] at hlen
    omega
  have hp : (sortedByName Port.name ports).map Port.name = ports.map Port.name := by
    rw [← hs, hn]
    conv => rhs; rw [← hz]
    simp [List.map_map, Function.comp_def]
  have hsorted := sortedByName_sorted Port.name ports
  apply hu
  unfold SortedByName at hsorted ⊢
  rw [← List.pairwise_map (f := Port.name) (R := fun a b => a ≤ b)] at hsorted ⊢
  rw [← hp]
  exact hsorted

/-- C53 is violated by every node that was not finalized and whose ports are not in the order of their names: the
generator sorts the ports first, so its layout differs from that of the node data built for the same node. -/
theorem C53_sorted_violated (n : Node) (hb : n.Built) (hf : n.isFinalized = false) (g : Generated)
    (hg : generate n = .ok g) (nd : NodeData) (_ : n.nodeData = .ok nd) :
    (¬ SortedByName Port.name n.requires → g.require.map (fun s => (s.name, s.offset, s.packLen)) ≠
      (n.requires.zip nd.inRanges).map (fun pr => (pr.1.name, pr.2.offset, pr.2.len))) ∧
    (¬ SortedByName Port.name n.provides → g.provide.map (fun s => (s.name, s.offset, s.packLen)) ≠
      (n.provides.zip nd.outRanges).map (fun pr => (pr.1.name, pr.2.offset, pr.2.len))) := by
  unfold generate at hg
  simp only [bind_ok_iff] at hg
  obtain ⟨n', h1, rs, h2, ps, h3, o, -, i, -, h6⟩ := hg
  cases h6
  unfold Node.finalizeForGenerator at h1
  rw [if_neg (by simp [hf]), finalize_eq n true false hb.inv.toNodeInv0 hf] at h1
  have h1 := Except.ok.inj h1
  subst h1
  exact ⟨fun hu => unsorted_apart (genSignals_names _ _ _ h2) hu _, fun hu => unsorted_apart (genSignals_names _ _ _ h3) hu _⟩

/-- The hypotheses are met, and the initial data differ. -/
example : ((Node.new ['N']).run geOps).Built ∧ ((Node.new ['N']).run geOps).isFinalized = false ∧
    ¬ SortedByName Port.name ((Node.new ['N']).run geOps).provides ∧
    (match generate ((Node.new ['N']).run geOps), ((Node.new ['N']).run geOps).nodeData with
    | .ok g, .ok nd => decide (g.outInit = [0, 0, 2, 1] ∧ fileBytes nd.outFile = [2, 1, 0, 0] ∧
        g.provide.map (fun s => (s.name, s.offset)) = [(['O'], 0), (['P'], 2)])
    | _, _ => false) = true := by
  refine ⟨⟨_, _, rfl⟩, by decide +kernel, ?_, by decide +kernel⟩
  unfold SortedByName
  rw [← List.pairwise_map (f := Port.name) (R := fun a b => a ≤ b),
    show ((Node.new ['N']).run geOps).provides.map Port.name = [['P'], ['O']] by decide +kernel]
  decide

end Apx
