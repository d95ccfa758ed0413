import Verif.Proofs.Partition
import Verif.Spec.Context
import Verif.Props.ImportText

/-! C83: contexts made from partitions. -/

namespace Apx

/-- C83, a component in which no two data types share a name: its node in a context can be made if and only if
the component can be imported; both have the same name and the same ports, and their types have the same names,
layouts and attributes (in another order, maybe). -/
theorem C83_node_partial (ceilLog : Nat → Nat) (ws : Workspace) (swc : AComponent) (hc : ws.Consistent swc) :
    ((∃ m, partitionNode ceilLog ws swc = .ok m) ↔ ∃ n, Node.fromSwc ceilLog ws swc none = .ok n) ∧
    ∀ m n, partitionNode ceilLog ws swc = .ok m → Node.fromSwc ceilLog ws swc none = .ok n →
      m.name = n.name ∧ (∀ side, m.ports side = n.ports side) ∧ (m.types.map TypeObj.said).Perm (n.types.map TypeObj.said) := by
  refine ⟨(partitionNode_iff hc).trans (fromSwc_iff hc none).symm, fun m n hm hn => ?_⟩
  obtain ⟨i1, e1⟩ := partitionNode_inv hm
  obtain ⟨i2, e2⟩ := fromSwc_inv hn
  exact ⟨by rw [e1, e2]; rfl, inv_same (consistent_on hc) i1 i2⟩

/-- The nodes of a context, one after the other. -/
theorem contextFromPartition_ok (c : Nat → Nat) (ws : Workspace) (parts : List APartComponent) :
    contextFromPartition c ws parts = mapPy (partitionNode c ws) (applications parts) := by
  induction parts with
  | nil => rfl
  | cons p l ih =>
    obtain ⟨swc, app⟩ := p
    cases swc with
    | none =>
      have : applications (⟨none, app⟩ :: l) = applications l := by cases app <;> simp [applications]
      rw [this, ← ih]
      cases app <;> simp [contextFromPartition]
    | some swc =>
      cases app with
      | false => rw [show applications (⟨some swc, false⟩ :: l) = applications l by simp [applications], ← ih]; simp [contextFromPartition]
      | true =>
        rw [show applications (⟨some swc, true⟩ :: l) = swc :: applications l by simp [applications]]
        simp only [contextFromPartition, mapPy, ih]

theorem mapPy_all_iff {α β : Type} (f : α → Py β) (l : List α) : (∃ r, mapPy f l = .ok r) ↔ ∀ x ∈ l, ∃ y, f x = .ok y := by
  induction l with
  | nil => simp [mapPy]
  | cons x l ih =>
    simp only [mapPy, bind_ok_iff, List.mem_cons, forall_eq_or_imp, ← ih]
    constructor
    · rintro ⟨r, y, h1, ys, h2, _⟩; exact ⟨⟨y, h1⟩, ys, h2⟩
    · rintro ⟨⟨y, h1⟩, ys, h2⟩; exact ⟨_, y, h1, ys, h2, rfl⟩

theorem mapPy_get {α β : Type} (f : α → Py β) (l : List α) (r : List β) (h : mapPy f l = .ok r) :
    r.length = l.length ∧ ∀ (i : Nat) (x : α) (y : β), l[i]? = some x → r[i]? = some y → f x = .ok y := by
  induction l generalizing r with
  | nil => simp only [mapPy, Except.ok.injEq] at h; subst h; simp
  | cons x l ih =>
    simp only [mapPy, bind_ok_iff, Except.ok.injEq] at h
    obtain ⟨y, h1, ys, h2, rfl⟩ := h
    obtain ⟨h3, h4⟩ := ih ys h2
    refine ⟨by simp [h3], fun i a b ha hb => ?_⟩
    cases i with
    | zero => simp at ha hb; rw [← ha, ← hb]; exact h1
    | succ i => exact h4 i a b (by simpa using ha) (by simpa using hb)

/-- C83: a context can be made from a partition if and only if every application component of the partition can be
imported. It has one node for each of them, in the order of the partition, and none for other components; each node has
the name of the component, and its ports and types are those that the import of the component gives.
Missing from the full property: components with two data types of the same name. -/
theorem C83_context_partial (ceilLog : Nat → Nat) (ws : Workspace) (parts : List APartComponent)
    (hc : ∀ swc ∈ applications parts, ws.Consistent swc) :
    ((∃ nodes, contextFromPartition ceilLog ws parts = .ok nodes) ↔
      ∀ swc ∈ applications parts, ∃ n, Node.fromSwc ceilLog ws swc none = .ok n) ∧
    ∀ nodes, contextFromPartition ceilLog ws parts = .ok nodes →
      nodes.length = (applications parts).length ∧
      ∀ (i : Nat) (m : Node) (swc : AComponent), nodes[i]? = some m → (applications parts)[i]? = some swc →
        ∃ n, Node.fromSwc ceilLog ws swc none = .ok n ∧ m.name = swc.name ∧ (∀ side, m.ports side = n.ports side) ∧
          (m.types.map TypeObj.said).Perm (n.types.map TypeObj.said) := by
  rw [contextFromPartition_ok]
  refine ⟨?_, fun nodes hn => ?_⟩
  · rw [mapPy_all_iff]
    constructor
    · intro h swc hs; exact (C83_node_partial ceilLog ws swc (hc swc hs)).1.mp (h swc hs)
    · intro h swc hs; exact (C83_node_partial ceilLog ws swc (hc swc hs)).1.mpr (h swc hs)
  · obtain ⟨h1, h2⟩ := mapPy_get _ _ _ hn
    refine ⟨h1, fun i m swc hm hs => ?_⟩
    have hp := h2 i swc m hs hm
    have hcs := hc swc (List.mem_of_getElem? hs)
    obtain ⟨h3, h4⟩ := C83_node_partial ceilLog ws swc hcs
    obtain ⟨n, hn⟩ := h3.mp ⟨m, hp⟩
    obtain ⟨h5, h6, h7⟩ := h4 m n hp hn
    exact ⟨n, hn, (partitionNode_inv hp).2, h6, h7⟩

/-- C83: the definition text of a node of a context can be loaded by either function and says the same, if the names
and texts of the component can be written. -/
theorem C83_text (ceilLog : Nat → Nat) (hc : Accurate ceilLog) (ws : Workspace) (swc : AComponent)
    (h : Importable ws swc) (hl : Legible ws swc none) (n : Node) (hn : partitionNode ceilLog ws swc = .ok n) (normalized : Bool) :
    ∃ text m, n.definitionText normalized = .ok text ∧
      (∀ st : Parser, (st.loads text).2 = .ok m ∧ (st.load text).2 = .ok m) ∧
      m.name = n.name ∧ m.types.map TypeObj.said = n.types.map TypeObj.said ∧
      (∀ side, (m.ports side).map Port.content = (n.ports side).map Port.content) := by
  obtain ⟨hi, hname⟩ := partitionNode_inv hn
  obtain ⟨text, m, h1, h2, h3, h4, h5, _⟩ := importText_text (inv_text (name := none) hc h hl hi hname) normalized
  exact ⟨text, m, h1, h2, h3, h4, h5⟩

example : (contextFromPartition exactCeilLog imWs [⟨none, true⟩, ⟨some imSwc, false⟩, ⟨some imSwc, true⟩]).map
      (fun nodes => nodes.map fun n => (n.name, n.types.map TypeObj.name, n.requires.map Port.name, n.provides.map Port.name)) =
    .ok [("Swc".toList, ["Speed".toList, "Status".toList], ["VehSpeed".toList, "Lamp".toList], ["OutSpeed".toList])] := by
  decide +kernel

end Apx
