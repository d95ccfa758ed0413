import Verif.Model.Context
import Verif.Proofs.Import2

/-! Nodes of partitions. -/

namespace Apx

theorem appendPorts_eq (c : Nat → Nat) (ws : Workspace) (side : Side) (l : List APort) (n : Node) :
    n.appendPorts c ws side l = n.addAutosarPorts c ws side l := by
  induction l generalizing n with
  | nil => rfl
  | cons p l ih =>
    unfold Node.appendPorts Node.addAutosarPorts
    split
    · split <;> rename_i h <;> simp only [h, ih]
    · rename_i h
      have hu : n.updateDataType c ws p = .ok (n, none) := by
        unfold Node.updateDataType
        split
        · rename_i ref hr; exact absurd hr (h ref [])
        · rename_i a b r hr; exact absurd hr (h a (b :: r))
        · rfl
      have : n.addAutosarPort c ws side p = (n, .ok none) := by
        unfold Node.addAutosarPort; simp only [hu]
      simp only [this, ih]

/-- Data types with the same name are the same, among these ports. -/
def ConsistentOn (ws : Workspace) (l : List APort) : Prop :=
  ∀ p ∈ l, ∀ p' ∈ l, ∀ name t t', ws.typeOf p = some (name, t) → ws.typeOf p' = some (name, t') → t = t'

theorem ConsistentOn.mono {ws : Workspace} {l r : List APort} (h : ConsistentOn ws r) (hs : ∀ x ∈ l, x ∈ r) : ConsistentOn ws l :=
  fun p hp p' hp' => h p (hs p hp) p' (hs p' hp')

theorem consistent_on {ws : Workspace} {swc : AComponent} (h : ws.Consistent swc) :
    ConsistentOn ws (swc.requires ++ swc.provides) := by
  have key : ∀ p ∈ swc.requires ++ swc.provides, ∃ side, p ∈ swc.ports side := by
    intro p hp
    rcases List.mem_append.mp hp with hp | hp
    · exact ⟨.require, hp⟩
    · exact ⟨.provide, hp⟩
  intro p hp p' hp' name t t' h1 h2
  obtain ⟨s, hs⟩ := key p hp
  obtain ⟨s', hs'⟩ := key p' hp'
  exact h s s' p p' name t t' hs hs' h1 h2

/-- A port that can be added. -/
def APort.Fine (c : Nat → Nat) (ws : Workspace) (p : APort) : Prop :=
  (∀ n : Node, n.updateDataType c ws p = .ok (n, none)) ∨
  ∃ tn a e d s x, ws.typeOf p = some (tn, a) ∧ a.element c = .ok e ∧ (Elem.refType tn e).resolveDataElement = .ok d ∧
    p.attribute ws = .ok s ∧ optArg portAttribute s = .ok x

/-- The element of a type of the node is that of the data type with its name. -/
theorem inv_elem {c : Nat → Nat} {ws : Workspace} {rs ps : List APort} {n : Node} (hi : ImportInv c ws rs ps n)
    {l : List APort} (hc : ConsistentOn ws l) (hs : ∀ x ∈ rs ++ ps, x ∈ l) {p : APort} (hp : p ∈ l) {tn : Str} {a : AType}
    (ht : ws.typeOf p = some (tn, a)) {t : TypeObj} (hm : t ∈ n.types) (hn : t.name = tn) : a.element c = .ok t.elem := by
  obtain ⟨x, hx, b, h1, h2, _⟩ := hi.origin t hm
  rw [hn] at h1
  have := hc p hp x (hs x hx) tn a b ht h1
  subst this
  exact h2

theorem addAutosarPort_iff {c : Nat → Nat} {ws : Workspace} {rs ps : List APort} {n : Node} {side : Side} {p : APort}
    (hi : ImportInv c ws rs ps n) {l : List APort} (hc : ConsistentOn ws l) (hs : ∀ x ∈ rs ++ ps, x ∈ l) (hp : p ∈ l) :
    (∃ m r, n.addAutosarPort c ws side p = (m, .ok r)) ↔ p.Fine c ws := by
  constructor
  · rintro ⟨m, r, h⟩
    cases ht : ws.typeOf p with
    | none =>
      left
      intro k
      unfold Node.addAutosarPort at h
      unfold Workspace.typeOf at ht
      unfold Node.updateDataType
      unfold Node.updateDataType at h
      split
      · rename_i ref hr
        rw [hr] at h ht
        simp only [] at h ht
        split at ht
        · simp at ht
        · rename_i hd
          split
          · rename_i h0; simp [h0] at h
          · rename_i name t h0; exact absurd h0 (hd name t)
          · rename_i x h0 h1
            simp only [h1] at h
            cases x <;> simp at h
      · rename_i a b r' hr
        simp [hr] at h
      · rfl
    | some ta =>
      obtain ⟨tn, a⟩ := ta
      right
      have hi' := (addAutosarPort_inv hi h).1
      have hs' : ∀ x ∈ (addSide side rs ps p).1 ++ (addSide side rs ps p).2, x ∈ l := by
        intro x hx
        have hx : x ∈ (addSides side rs ps [p]).1 ++ (addSides side rs ps [p]).2 := by
          cases side <;> simpa [addSides, addSide] using hx
        rcases addSides_mem hx with hx | hx
        · exact hs x hx
        · simp only [List.mem_singleton] at hx; subst hx; exact hp
      have key : ∀ ys qs, PortLinks ws m.named (ys ++ [p]) qs → ∃ q i, PortLink ws m.named p q i := by
        intro ys qs hl
        have hf : (ys ++ [p]).filter (fun p => (ws.typeOf p).isSome) = ys.filter (fun p => (ws.typeOf p).isSome) ++ [p] := by
          simp [List.filter_append, ht]
        obtain ⟨h1, h2⟩ := hl
        rw [hf] at h1 h2
        have hlt : (ys.filter (fun p => (ws.typeOf p).isSome)).length < qs.length := by rw [h1]; simp
        exact ⟨_, _, h2 _ p _ (by simp) (List.getElem?_eq_getElem hlt)⟩
      obtain ⟨q, i, hl⟩ : ∃ q i, PortLink ws m.named p q i := by
        cases side with
        | require => exact key rs _ hi'.req
        | provide => exact key ps _ hi'.prov
      obtain ⟨tn', a', e, h1, h2, h3, d, h4⟩ := hl.elem
      rw [ht] at h1
      simp only [Option.some.injEq, Prod.mk.injEq] at h1
      obtain ⟨rfl, rfl⟩ := h1
      obtain ⟨s, h5, h6⟩ := hl.attr
      obtain ⟨t, hm, he⟩ := List.mem_map.mp h3
      simp only [TypeObj.named, NamedType.mk.injEq] at he
      have := inv_elem hi' hc hs' hp ht hm he.1
      rw [he.2] at this
      rw [h2] at h4
      exact ⟨tn, a, e, d, s, _, ht, this, h4, h5, h6⟩
  · rintro (h | ⟨tn, a, e, d, s, x, h1, h2, h3, h4, h5⟩)
    · refine ⟨n, none, ?_⟩
      unfold Node.addAutosarPort
      simp only [h]
    · obtain ⟨ref, hr, hd⟩ := typeOf_some h1
      have hty : ∃ m t, n.importType c ws tn a = .ok (m, t) ∧ t.elem = e := by
        unfold Node.importType
        split
        · rename_i item hf
          obtain ⟨k1, k2⟩ := typeNamed_some _ _ _ hf
          refine ⟨_, _, rfl, ?_⟩
          have := inv_elem hi hc hs hp h1 k1 k2
          rw [h2] at this
          simp only [Except.ok.injEq] at this
          exact this.symm
        · simp only [h2, ok_bind]
          exact ⟨_, _, rfl, rfl⟩
      obtain ⟨m, t, hm, hte⟩ := hty
      have hadd := importType_added hm
      have hu : n.updateDataType c ws p = .ok (m, some t) := by
        unfold Node.updateDataType
        simp only [hr, hd, hm, ok_bind]
      have himp : ∃ m' q, m.addImported ws side p t = .ok (m', q) := by
        obtain ⟨k, hk⟩ := List.getElem?_of_mem hadd.mem
        have hid := hadd.ids hi.ids k t hk
        unfold Node.addImported
        simp only [h4, ok_bind, hid, idText, mkPort, typeNumber_element, h5, Node.addPort, resolvePort, Elem.isReference, if_true,
          resolveDsg, Elem.resolveType, pyIndex_ofNat, Node.named, List.getElem?_map, hk, Option.map_some,
          TypeObj.named, hte, hadd.tname, h3]
        exact ⟨_, _, rfl⟩
      obtain ⟨m', q, hq⟩ := himp
      refine ⟨m', some q, ?_⟩
      unfold Node.addAutosarPort
      simp only [hu, hq]

theorem addAutosarPorts_iff {c : Nat → Nat} {ws : Workspace} (r : List APort) {rs ps : List APort} {n : Node} {side : Side}
    (hi : ImportInv c ws rs ps n) {l : List APort} (hc : ConsistentOn ws l) (hs : ∀ x ∈ rs ++ ps, x ∈ l) (hr : ∀ x ∈ r, x ∈ l) :
    (∃ m, n.addAutosarPorts c ws side r = (m, .ok ())) ↔ ∀ p ∈ r, p.Fine c ws := by
  induction r generalizing rs ps n with
  | nil => simp [Node.addAutosarPorts]
  | cons p r ih =>
    have hp := hr p (by simp)
    have hiff := addAutosarPort_iff (side := side) hi hc hs hp
    unfold Node.addAutosarPorts
    cases h : n.addAutosarPort c ws side p with
    | mk m res =>
      cases res with
      | error x =>
        simp only [List.mem_cons, forall_eq_or_imp]
        constructor
        · rintro ⟨_, h'⟩; simp at h'
        · rintro ⟨hf, _⟩
          obtain ⟨m', r', h'⟩ := hiff.mpr hf
          rw [h] at h'; simp at h'
      | ok q =>
        have hf := hiff.mp ⟨m, q, h⟩
        have hi' := (addAutosarPort_inv hi h).1
        have := ih hi' (by
          intro x hx
          have hx : x ∈ (addSides side rs ps [p]).1 ++ (addSides side rs ps [p]).2 := by
            cases side <;> simpa [addSides, addSide] using hx
          rcases addSides_mem hx with hx | hx
          · exact hs x hx
          · simp only [List.mem_singleton] at hx; subst hx; exact hp) (fun x hx => hr x (by simp [hx]))
        simp only [this, List.mem_cons, forall_eq_or_imp, hf, true_and]

theorem fromSwc_iff {c : Nat → Nat} {ws : Workspace} {swc : AComponent} (hc : ws.Consistent swc) (name : Option Str) :
    (∃ n, Node.fromSwc c ws swc name = .ok n) ↔ ∀ p ∈ swc.requires ++ swc.provides, p.Fine c ws := by
  have hl := consistent_on hc
  have i0 := importInv_new c ws (name.getD swc.name)
  have e0 : ({ Node.new [] with name := name.getD swc.name } : Node) = Node.new (name.getD swc.name) := rfl
  have hp := addAutosarPorts_iff (side := .provide) swc.provides i0 hl (by simp) (by intro x hx; simp [hx])
  have hq : ∀ m, (Node.new (name.getD swc.name)).addAutosarPorts c ws .provide swc.provides = (m, .ok ()) →
      ((∃ k, m.addAutosarPorts c ws .require swc.requires = (k, .ok ())) ↔ ∀ p ∈ swc.requires, p.Fine c ws) := by
    intro m hm
    have i1 := (addAutosarPorts_inv _ i0 hm).1
    simp only [addSides, List.nil_append] at i1
    exact addAutosarPorts_iff swc.requires i1 hl (by intro x hx; rw [List.nil_append] at hx; simp [hx]) (by intro x hx; simp [hx])
  constructor
  · rintro ⟨n, hn⟩ p hpm
    unfold Node.fromSwc Node.importSwc at hn
    rw [e0] at hn
    cases h1 : (Node.new (name.getD swc.name)).addAutosarPorts c ws .provide swc.provides with
    | mk m r =>
      cases r with
      | error x => simp [h1] at hn
      | ok u =>
        simp only [h1] at hn
        cases h2 : m.addAutosarPorts c ws .require swc.requires with
        | mk k r2 =>
          cases r2 with
          | error x => simp [h2, Node.finishImport] at hn
          | ok u2 =>
            rcases List.mem_append.mp hpm with hpm | hpm
            · exact (hq m h1).mp ⟨k, h2⟩ p hpm
            · exact hp.mp ⟨m, h1⟩ p hpm
  · intro hf
    obtain ⟨m, h1⟩ := hp.mpr (fun p hpm => hf p (by simp [hpm]))
    obtain ⟨k, h2⟩ := (hq m h1).mpr (fun p hpm => hf p (by simp [hpm]))
    have i1 := (addAutosarPorts_inv _ i0 h1).1
    simp only [addSides, List.nil_append] at i1
    have i2 := (addAutosarPorts_inv _ i1 h2).1
    simp only [addSides, List.nil_append] at i2
    refine ⟨k, ?_⟩
    unfold Node.fromSwc Node.importSwc
    rw [e0]
    simp only [h1, h2, Node.finishImport, importInv_resolve i2]

/-- A node of a partition. -/
theorem partitionNode_inv {c : Nat → Nat} {ws : Workspace} {swc : AComponent} {n : Node}
    (h : partitionNode c ws swc = .ok n) : ImportInv c ws swc.requires swc.provides n ∧ n.name = swc.name := by
  unfold partitionNode at h
  simp only [appendPorts_eq] at h
  split at h
  · simp at h
  · rename_i n1 h1
    obtain ⟨i1, e1⟩ := addAutosarPorts_inv _ (importInv_new c ws swc.name) h1
    simp only [addSides, List.nil_append] at i1
    split at h
    · simp at h
    · rename_i n2 h2
      obtain ⟨i2, e2⟩ := addAutosarPorts_inv _ i1 h2
      simp only [addSides, List.nil_append] at i2
      simp only [Except.ok.injEq] at h
      subst h
      exact ⟨i2, e2.trans e1⟩

theorem partitionNode_iff {c : Nat → Nat} {ws : Workspace} {swc : AComponent} (hc : ws.Consistent swc) :
    (∃ n, partitionNode c ws swc = .ok n) ↔ ∀ p ∈ swc.requires ++ swc.provides, p.Fine c ws := by
  have hl := consistent_on hc
  have i0 := importInv_new c ws swc.name
  have hp := addAutosarPorts_iff (side := .require) swc.requires i0 hl (by simp) (by intro x hx; simp [hx])
  have hq : ∀ m, (Node.new swc.name).addAutosarPorts c ws .require swc.requires = (m, .ok ()) →
      ((∃ k, m.addAutosarPorts c ws .provide swc.provides = (k, .ok ())) ↔ ∀ p ∈ swc.provides, p.Fine c ws) := by
    intro m hm
    have i1 := (addAutosarPorts_inv _ i0 hm).1
    simp only [addSides, List.nil_append] at i1
    exact addAutosarPorts_iff swc.provides i1 hl (by intro x hx; rw [List.append_nil] at hx; simp [hx]) (by intro x hx; simp [hx])
  unfold partitionNode
  simp only [appendPorts_eq]
  constructor
  · rintro ⟨n, hn⟩ p hpm
    cases h1 : (Node.new swc.name).addAutosarPorts c ws .require swc.requires with
    | mk m r =>
      cases r with
      | error x => simp [h1] at hn
      | ok u =>
        simp only [h1] at hn
        cases h2 : m.addAutosarPorts c ws .provide swc.provides with
        | mk k r2 =>
          cases r2 with
          | error x => simp [h2] at hn
          | ok u2 =>
            rcases List.mem_append.mp hpm with hpm | hpm
            · exact hp.mp ⟨m, h1⟩ p hpm
            · exact (hq m h1).mp ⟨k, h2⟩ p hpm
  · intro hf
    obtain ⟨m, h1⟩ := hp.mpr (fun p hpm => hf p (by simp [hpm]))
    obtain ⟨k, h2⟩ := (hq m h1).mpr (fun p hpm => hf p (by simp [hpm]))
    exact ⟨k, by simp only [h1, h2]⟩

/-- Two nodes made from the same ports. -/
theorem inv_same {c : Nat → Nat} {ws : Workspace} {rs ps : List APort} {n m : Node} (hc : ConsistentOn ws (rs ++ ps))
    (hn : ImportInv c ws rs ps n) (hm : ImportInv c ws rs ps m) :
    (∀ side, n.ports side = m.ports side) ∧ (n.types.map TypeObj.said).Perm (m.types.map TypeObj.said) := by
  have link : ∀ (ys : List APort) (qs qs' : List Port), (∀ y ∈ ys, y ∈ rs ++ ps) → PortLinks ws n.named ys qs →
      PortLinks ws m.named ys qs' → qs = qs' := by
    intro ys qs qs' hys h1 h2
    apply List.ext_getElem?
    intro i
    by_cases hlt : i < (ys.filter (fun p => (ws.typeOf p).isSome)).length
    · have hp := List.getElem?_eq_getElem hlt
      have hmem := (List.mem_filter.mp (List.getElem_mem hlt)).1
      have a1 := List.getElem?_eq_getElem (l := qs) (i := i) (by rw [h1.1]; exact hlt)
      have a2 := List.getElem?_eq_getElem (l := qs') (i := i) (by rw [h2.1]; exact hlt)
      have l1 := h1.2 i _ _ hp a1
      have l2 := h2.2 i _ _ hp a2
      rw [a1, a2]
      generalize (ys.filter (fun p => (ws.typeOf p).isSome))[i] = p at *
      generalize qs[i]'(by rw [h1.1]; exact hlt) = q at *
      generalize qs'[i]'(by rw [h2.1]; exact hlt) = q' at *
      obtain ⟨tn, a, e, k1, k2, k3, _⟩ := l1.elem
      obtain ⟨tn', a', e', k1', k2', k3', _⟩ := l2.elem
      rw [k1] at k1'
      simp only [Option.some.injEq, Prod.mk.injEq] at k1'
      obtain ⟨rfl, rfl⟩ := k1'
      obtain ⟨t, ht, he⟩ := List.mem_map.mp k3
      obtain ⟨t', ht', he'⟩ := List.mem_map.mp k3'
      simp only [TypeObj.named, NamedType.mk.injEq] at he he'
      have g1 := inv_elem hn hc (fun x hx => hx) (hys p hmem) k1 ht he.1
      have g2 := inv_elem hm hc (fun x hx => hx) (hys p hmem) k1 ht' he'.1
      rw [g1] at g2
      simp only [Except.ok.injEq] at g2
      obtain ⟨s, s1, s2⟩ := l1.attr
      obtain ⟨s', s1', s2'⟩ := l2.attr
      rw [s1] at s1'
      cases s1'
      rw [s2] at s2'
      simp only [Except.ok.injEq] at s2'
      congr 1
      have e1 : q.elem = q'.elem := by rw [k2, k2', ← he.2, ← he'.2, g2]
      have e2 : q.name = q'.name := l1.name.trans l2.name.symm
      have e3 : q.id = q'.id := l1.id.trans l2.id.symm
      cases q; cases q'
      simp_all
    · rw [List.getElem?_eq_none (by rw [h1.1]; omega), List.getElem?_eq_none (by rw [h2.1]; omega)]
  have types : ∀ n m : Node, ImportInv c ws rs ps n → ImportInv c ws rs ps m → ∀ x, x ∈ n.types.map TypeObj.said →
      x ∈ m.types.map TypeObj.said := by
    intro n m hn hm x hx
    obtain ⟨t, ht, rfl⟩ := List.mem_map.mp hx
    obtain ⟨p, hp, a, k1, k2, k3, k4⟩ := hn.origin t ht
    have key : ∀ ys qs, PortLinks ws m.named ys qs → p ∈ ys → ∃ e, (⟨t.name, e⟩ : NamedType) ∈ m.named := by
      intro ys qs hl hpy
      have : p ∈ ys.filter (fun p => (ws.typeOf p).isSome) := List.mem_filter.mpr ⟨hpy, by simp [k1]⟩
      obtain ⟨i, hi⟩ := List.getElem?_of_mem this
      have hlt := (List.getElem?_eq_some_iff.mp hi).1
      obtain ⟨tn, b, e, g1, _, g2, _⟩ := (hl.2 i p _ hi (List.getElem?_eq_getElem (by rw [hl.1]; exact hlt))).elem
      rw [k1] at g1
      simp only [Option.some.injEq, Prod.mk.injEq] at g1
      exact ⟨e, by rw [g1.1]; exact g2⟩
    obtain ⟨e, he⟩ : ∃ e, (⟨t.name, e⟩ : NamedType) ∈ m.named := by
      rcases List.mem_append.mp hp with h | h
      · exact key _ _ hm.req h
      · exact key _ _ hm.prov h
    obtain ⟨u, hu, hue⟩ := List.mem_map.mp he
    simp only [TypeObj.named, NamedType.mk.injEq] at hue
    have g1 := inv_elem hm hc (fun x hx => hx) hp k1 hu hue.1
    rw [k2] at g1
    simp only [Except.ok.injEq] at g1
    obtain ⟨_, _, _, _, _, g3, _⟩ := hm.origin u hu
    refine List.mem_map.mpr ⟨u, hu, ?_⟩
    simp only [TypeObj.said, hue.1, g1, k3, g3]
  have nodup : ∀ n : Node, ImportInv c ws rs ps n → (n.types.map TypeObj.said).Nodup := by
    intro n hn
    have := hn.names
    rw [List.nodup_iff_pairwise_ne, List.pairwise_map] at this ⊢
    exact this.imp (fun hne h => hne (congrArg (fun x => x.1) h))
  refine ⟨?_, ?_⟩
  · intro side
    cases side with
    | require => exact link rs _ _ (fun y hy => by simp [hy]) hn.req hm.req
    | provide => exact link ps _ _ (fun y hy => by simp [hy]) hn.prov hm.prov
  · exact (List.perm_ext_iff_of_nodup (nodup n hn) (nodup m hm)).mpr (fun x => ⟨types n m hn hm x, types m n hm hn x⟩)

end Apx
