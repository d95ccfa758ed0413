import Verif.Props.Partition

/-! C83: two data types of one name, for every component that has them. -/

namespace Apx

theorem addImported_types {ws : Workspace} {n m : Node} {side : Side} {p : APort} {t : TypeObj} {q : Port}
    (h : n.addImported ws side p t = .ok (m, q)) : m.types = n.types := by
  unfold Node.addImported at h
  rw [bind_ok_iff] at h
  obtain ⟨a, -, h⟩ := h
  rw [bind_ok_iff] at h
  obtain ⟨q0, -, h⟩ := h
  obtain ⟨-, rfl⟩ := addPort_cases _ _ _ _ _ h
  cases side <;> rfl

theorem updateDataType_types {c : Nat → Nat} {ws : Workspace} {n m : Node} {p : APort} {r : Option TypeObj}
    (h : n.updateDataType c ws p = .ok (m, r)) : n.types <+: m.types := by
  unfold Node.updateDataType at h
  split at h
  · split at h
    · simp at h
    · rw [bind_ok_iff] at h
      obtain ⟨⟨m', t⟩, hx, h⟩ := h
      simp only [Except.ok.injEq, Prod.mk.injEq] at h
      obtain ⟨rfl, -⟩ := h
      exact (importType_added hx).grow
    · simp at h
  · simp at h
  · simp only [Except.ok.injEq, Prod.mk.injEq] at h
    obtain ⟨rfl, -⟩ := h
    exact List.prefix_refl _

theorem addAutosarPort_types {c : Nat → Nat} {ws : Workspace} {n m : Node} {side : Side} {p : APort} {r : Option Port}
    (h : n.addAutosarPort c ws side p = (m, .ok r)) : n.types <+: m.types := by
  unfold Node.addAutosarPort at h
  split at h
  · simp at h
  · rename_i n1 hu
    simp only [Prod.mk.injEq] at h
    obtain ⟨rfl, -⟩ := h
    exact updateDataType_types hu
  · rename_i n1 t hu
    split at h
    · simp at h
    · rename_i n2 q hq
      simp only [Prod.mk.injEq] at h
      obtain ⟨rfl, -⟩ := h
      rw [addImported_types hq]
      exact updateDataType_types hu

theorem addAutosarPorts_types {c : Nat → Nat} {ws : Workspace} (l : List APort) {n m : Node} {side : Side}
    (h : n.addAutosarPorts c ws side l = (m, .ok ())) : n.types <+: m.types := by
  induction l generalizing n with
  | nil =>
    simp only [Node.addAutosarPorts, Prod.mk.injEq, and_true] at h
    subst h
    exact List.prefix_refl _
  | cons p l ih =>
    unfold Node.addAutosarPorts at h
    split at h
    · simp at h
    · rename_i n1 r h1
      exact (addAutosarPort_types h1).trans (ih h)

/-- The port of a node made for a port of the component that has a type. -/
theorem PortLinks.find {ws : Workspace} {named : List NamedType} {ps : List APort} {qs : List Port}
    (h : PortLinks ws named ps qs) {p : APort} (hp : p ∈ ps) {tn : Str} {a : AType} (ht : ws.typeOf p = some (tn, a)) :
    ∃ (i : Nat) (q : Port) (e : Elem), (ps.filter (fun p => (ws.typeOf p).isSome))[i]? = some p ∧ qs[i]? = some q ∧
      q.elem = .refType tn e ∧ ⟨tn, e⟩ ∈ named := by
  have hm : p ∈ ps.filter (fun p => (ws.typeOf p).isSome) := List.mem_filter.mpr ⟨hp, by rw [ht]; rfl⟩
  obtain ⟨i, hi⟩ := List.getElem?_of_mem hm
  have hl : i < qs.length := by rw [h.1]; exact (List.getElem?_eq_some_iff.mp hi).1
  obtain ⟨tn', a', e, h1, h2, h3, -⟩ := (h.2 i p _ hi (List.getElem?_eq_getElem hl)).elem
  rw [ht] at h1
  cases h1
  exact ⟨i, _, e, hi, List.getElem?_eq_getElem hl, h2, h3⟩

theorem named_unique {n : Node} (hn : (n.types.map TypeObj.name).Nodup) {t u : TypeObj} (ht : t ∈ n.types) (hu : u ∈ n.types)
    (h : t.name = u.name) : t = u := by
  obtain ⟨i, hi⟩ := List.getElem?_of_mem ht
  obtain ⟨j, hj⟩ := List.getElem?_of_mem hu
  have hij : i = j := by
    refine (List.getElem?_inj (by simpa using (List.getElem?_eq_some_iff.mp hi).1) hn).mp ?_
    rw [List.getElem?_map, List.getElem?_map, hi, hj]
    simp [h]
  rw [hij, hj] at hi
  exact (Option.some.inj hi).symm

/-- The type of a name is the one that the ports visited first have. -/
theorem first_wins {c : Nat → Nat} {ws : Workspace} {side : Side} {l : List APort} {name : Str} {n1 n : Node}
    (h1 : (Node.new name).addAutosarPorts c ws side l = (n1, .ok ())) (hg : n1.types <+: n.types)
    {tn : Str} {a : AType} (hall : ∀ p ∈ l, ∀ t, ws.typeOf p = some (tn, t) → t = a)
    (hex : ∃ p ∈ l, ws.typeOf p = some (tn, a)) : ∃ t ∈ n.types, t.name = tn ∧ a.element c = .ok t.elem := by
  obtain ⟨i1, -⟩ := addAutosarPorts_inv _ (importInv_new c ws name) h1
  obtain ⟨p, hp, ht⟩ := hex
  have hn : ∃ e, (⟨tn, e⟩ : NamedType) ∈ n1.named := by
    cases side with
    | require =>
      obtain ⟨i, q, e, -, -, -, h⟩ := i1.req.find (by simpa [addSides] using hp) ht
      exact ⟨e, h⟩
    | provide =>
      obtain ⟨i, q, e, -, -, -, h⟩ := i1.prov.find (by simpa [addSides] using hp) ht
      exact ⟨e, h⟩
  obtain ⟨e, he⟩ := hn
  obtain ⟨t, hm, hte⟩ := List.mem_map.mp he
  have htn : t.name = tn := congrArg NamedType.name hte
  obtain ⟨x, hx, b, hb, hbe, -⟩ := i1.origin t hm
  rw [htn] at hb
  have hx' : x ∈ l := by cases side <;> simpa [addSides] using hx
  rw [hall x hx' b hb] at hbe
  exact ⟨t, hg.subset hm, htn, hbe⟩

/-- C83 is violated by every component whose require ports have one data type of a name and whose provide ports have
another, with another layout: the type of that name has the layout of the require ports in the context and of the provide
ports in the import, the two nodes differ in the ports of both directions, and their types are not the same. -/
theorem C83_order_violated (ceilLog : Nat → Nat) (ws : Workspace) (swc : AComponent) (tn : Str) (a b : AType)
    (hr : ∃ p ∈ swc.requires, ws.typeOf p = some (tn, a)) (hra : ∀ p ∈ swc.requires, ∀ t, ws.typeOf p = some (tn, t) → t = a)
    (hp : ∃ p ∈ swc.provides, ws.typeOf p = some (tn, b)) (hpb : ∀ p ∈ swc.provides, ∀ t, ws.typeOf p = some (tn, t) → t = b)
    (hne : a.element ceilLog ≠ b.element ceilLog) (m n : Node)
    (hm : partitionNode ceilLog ws swc = .ok m) (hn : Node.fromSwc ceilLog ws swc none = .ok n) :
    (∃ t ∈ m.types, t.name = tn ∧ a.element ceilLog = .ok t.elem) ∧
    (∃ u ∈ n.types, u.name = tn ∧ b.element ceilLog = .ok u.elem) ∧
    (∀ side, m.ports side ≠ n.ports side) ∧
    ¬(m.types.map TypeObj.said).Perm (n.types.map TypeObj.said) := by
  have hm1 : ∃ t ∈ m.types, t.name = tn ∧ a.element ceilLog = .ok t.elem := by
    have h := hm
    unfold partitionNode at h
    simp only [appendPorts_eq] at h
    split at h
    · simp at h
    · rename_i n1 h1
      split at h
      · simp at h
      · rename_i n2 h2
        simp only [Except.ok.injEq] at h
        subst h
        exact first_wins h1 (addAutosarPorts_types _ h2) hra hr
  have hn1 : ∃ u ∈ n.types, u.name = tn ∧ b.element ceilLog = .ok u.elem := by
    have h := hn
    unfold Node.fromSwc at h
    split at h
    · rename_i n' hm'
      simp only [Except.ok.injEq] at h
      subst h
      unfold Node.importSwc at hm'
      split at hm'
      · simp at hm'
      · rename_i n1 h1
        obtain ⟨i1, -⟩ := addAutosarPorts_inv _ (importInv_new ceilLog ws ((none : Option Str).getD swc.name)) h1
        cases h2 : n1.addAutosarPorts ceilLog ws .require swc.requires with
        | mk n2 r =>
          rw [h2] at hm'
          cases r with
          | error x => simp [Node.finishImport] at hm'
          | ok u =>
            obtain ⟨i2, -⟩ := addAutosarPorts_inv _ i1 h2
            simp only [Node.finishImport, importInv_resolve i2, Prod.mk.injEq, and_true] at hm'
            subst hm'
            exact first_wins h1 (addAutosarPorts_types _ h2) hpb hp
    · simp at h
  refine ⟨hm1, hn1, ?_, ?_⟩
  · obtain ⟨t, t1, t2, t3⟩ := hm1
    obtain ⟨u, u1, u2, u3⟩ := hn1
    obtain ⟨im, -⟩ := partitionNode_inv hm
    obtain ⟨jn, -⟩ := fromSwc_inv hn
    have key : ∀ (ys : List APort) (qs : List Port) (y : APort) (d : AType), y ∈ ys → ws.typeOf y = some (tn, d) →
        PortLinks ws m.named ys qs → PortLinks ws n.named ys qs → False := by
      intro ys qs y d hy hd l1 l2
      obtain ⟨i, q, e, f1, f2, f3, f4⟩ := l1.find hy hd
      obtain ⟨tn', d', e', g1, g2, g3, -⟩ := (l2.2 i y q f1 f2).elem
      rw [hd] at g1
      cases g1
      rw [f3] at g2
      cases g2
      obtain ⟨t', x1, x2⟩ := List.mem_map.mp f4
      obtain ⟨u', y1, y2⟩ := List.mem_map.mp g3
      have e1 : t' = t := named_unique im.names x1 t1 ((congrArg NamedType.name x2).trans t2.symm)
      have e2 : u' = u := named_unique jn.names y1 u1 ((congrArg NamedType.name y2).trans u2.symm)
      subst e1 e2
      have z1 : t'.elem = e := congrArg NamedType.elem x2
      have z2 : u'.elem = e := congrArg NamedType.elem y2
      exact hne (by rw [t3, u3, z1, z2])
    intro side hs
    cases side with
    | require =>
      obtain ⟨y, hy, hd⟩ := hr
      have hs : m.requires = n.requires := hs
      exact key _ _ y a hy hd im.req (hs ▸ jn.req)
    | provide =>
      obtain ⟨y, hy, hd⟩ := hp
      have hs : m.provides = n.provides := hs
      exact key _ _ y b hy hd im.prov (hs ▸ jn.prov)
  · intro hperm
    obtain ⟨t, t1, t2, t3⟩ := hm1
    obtain ⟨u, u1, u2, u3⟩ := hn1
    obtain ⟨im, -⟩ := partitionNode_inv hm
    obtain ⟨t', x1, x2⟩ := List.mem_map.mp (hperm.symm.subset (List.mem_map_of_mem (f := TypeObj.said) u1))
    simp only [TypeObj.said, Prod.mk.injEq] at x2
    have e1 : t' = t := named_unique im.names x1 t1 (x2.1.trans (u2.trans t2.symm))
    subst e1
    exact hne (by rw [t3, u3, x2.2.1])

/-- A component with a require port of the one type called `Speed` and a provide port of the other. -/
def ptSwc : AComponent := ⟨"S".toList, [⟨"a".toList, "/If/A".toList, []⟩], [⟨"b".toList, "/If/B".toList, []⟩]⟩

/-- It is such a component. -/
example : (∃ p ∈ ptSwc.requires, imWs.typeOf p = some ("Speed".toList, .int 0 65535)) ∧
    (∀ p ∈ ptSwc.requires, ∀ t, imWs.typeOf p = some ("Speed".toList, t) → t = .int 0 65535) ∧
    (∃ p ∈ ptSwc.provides, imWs.typeOf p = some ("Speed".toList, .int 0 100)) ∧
    (∀ p ∈ ptSwc.provides, ∀ t, imWs.typeOf p = some ("Speed".toList, t) → t = .int 0 100) ∧
    (AType.int 0 65535).element exactCeilLog ≠ (AType.int 0 100).element exactCeilLog := by
  have h1 : imWs.typeOf ⟨"a".toList, "/If/A".toList, []⟩ = some ("Speed".toList, .int 0 65535) := by rfl
  have h2 : imWs.typeOf ⟨"b".toList, "/If/B".toList, []⟩ = some ("Speed".toList, .int 0 100) := by rfl
  refine ⟨⟨_, .head _, h1⟩, fun p hp t ht => ?_, ⟨_, .head _, h2⟩, fun p hp t ht => ?_, by decide +kernel⟩
  · rw [List.mem_singleton.mp hp, h1] at ht
    cases ht; rfl
  · rw [List.mem_singleton.mp hp, h2] at ht
    cases ht; rfl

/-- Of the two types, the import keeps that of the provide port and the context that of the require port. -/
example :
    (Node.fromSwc exactCeilLog imWs ptSwc none >>= fun n => n.definitionText false) =
      .ok "APX/1.2\nN\"S\"\nT\"Speed\"C(0,100):VT(\"Off\",\"On1\",\"On2\")\nP\"b\"T[0]\nR\"a\"T[0]\n".toList ∧
    (partitionNode exactCeilLog imWs ptSwc >>= fun n => n.definitionText false) =
      .ok "APX/1.2\nN\"S\"\nT\"Speed\"S:VT(\"Off\",\"On1\",\"On2\")\nP\"b\"T[0]\nR\"a\"T[0]\n".toList := by
  decide +kernel

end Apx
