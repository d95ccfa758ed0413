import Verif.Spec.Import
import Verif.Proofs.Node
import Verif.Props.Autosar
import Verif.Props.PortAttr

/-! Lemmas about imported AUTOSAR components. -/

namespace Apx

theorem typeNumber_element (k : Nat) : dataSignature ('T' :: '[' :: (natStr k ++ [']'])) = .ok (.refId k) := by
  obtain ⟨s, h1, h2⟩ := C22_roundtrip (fun _ => some (k : Int)) false (.refType [] (.prim .u8 none none none))
    (by simp [Elem.WellFormed, RefNameOk])
  simp only [Elem.toStr, Except.ok.injEq] at h1
  simp only [Elem.asWritten] at h2
  have e : intStr (k : Int) = natStr k := rfl
  simp [e] at h1 h2
  rw [h1]; exact h2

theorem pyIndex_ofNat {α : Type} (l : List α) (k : Nat) : pyIndex l (k : Int) = match l[k]? with
    | some x => .ok x
    | none => .error .indexError := by
  unfold pyIndex
  rw [if_neg (by omega)]
  rfl

/-- A port of the node made for a port of the component: the type has the right name and is one of the
node's. -/
structure PortLink (ws : Workspace) (named : List NamedType) (p : APort) (q : Port) (i : Nat) : Prop where
  name : q.name = p.name
  id : q.id = some i
  elem : ∃ tn a e, ws.typeOf p = some (tn, a) ∧ q.elem = .refType tn e ∧ ⟨tn, e⟩ ∈ named ∧
    ∃ d, q.elem.resolveDataElement = .ok d
  attr : ∃ s, p.attribute ws = .ok s ∧ optArg portAttribute s = .ok q.attr

/-- Ports of a component and those of the node, pairwise. -/
def PortLinks (ws : Workspace) (named : List NamedType) (ps : List APort) (qs : List Port) : Prop :=
  qs.length = (ps.filter (fun p => (ws.typeOf p).isSome)).length ∧
  ∀ i p q, (ps.filter (fun p => (ws.typeOf p).isSome))[i]? = some p → qs[i]? = some q → PortLink ws named p q i

theorem PortLink.mono {ws : Workspace} {a b : List NamedType} (h : ∀ t ∈ a, t ∈ b) {p : APort} {q : Port} {i : Nat}
    (hl : PortLink ws a p q i) : PortLink ws b p q i := by
  obtain ⟨tn, t, e, h1, h2, h3, h4⟩ := hl.elem
  exact ⟨hl.name, hl.id, ⟨tn, t, e, h1, h2, h _ h3, h4⟩, hl.attr⟩

theorem PortLinks.mono {ws : Workspace} {a b : List NamedType} (h : ∀ t ∈ a, t ∈ b) {ps : List APort} {qs : List Port}
    (hl : PortLinks ws a ps qs) : PortLinks ws b ps qs :=
  ⟨hl.1, fun i p q h1 h2 => (hl.2 i p q h1 h2).mono h⟩

theorem PortLinks.skip {ws : Workspace} {named : List NamedType} {ps : List APort} {qs : List Port}
    (hl : PortLinks ws named ps qs) (p : APort) (hp : ws.typeOf p = none) : PortLinks ws named (ps ++ [p]) qs := by
  have : (ps ++ [p]).filter (fun p => (ws.typeOf p).isSome) = ps.filter (fun p => (ws.typeOf p).isSome) := by
    simp [List.filter_append, hp]
  unfold PortLinks
  rw [this]
  exact hl

theorem PortLinks.snoc {ws : Workspace} {named : List NamedType} {ps : List APort} {qs : List Port}
    (hl : PortLinks ws named ps qs) (p : APort) (q : Port) (h : PortLink ws named p q qs.length) :
    PortLinks ws named (ps ++ [p]) (qs ++ [q]) := by
  obtain ⟨tn, a, e, h1, _⟩ := h.elem
  have : (ps ++ [p]).filter (fun p => (ws.typeOf p).isSome) = ps.filter (fun p => (ws.typeOf p).isSome) ++ [p] := by
    simp [List.filter_append, h1]
  unfold PortLinks
  rw [this]
  refine ⟨by simp [hl.1], fun i p' q' hp hq => ?_⟩
  by_cases hi : i < qs.length
  · rw [List.getElem?_append_left hi] at hq
    rw [List.getElem?_append_left (by rw [← hl.1]; exact hi)] at hp
    exact hl.2 i p' q' hp hq
  · have : i = qs.length := by
      have := (List.getElem?_eq_some_iff.mp hq).1
      simp at this; omega
    subst this
    rw [hl.1] at hp
    simp at hp hq
    rw [← hp, ← hq]; exact h

/-- What an imported node looks like after some ports of each direction. -/
structure ImportInv (c : Nat → Nat) (ws : Workspace) (rs ps : List APort) (n : Node) : Prop where
  fin : n.isFinalized = false
  names : (n.types.map TypeObj.name).Nodup
  ids : ∀ (i : Nat) (t : TypeObj), n.types[i]? = some t → t.id = some i
  origin : ∀ t ∈ n.types, ∃ p ∈ rs ++ ps, ∃ a, ws.typeOf p = some (t.name, a) ∧ a.element c = .ok t.elem ∧
    t.attr = typeSemantics ws t.name ∧ t.shortName = none
  req : PortLinks ws n.named rs n.requires
  prov : PortLinks ws n.named ps n.provides

theorem importInv_new (c : Nat → Nat) (ws : Workspace) (name : Str) : ImportInv c ws [] [] (Node.new name) := by
  constructor <;> simp [Node.new, PortLinks]

/-- The lists of processed ports with one more. -/
def addSide (side : Side) (rs ps : List APort) (p : APort) : List APort × List APort :=
  match side with
  | .require => (rs ++ [p], ps)
  | .provide => (rs, ps ++ [p])

theorem addSide_mem {side : Side} {rs ps : List APort} {p x : APort} (h : x ∈ rs ++ ps) :
    x ∈ (addSide side rs ps p).1 ++ (addSide side rs ps p).2 := by
  rw [List.mem_append] at h
  cases side <;> rcases h with h | h <;> simp [addSide, h]

theorem addSide_self {side : Side} {rs ps : List APort} {p : APort} :
    p ∈ (addSide side rs ps p).1 ++ (addSide side rs ps p).2 := by
  cases side <;> simp [addSide]

/-- What is known once a type was found or added. -/
structure TypeAdded (c : Nat → Nat) (ws : Workspace) (n : Node) (name : Str) (a : AType) (m : Node) (t : TypeObj) : Prop where
  keeps : m.name = n.name
  fin : m.isFinalized = n.isFinalized
  ports : ∀ side, m.ports side = n.ports side
  mem : t ∈ m.types
  tname : t.name = name
  grow : n.types <+: m.types
  nodup : (n.types.map TypeObj.name).Nodup → (m.types.map TypeObj.name).Nodup
  new : ∀ u ∈ m.types, u ∈ n.types ∨ u = ⟨name, u.elem, typeSemantics ws name, some n.types.length, none⟩ ∧
    a.element c = .ok u.elem
  ids : (∀ (i : Nat) (t : TypeObj), n.types[i]? = some t → t.id = some i) →
    ∀ (i : Nat) (t : TypeObj), m.types[i]? = some t → t.id = some i

theorem importType_added {c : Nat → Nat} {ws : Workspace} {n m : Node} {name : Str} {a : AType} {t : TypeObj}
    (h : n.importType c ws name a = .ok (m, t)) : TypeAdded c ws n name a m t := by
  unfold Node.importType at h
  split at h
  · rename_i item hf
    simp only [Except.ok.injEq, Prod.mk.injEq] at h
    obtain ⟨rfl, rfl⟩ := h
    obtain ⟨h1, h2⟩ := typeNamed_some _ _ _ hf
    exact ⟨rfl, rfl, fun _ => rfl, h1, h2, List.prefix_refl _, id, fun u hu => .inl hu, id⟩
  · rename_i hf
    rw [bind_ok_iff] at h
    obtain ⟨e, he, h⟩ := h
    simp only [Except.ok.injEq, Prod.mk.injEq] at h
    obtain ⟨rfl, rfl⟩ := h
    refine ⟨rfl, rfl, fun s => by cases s <;> rfl, by simp, rfl, List.prefix_append _ _, ?_, ?_, ?_⟩
    · intro hn
      simp only [List.map_append, List.map_cons, List.map_nil]
      rw [List.nodup_append]
      refine ⟨hn, by simp, ?_⟩
      intro x hx y hy
      simp only [List.mem_singleton] at hy
      subst hy
      obtain ⟨u, hu, rfl⟩ := List.mem_map.mp hx
      unfold Node.typeNamed at hf
      rw [List.find?_eq_none] at hf
      simpa using hf u hu
    · intro u hu
      simp only [List.mem_append, List.mem_singleton] at hu
      rcases hu with hu | rfl
      · exact .inl hu
      · exact .inr ⟨rfl, he⟩
    · intro hi i u hu
      by_cases hl : i < n.types.length
      · simp only [List.getElem?_append_left hl] at hu
        exact hi i u hu
      · have : i = n.types.length := by
          have := (List.getElem?_eq_some_iff.mp hu).1
          simp at this; omega
        subst this
        simp at hu
        rw [← hu]

theorem TypeAdded.sub {c ws n name a m t} (h : TypeAdded c ws n name a m t) : ∀ x ∈ n.named, x ∈ m.named := by
  intro x hx
  obtain ⟨u, hu, rfl⟩ := List.mem_map.mp hx
  exact List.mem_map_of_mem (h.grow.subset hu)

/-- The port added for an AUTOSAR port. -/
theorem addImported_ok {ws : Workspace} {n m : Node} {side : Side} {p : APort} {t : TypeObj} {q : Port}
    (h : n.addImported ws side p t = .ok (m, q)) (hm : t ∈ n.types)
    (hid : ∀ (i : Nat) (t : TypeObj), n.types[i]? = some t → t.id = some i) :
    m = n.setPorts side (n.ports side ++ [q]) ∧ q.name = p.name ∧ q.id = some (n.ports side).length ∧
      q.elem = .refType t.name t.elem ∧ (∃ d, q.elem.resolveDataElement = .ok d) ∧
      ∃ s, p.attribute ws = .ok s ∧ optArg portAttribute s = .ok q.attr := by
  unfold Node.addImported at h
  rw [bind_ok_iff] at h
  obtain ⟨a, ha, h⟩ := h
  rw [bind_ok_iff] at h
  obtain ⟨q0, hq, h⟩ := h
  obtain ⟨h1, rfl⟩ := addPort_cases _ _ _ _ _ h
  obtain ⟨k, hk⟩ := List.getElem?_of_mem hm
  have hidk := hid k t hk
  rw [hidk] at hq
  simp only [idText] at hq
  unfold mkPort at hq
  rw [typeNumber_element, ok_bind, bind_ok_iff] at hq
  obtain ⟨y, hy, hq⟩ := hq
  simp only [Except.ok.injEq] at hq
  subst hq
  unfold resolvePort at h1
  simp only [Elem.isReference, if_true] at h1
  rw [bind_ok_iff] at h1
  obtain ⟨e, he, h1⟩ := h1
  simp only [Except.ok.injEq] at h1
  subst h1
  unfold resolveDsg at he
  simp only [Elem.resolveType, pyIndex_ofNat, Node.named, List.getElem?_map, hk, Option.map_some, ok_bind] at he
  rw [bind_ok_iff] at he
  obtain ⟨d, hd, he⟩ := he
  simp only [Except.ok.injEq] at he
  subst he
  exact ⟨rfl, rfl, rfl, rfl, ⟨d, hd⟩, a, ha, hy⟩

/-- One port. -/
theorem addAutosarPort_inv {c : Nat → Nat} {ws : Workspace} {rs ps : List APort} {n m : Node} {side : Side} {p : APort}
    {r : Option Port} (hi : ImportInv c ws rs ps n) (h : n.addAutosarPort c ws side p = (m, .ok r)) :
    ImportInv c ws (addSide side rs ps p).1 (addSide side rs ps p).2 m ∧ m.name = n.name := by
  unfold Node.addAutosarPort at h
  split at h
  · simp at h
  · rename_i n1 hu
    simp only [Prod.mk.injEq, Except.ok.injEq] at h
    obtain ⟨rfl, rfl⟩ := h
    unfold Node.updateDataType at hu
    have hu' : n1 = n ∧ ws.typeOf p = none := by
      unfold Workspace.typeOf
      split at hu
      · rename_i ref hr
        split at hu
        · simp at hu
        · rw [bind_ok_iff] at hu
          obtain ⟨x, _, hu⟩ := hu
          simp at hu
        · simp at hu
      · simp at hu
      · rename_i hn _
        simp only [Except.ok.injEq, Prod.mk.injEq, and_true] at hu
        refine ⟨hu.symm, ?_⟩
        split
        · rename_i ref hr
          exact absurd hr (hn ref)
        · rfl
    obtain ⟨rfl, hn⟩ := hu'
    refine ⟨?_, rfl⟩
    cases side with
    | require =>
      exact ⟨hi.fin, hi.names, hi.ids, fun t ht => by
        obtain ⟨x, hx, r⟩ := hi.origin t ht
        exact ⟨x, addSide_mem hx, r⟩, hi.req.skip p hn, hi.prov⟩
    | provide =>
      exact ⟨hi.fin, hi.names, hi.ids, fun t ht => by
        obtain ⟨x, hx, r⟩ := hi.origin t ht
        exact ⟨x, addSide_mem hx, r⟩, hi.req, hi.prov.skip p hn⟩
  · rename_i n1 t hu
    have hu' : ∃ tn a, ws.typeOf p = some (tn, a) ∧ n.importType c ws tn a = .ok (n1, t) := by
      unfold Node.updateDataType at hu
      unfold Workspace.typeOf
      split at hu
      · rename_i ref hr
        rw [hr]
        split at hu
        · simp at hu
        · rename_i name a hd
          rw [bind_ok_iff] at hu
          obtain ⟨x, hx, hu⟩ := hu
          simp only [Except.ok.injEq, Prod.mk.injEq, Option.some.injEq] at hu
          obtain ⟨rfl, rfl⟩ := hu
          exact ⟨name, a, by simp only [hd], hx⟩
        · simp at hu
      · simp at hu
      · simp at hu
    obtain ⟨tn, a, hty, him⟩ := hu'
    have ht := importType_added him
    split at h
    · simp at h
    · rename_i n2 q hq
      simp only [Prod.mk.injEq, Except.ok.injEq] at h
      obtain ⟨rfl, rfl⟩ := h
      obtain ⟨rfl, h1, h2, h3, h4, h5⟩ := addImported_ok hq ht.mem (ht.ids hi.ids)
      have hlink : PortLink ws n1.named p q (n1.ports side).length :=
        ⟨h1, h2, ⟨tn, a, t.elem, hty, by rw [h3, ht.tname], by
          rw [← ht.tname]; exact List.mem_map_of_mem (f := TypeObj.named) ht.mem, h4⟩, h5⟩
      have horig : ∀ u ∈ n1.types, ∃ x ∈ (addSide side rs ps p).1 ++ (addSide side rs ps p).2, ∃ a,
          ws.typeOf x = some (u.name, a) ∧ a.element c = .ok u.elem ∧ u.attr = typeSemantics ws u.name ∧
          u.shortName = none := by
        intro u hu
        rcases ht.new u hu with hu | ⟨hu, he⟩
        · obtain ⟨x, hx, r⟩ := hi.origin u hu
          exact ⟨x, addSide_mem hx, r⟩
        · refine ⟨p, addSide_self, a, ?_, he, ?_, ?_⟩ <;> rw [hu]
          exact hty
      refine ⟨?_, by cases side <;> exact ht.keeps⟩
      have hr : n1.requires = n.requires := ht.ports .require
      have hp : n1.provides = n.provides := ht.ports .provide
      cases side with
      | require =>
        refine ⟨ht.fin.trans hi.fin, ht.nodup hi.names, ht.ids hi.ids, horig, ?_, ?_⟩
        · exact PortLinks.snoc (by rw [show n1.ports .require = n.requires from hr]; exact hi.req.mono ht.sub) p q hlink
        · exact (show PortLinks ws n1.named ps n1.provides from by rw [hp]; exact hi.prov.mono ht.sub)
      | provide =>
        refine ⟨ht.fin.trans hi.fin, ht.nodup hi.names, ht.ids hi.ids, horig, ?_, ?_⟩
        · exact (show PortLinks ws n1.named rs n1.requires from by rw [hr]; exact hi.req.mono ht.sub)
        · exact PortLinks.snoc (by rw [show n1.ports .provide = n.provides from hp]; exact hi.prov.mono ht.sub) p q hlink

/-- Several ports. -/
def addSides (side : Side) (rs ps l : List APort) : List APort × List APort :=
  match side with
  | .require => (rs ++ l, ps)
  | .provide => (rs, ps ++ l)

theorem addSides_cons (side : Side) (rs ps l : List APort) (p : APort) :
    addSides side (addSide side rs ps p).1 (addSide side rs ps p).2 l = addSides side rs ps (p :: l) := by
  cases side <;> simp [addSides, addSide]

theorem addAutosarPorts_inv {c : Nat → Nat} {ws : Workspace} (l : List APort) {rs ps : List APort} {n m : Node} {side : Side}
    (hi : ImportInv c ws rs ps n) (h : n.addAutosarPorts c ws side l = (m, .ok ())) :
    ImportInv c ws (addSides side rs ps l).1 (addSides side rs ps l).2 m ∧ m.name = n.name := by
  induction l generalizing rs ps n with
  | nil =>
    simp only [Node.addAutosarPorts, Prod.mk.injEq, and_true] at h
    subst h
    refine ⟨?_, rfl⟩
    cases side <;> simpa [addSides] using hi
  | cons p l ih =>
    unfold Node.addAutosarPorts at h
    split at h
    · simp at h
    · rename_i n1 r h1
      obtain ⟨h2, h3⟩ := addAutosarPort_inv hi h1
      obtain ⟨h4, h5⟩ := ih h2 h
      rw [addSides_cons] at h4
      exact ⟨h4, h5.trans h3⟩

theorem portLinks_resolved {ws : Workspace} {named : List NamedType} {ps : List APort} {qs : List Port}
    (h : PortLinks ws named ps qs) (types : List NamedType) : ∀ q ∈ qs, resolvePort types q = .ok q := by
  intro q hq
  obtain ⟨i, hi⟩ := List.getElem?_of_mem hq
  have hl := (List.getElem?_eq_some_iff.mp hi).1
  rw [h.1] at hl
  obtain ⟨tn, a, e, _, h2, _, d, h4⟩ := (h.2 i _ q (List.getElem?_eq_getElem hl) hi).elem
  unfold resolvePort
  rw [h2] at h4
  simp only [h2, Elem.isReference, if_true, resolveDsg, Elem.resolveType, ok_bind, h4]
  rw [← h2]

theorem importInv_resolve {c : Nat → Nat} {ws : Workspace} {rs ps : List APort} {n : Node}
    (hi : ImportInv c ws rs ps n) : n.resolveTypes = .ok n := by
  unfold Node.resolveTypes
  rw [mapPy_id (resolvePort n.named) n.requires (portLinks_resolved hi.req _),
    mapPy_id (resolvePort n.named) n.provides (portLinks_resolved hi.prov _)]
  rfl

/-- A successful import. -/
theorem fromSwc_inv {c : Nat → Nat} {ws : Workspace} {swc : AComponent} {name : Option Str} {n : Node}
    (h : Node.fromSwc c ws swc name = .ok n) :
    ImportInv c ws swc.requires swc.provides n ∧ n.name = name.getD swc.name := by
  unfold Node.fromSwc at h
  split at h
  · rename_i m hm
    simp only [Except.ok.injEq] at h
    subst h
    unfold Node.importSwc at hm
    split at hm
    · simp at hm
    · rename_i n1 h1
      obtain ⟨i1, e1⟩ := addAutosarPorts_inv _ (importInv_new c ws (name.getD swc.name)) h1
      simp only [addSides, List.nil_append] at i1
      cases h2 : n1.addAutosarPorts c ws .require swc.requires with
      | mk n2 r =>
        rw [h2] at hm
        cases r with
        | error x => simp [Node.finishImport] at hm
        | ok u =>
          obtain ⟨i2, e2⟩ := addAutosarPorts_inv _ i1 h2
          simp only [addSides, List.nil_append] at i2
          simp only [Node.finishImport, importInv_resolve i2, Prod.mk.injEq, and_true] at hm
          subst hm
          exact ⟨i2, e2.trans e1⟩
  · simp at h


/-! ### Which imports succeed -/

/-- A type made for a good AUTOSAR type: a plain element or a record, without references. -/
inductive Plainly : Elem → Prop
  | prim (tc mn mx a) : Plainly (.prim tc mn mx a)
  | record (fs a) : Plainly (.record fs a)

theorem representedBy_plainly {t : AType} {e : Elem} (h : t.RepresentedBy e) : Plainly e := by
  cases t with
  | bool => rw [AType.RepresentedBy] at h; obtain ⟨_, _, _, rfl, _⟩ := h; exact .prim _ _ _ _
  | int a b => rw [AType.RepresentedBy] at h; obtain ⟨_, _, _, rfl, _⟩ := h; exact .prim _ _ _ _
  | array => simp [AType.RepresentedBy] at h
  | string n => rw [AType.RepresentedBy] at h; obtain ⟨_, rfl, _⟩ := h; exact .prim _ _ _ _
  | record fs => rw [AType.RepresentedBy] at h; obtain ⟨_, rfl, _⟩ := h; exact .record _ _
  | other => simp [AType.RepresentedBy] at h

theorem plainly_data {e : Elem} (h : Plainly e) (m : Str) : (Elem.refType m e).resolveDataElement = .ok e := by
  cases h <;> rfl

mutual
theorem AConst.derive_value (v : AConst) (w : InitVal) (h : v.value = some w) : v.derive = .ok w.derive := by
  match v with
  | .int i => simp only [AConst.value, Option.some.injEq] at h; subst h; simp [AConst.derive, InitVal.derive]
  | .str s => simp only [AConst.value, Option.some.injEq] at h; subst h; simp [AConst.derive, InitVal.derive]
  | .record l =>
    simp only [AConst.value, Option.map_eq_some_iff] at h
    obtain ⟨r, h1, rfl⟩ := h
    obtain ⟨ss, h2, h3⟩ := AConst.deriveAll_values l r h1
    simp [AConst.derive, InitVal.derive, h2, h3]
  | .array l =>
    simp only [AConst.value, Option.map_eq_some_iff] at h
    obtain ⟨r, h1, rfl⟩ := h
    obtain ⟨ss, h2, h3⟩ := AConst.deriveAll_values l r h1
    simp [AConst.derive, InitVal.derive, h2, h3]
  | .other => simp [AConst.value] at h
theorem AConst.deriveAll_values (l : List AConst) (r : List InitVal) (h : AConst.values l = some r) :
    ∃ ss, AConst.deriveAll l = .ok ss ∧ joinComma ss = deriveList r := by
  match l with
  | [] =>
    simp only [AConst.values, Option.some.injEq] at h
    subst h
    exact ⟨[], by simp [AConst.deriveAll], by simp [joinComma, deriveList]⟩
  | v :: l =>
    simp only [AConst.values] at h
    split at h
    · rename_i a r' ha hr
      simp only [Option.some.injEq] at h
      subst h
      have h1 := AConst.derive_value v a ha
      obtain ⟨ss, h2, h3⟩ := AConst.deriveAll_values l r' hr
      refine ⟨a.derive :: ss, by simp [AConst.deriveAll, h1, h2], ?_⟩
      match l, hr, h2 with
      | [], hr, h2 =>
        simp only [AConst.values, Option.some.injEq] at hr
        simp only [AConst.deriveAll, Except.ok.injEq] at h2
        subst hr h2
        simp [joinComma, deriveList]
      | x :: l, hr, h2 =>
        simp only [AConst.values] at hr
        split at hr
        · simp only [Option.some.injEq] at hr
          subst hr
          simp only [AConst.deriveAll, bind_ok_iff, Except.ok.injEq] at h2
          obtain ⟨_, _, _, _, rfl⟩ := h2
          simp only [joinComma, deriveList] at h3 ⊢
          rw [h3]
        · simp at hr
    · simp at h
end

/-- The attribute of a port with a readable init value or none. -/
theorem attribute_ok {ws : Workspace} {p : APort}
    (h : p.HasInit → ∃ v w, ws.initOf p = some v ∧ v.value = some w ∧ w.Plain) :
    (¬ p.HasInit ∧ p.attribute ws = .ok none) ∨
    (∃ v w, ws.initOf p = some v ∧ v.value = some w ∧ w.Plain ∧ p.attribute ws = .ok (some w.attrText)) := by
  unfold APort.attribute
  split
  · rename_i ref hr
    right
    obtain ⟨v, w, h1, h2, h3⟩ := h ⟨ref, hr⟩
    refine ⟨v, w, h1, h2, h3, ?_⟩
    have hd := AConst.derive_value v w h2
    unfold Workspace.initOf at h1
    rw [hr] at h1
    simp only [] at h1
    split at h1
    · rename_i v' hv
      simp only [Option.some.injEq] at h1
      subst h1
      simp [hv, constText, hd, InitVal.attrText]
    · rename_i v' hv
      simp only [Option.some.injEq] at h1
      subst h1
      simp [hv, constText, hd, InitVal.attrText]
    · simp at h1
  · rename_i hn
    left
    exact ⟨fun ⟨ref, hr⟩ => hn ref hr, rfl⟩

theorem typeOf_some {ws : Workspace} {p : APort} {tn : Str} {a : AType} (h : ws.typeOf p = some (tn, a)) :
    ∃ ref, ws p.interfaceRef = some (.senderReceiver [ref]) ∧ ws ref = some (.dataType tn a) := by
  unfold Workspace.typeOf at h
  split at h
  · rename_i ref hr
    split at h
    · rename_i name t hd
      simp only [Option.some.injEq, Prod.mk.injEq] at h
      obtain ⟨rfl, rfl⟩ := h
      exact ⟨ref, hr, hd⟩
    · simp at h
  · simp at h

/-- One port succeeds. -/
theorem addAutosarPort_total {c : Nat → Nat} (hc : Accurate c) {ws : Workspace} {rs ps : List APort} {n : Node} {side : Side}
    {p : APort} (hi : ImportInv c ws rs ps n)
    (hg : ∀ x ∈ rs ++ ps, ∃ tn a, ws.typeOf x = some (tn, a) ∧ a.Good)
    (hp : ∃ tn a, ws.typeOf p = some (tn, a) ∧ a.Good)
    (ha : p.HasInit → ∃ v w, ws.initOf p = some v ∧ v.value = some w ∧ w.Plain) :
    ∃ m q, n.addAutosarPort c ws side p = (m, .ok (some q)) := by
  obtain ⟨tn, a, h1, h2⟩ := hp
  obtain ⟨ref, hr, hd⟩ := typeOf_some h1
  have hpl : ∀ u ∈ n.types, Plainly u.elem := by
    intro u hu
    obtain ⟨x, hx, b, hb, he, _⟩ := hi.origin u hu
    obtain ⟨tn', b', hb', hgood⟩ := hg x hx
    rw [hb] at hb'
    simp only [Option.some.injEq, Prod.mk.injEq] at hb'
    obtain ⟨_, rfl⟩ := hb'
    obtain ⟨e, h3, h4⟩ := C56_represents_partial c hc b hgood
    rw [he] at h3
    simp only [Except.ok.injEq] at h3
    rw [h3]; exact representedBy_plainly h4
  obtain ⟨e, h3, h4⟩ := C56_represents_partial c hc a h2
  have hty : ∃ m t, n.importType c ws tn a = .ok (m, t) ∧ Plainly t.elem := by
    unfold Node.importType
    split
    · rename_i item hf
      exact ⟨_, _, rfl, hpl _ (typeNamed_some _ _ _ hf).1⟩
    · simp only [h3, ok_bind]
      exact ⟨_, _, rfl, representedBy_plainly h4⟩
  obtain ⟨m, t, hm, ht⟩ := hty
  have hadd := importType_added hm
  have hu : n.updateDataType c ws p = .ok (m, some t) := by
    unfold Node.updateDataType
    simp only [hr, hd, hm, ok_bind]
  have himp : ∃ m' q, m.addImported ws side p t = .ok (m', q) := by
    obtain ⟨k, hk⟩ := List.getElem?_of_mem hadd.mem
    have hid := hadd.ids hi.ids k t hk
    have hopt : ∃ s x, p.attribute ws = .ok s ∧ optArg portAttribute s = .ok x := by
      rcases attribute_ok ha with ⟨_, h⟩ | ⟨v, w, _, _, hw, h⟩
      · exact ⟨none, none, h, rfl⟩
      · exact ⟨_, _, h, by simp [optArg, C51_roundtrip w hw]; rfl⟩
    obtain ⟨s, x, hs, hx⟩ := hopt
    unfold Node.addImported
    simp only [hs, ok_bind, hid, idText, mkPort, typeNumber_element, hx, Node.addPort, resolvePort, Elem.isReference, if_true,
      resolveDsg, Elem.resolveType, pyIndex_ofNat, Node.named, List.getElem?_map, hk, Option.map_some,
      plainly_data ht, TypeObj.named]
    exact ⟨_, _, rfl⟩
  obtain ⟨m', q, hq⟩ := himp
  refine ⟨m', q, ?_⟩
  unfold Node.addAutosarPort
  simp only [hu, hq]

theorem addSides_mem {side : Side} {rs ps l : List APort} {x : APort}
    (h : x ∈ (addSides side rs ps l).1 ++ (addSides side rs ps l).2) : x ∈ rs ++ ps ∨ x ∈ l := by
  rw [List.mem_append] at h ⊢
  cases side with
  | require =>
    simp only [addSides, List.mem_append] at h
    rcases h with (h | h) | h
    · exact .inl (.inl h)
    · exact .inr h
    · exact .inl (.inr h)
  | provide =>
    simp only [addSides, List.mem_append] at h
    rcases h with h | h | h
    · exact .inl (.inl h)
    · exact .inl (.inr h)
    · exact .inr h

theorem addAutosarPorts_total {c : Nat → Nat} (hc : Accurate c) {ws : Workspace} (l : List APort) {rs ps : List APort}
    {n : Node} {side : Side} (hi : ImportInv c ws rs ps n)
    (hg : ∀ x ∈ rs ++ ps, ∃ tn a, ws.typeOf x = some (tn, a) ∧ a.Good)
    (hp : ∀ x ∈ l, ∃ tn a, ws.typeOf x = some (tn, a) ∧ a.Good)
    (ha : ∀ x ∈ l, x.HasInit → ∃ v w, ws.initOf x = some v ∧ v.value = some w ∧ w.Plain) :
    ∃ m, n.addAutosarPorts c ws side l = (m, .ok ()) := by
  induction l generalizing rs ps n with
  | nil => exact ⟨n, rfl⟩
  | cons p l ih =>
    obtain ⟨m, q, hm⟩ := addAutosarPort_total hc (side := side) hi hg (hp p (by simp)) (ha p (by simp))
    obtain ⟨hi', _⟩ := addAutosarPort_inv hi hm
    obtain ⟨m', hm'⟩ := ih hi' (by
      intro x hx
      have hx : x ∈ (addSides side rs ps [p]).1 ++ (addSides side rs ps [p]).2 := by
        cases side <;> simpa [addSides, addSide] using hx
      rcases addSides_mem hx with h | h
      · exact hg x h
      · simp only [List.mem_singleton] at h; subst h; exact hp _ (by simp))
      (fun x hx => hp x (by simp [hx])) (fun x hx => ha x (by simp [hx]))
    refine ⟨m', ?_⟩
    unfold Node.addAutosarPorts
    simp only [hm, hm']

theorem fromSwc_total {c : Nat → Nat} (hc : Accurate c) {ws : Workspace} {swc : AComponent} (h : Importable ws swc)
    (name : Option Str) : ∃ n, Node.fromSwc c ws swc name = .ok n := by
  obtain ⟨n1, h1⟩ := addAutosarPorts_total hc (side := .provide) swc.provides (importInv_new c ws (name.getD swc.name))
    (by simp) (h.types .provide) (h.inits .provide)
  obtain ⟨i1, _⟩ := addAutosarPorts_inv _ (importInv_new c ws (name.getD swc.name)) h1
  simp only [addSides, List.nil_append] at i1
  obtain ⟨n2, h2⟩ := addAutosarPorts_total hc (side := .require) swc.requires i1
    (fun x hx => h.types .provide x (by rw [List.nil_append] at hx; exact hx)) (h.types .require) (h.inits .require)
  obtain ⟨i2, _⟩ := addAutosarPorts_inv _ i1 h2
  simp only [addSides, List.nil_append] at i2
  refine ⟨n2, ?_⟩
  have e : (Node.new []).importSwc c ws swc name = (n2, .ok ()) := by
    unfold Node.importSwc
    have : ({ Node.new [] with name := name.getD swc.name } : Node) = Node.new (name.getD swc.name) := rfl
    rw [this, h1]
    simp only [h2, Node.finishImport, importInv_resolve i2]
  unfold Node.fromSwc
  rw [e]

end Apx
