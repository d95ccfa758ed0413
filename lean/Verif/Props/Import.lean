import Verif.Proofs.Import
import Verif.Props.InitEnd

/-! C80: importing AUTOSAR components. C81: their init values. -/

namespace Apx

theorem filter_all {α : Type} {p : α → Bool} {l : List α} (h : ∀ x ∈ l, p x = true) : l.filter p = l := by
  induction l with
  | nil => rfl
  | cons x l ih => simp [h x (by simp), ih (fun y hy => h y (by simp [hy]))]

theorem map_eq_of_getElem {α β γ : Type} (f : α → γ) (g : β → γ) (l : List α) (r : List β) (hl : l.length = r.length)
    (h : ∀ (i : Nat) a b, l[i]? = some a → r[i]? = some b → f a = g b) : l.map f = r.map g := by
  induction l generalizing r with
  | nil =>
    cases r with
    | nil => rfl
    | cons y r => simp at hl
  | cons x l ih =>
    cases r with
    | nil => simp at hl
    | cons y r =>
      simp only [List.map_cons]
      rw [h 0 x y rfl rfl, ih r (by simpa using hl) (fun i a b h1 h2 => h (i + 1) a b (by simpa using h1) (by simpa using h2))]

/-! ### C80 -/

/-- C80, any component whose import succeeds: the node has the given name or that of the component; in each
direction its ports are those of the component's ports whose interface has a single data element, in the
same order and with the same names, numbered from 0; each refers by name to the type of its data
element; no two types have the same name, every type comes from a port, and its layout is the one made
for (some) data type of that name. -/
theorem C80_ports (ceilLog : Nat → Nat) (ws : Workspace) (swc : AComponent) (name : Option Str) (n : Node)
    (h : Node.fromSwc ceilLog ws swc name = .ok n) :
    n.name = name.getD swc.name ∧
    (∀ side,
      (n.ports side).map Port.name = ((swc.ports side).filter (fun p => (ws.typeOf p).isSome)).map APort.name ∧
      ∀ (i : Nat) (p : APort) (q : Port), ((swc.ports side).filter (fun p => (ws.typeOf p).isSome))[i]? = some p → (n.ports side)[i]? = some q →
        q.id = some i ∧ ∃ tn t e, ws.typeOf p = some (tn, t) ∧ q.elem = .refType tn e ∧
          ∃ u ∈ n.types, u.name = tn ∧ u.elem = e) ∧
    (n.types.map TypeObj.name).Nodup ∧
    ∀ u ∈ n.types, ∃ side, ∃ p ∈ swc.ports side, ∃ t, ws.typeOf p = some (u.name, t) ∧ t.element ceilLog = .ok u.elem := by
  obtain ⟨hi, hn⟩ := fromSwc_inv h
  have key : ∀ (ps : List APort) (qs : List Port), PortLinks ws n.named ps qs →
      qs.map Port.name = (ps.filter (fun p => (ws.typeOf p).isSome)).map APort.name ∧
      ∀ (i : Nat) (p : APort) (q : Port), (ps.filter (fun p => (ws.typeOf p).isSome))[i]? = some p → qs[i]? = some q →
        q.id = some i ∧ ∃ tn t e, ws.typeOf p = some (tn, t) ∧ q.elem = .refType tn e ∧
          ∃ u ∈ n.types, u.name = tn ∧ u.elem = e := by
    intro ps qs hl
    refine ⟨map_eq_of_getElem _ _ _ _ hl.1 (fun i q p h1 h2 => (hl.2 i p q h2 h1).name), fun i p q h1 h2 => ?_⟩
    have hk := hl.2 i p q h1 h2
    obtain ⟨tn, t, e, h3, h4, h5, _⟩ := hk.elem
    obtain ⟨u, hu, he⟩ := List.mem_map.mp h5
    simp only [TypeObj.named, NamedType.mk.injEq] at he
    exact ⟨hk.id, tn, t, e, h3, h4, u, hu, he.1, he.2⟩
  refine ⟨hn, ?_, hi.names, ?_⟩
  · intro side
    cases side with
    | require => exact key _ _ hi.req
    | provide => exact key _ _ hi.prov
  · intro u hu
    obtain ⟨p, hp, t, h1, h2, _⟩ := hi.origin u hu
    rw [List.mem_append] at hp
    rcases hp with hp | hp
    · exact ⟨.require, p, hp, t, h1, h2⟩
    · exact ⟨.provide, p, hp, t, h1, h2⟩

/-- C80: an importable component is imported, with a port for each of its ports, in order, with the same
direction and name and with a type that can represent every value of the port's data type.
Missing from the full property: data types that share a short name, types outside C56, ports whose
interface is not found. -/
theorem C80_import_partial (ceilLog : Nat → Nat) (hc : Accurate ceilLog) (ws : Workspace) (swc : AComponent)
    (h : Importable ws swc) (name : Option Str) :
    ∃ n, Node.fromSwc ceilLog ws swc name = .ok n ∧ n.name = name.getD swc.name ∧
      ∀ side, (n.ports side).map Port.name = (swc.ports side).map APort.name ∧
        ∀ (i : Nat) (p : APort) (q : Port), (swc.ports side)[i]? = some p → (n.ports side)[i]? = some q →
          ∃ tn t e, ws.typeOf p = some (tn, t) ∧ q.elem = .refType tn e ∧ t.RepresentedBy e := by
  obtain ⟨n, hn⟩ := fromSwc_total hc h name
  obtain ⟨h1, h2, h3, h4⟩ := C80_ports ceilLog ws swc name n hn
  refine ⟨n, hn, h1, fun side => ?_⟩
  have hall : (swc.ports side).filter (fun p => (ws.typeOf p).isSome) = swc.ports side :=
    filter_all (fun p hp => by obtain ⟨tn, t, ht, _⟩ := h.types side p hp; simp [ht])
  obtain ⟨h5, h6⟩ := h2 side
  rw [hall] at h5 h6
  refine ⟨h5, fun i p q hp hq => ?_⟩
  obtain ⟨_, tn, t, e, h7, h8, u, hu, h9, h10⟩ := h6 i p q hp hq
  refine ⟨tn, t, e, h7, h8, ?_⟩
  obtain ⟨side', p', hp', t', h11, h12⟩ := h4 u hu
  have hm : p ∈ swc.ports side := List.mem_of_getElem? hp
  rw [h9] at h11
  have := h.consistent side side' p p' tn t t' hm hp' h7 h11
  subst this
  obtain ⟨tn2, t2, h13, h14⟩ := h.types side p hm
  rw [h7] at h13
  simp only [Option.some.injEq, Prod.mk.injEq] at h13
  obtain ⟨_, rfl⟩ := h13
  obtain ⟨e2, h15, h16⟩ := C56_represents_partial ceilLog hc t h14
  rw [h12] at h15
  simp only [Except.ok.injEq] at h15
  rw [← h10, h15]; exact h16

/-- A workspace with two packages, each with a type called `Speed`. -/
def imWs : Workspace := fun ref =>
  if ref = "/If/A".toList then some (.senderReceiver ["/Pkg1/Speed".toList])
  else if ref = "/If/B".toList then some (.senderReceiver ["/Pkg2/Speed".toList])
  else if ref = "/If/C".toList then some (.senderReceiver ["/Pkg1/Status".toList])
  else if ref = "/If/D".toList then some (.senderReceiver ["/Pkg1/Speed".toList, "/Pkg2/Speed".toList])
  else if ref = "/Pkg1/Speed".toList then some (.dataType "Speed".toList (.int 0 65535))
  else if ref = "/Pkg2/Speed".toList then some (.dataType "Speed".toList (.int 0 100))
  else if ref = "/Pkg1/Status".toList then
    some (.dataType "Status".toList (.record (.cons "on".toList .bool (.cons "level_RE".toList (.int 0 3) .nil))))
  else if ref = "/Const/Speed".toList then some (.constant (.int 300))
  else if ref = "/Const/Status".toList then some (.constant (.record [.int 1, .int 2]))
  else if ref = "/Const/Empty".toList then some (.constant (.record []))
  else if ref = "/Const/Text".toList then some (.constant (.str ['a', '"', 'b']))
  else if ref = "/DataType/DataTypeSemantics/Speed".toList then some (.compuConst [⟨0, 0, "Off".toList⟩, ⟨1, 2, "On".toList⟩])
  else none

/-- A component with three ports. -/
def imSwc : AComponent :=
  ⟨"Swc".toList,
   [⟨"VehSpeed".toList, "/If/A".toList, [.dataElement (some "/Const/Speed".toList)]⟩,
    ⟨"Lamp".toList, "/If/C".toList, [.dataElement (some "/Const/Status".toList)]⟩],
   [⟨"OutSpeed".toList, "/If/A".toList, []⟩]⟩

theorem imSwc_importable : Importable imWs imSwc := by
  have t1 : imWs.typeOf ⟨"VehSpeed".toList, "/If/A".toList, [.dataElement (some "/Const/Speed".toList)]⟩
      = some ("Speed".toList, .int 0 65535) := by decide +kernel
  have t2 : imWs.typeOf ⟨"Lamp".toList, "/If/C".toList, [.dataElement (some "/Const/Status".toList)]⟩
      = some ("Status".toList, .record (.cons "on".toList .bool (.cons "level_RE".toList (.int 0 3) .nil))) := by decide +kernel
  have t3 : imWs.typeOf ⟨"OutSpeed".toList, "/If/A".toList, []⟩ = some ("Speed".toList, .int 0 65535) := by decide +kernel
  have g1 : (AType.int 0 65535).Good := by
    simp only [AType.Good, GoodBounds]; exact .inl (by omega)
  have g2 : (AType.record (.cons "on".toList .bool (.cons "level_RE".toList (.int 0 3) .nil))).Good := by
    simp only [AType.Good, AFields.Good, GoodBounds]
    exact ⟨by decide, trivial, by decide, .inl (by omega), trivial⟩
  have hports : ∀ side, ∀ p ∈ imSwc.ports side,
      imWs.typeOf p = some ("Speed".toList, .int 0 65535) ∨
      imWs.typeOf p = some ("Status".toList, .record (.cons "on".toList .bool (.cons "level_RE".toList (.int 0 3) .nil))) := by
    intro side p hp
    cases side <;> simp only [imSwc, AComponent.ports, List.mem_cons, List.not_mem_nil, or_false] at hp
    · rcases hp with rfl | rfl
      · exact .inl t1
      · exact .inr t2
    · subst hp; exact .inl t3
  refine ⟨?_, ?_, ?_⟩
  · intro side p hp
    rcases hports side p hp with h | h
    · exact ⟨_, _, h, g1⟩
    · exact ⟨_, _, h, g2⟩
  · intro s s' p p' name t t' hp hp' h1 h2
    rcases hports s p hp with h | h <;> rcases hports s' p' hp' with h' | h' <;> rw [h] at h1 <;> rw [h'] at h2 <;>
      simp only [Option.some.injEq, Prod.mk.injEq] at h1 h2 <;> obtain ⟨rfl, rfl⟩ := h1 <;> obtain ⟨h3, rfl⟩ := h2
    · rfl
    · exact absurd h3 (by decide)
    · exact absurd h3 (by decide)
    · rfl
  · intro side p hp hinit
    cases side <;> simp only [imSwc, AComponent.ports, List.mem_cons, List.not_mem_nil, or_false] at hp
    · rcases hp with rfl | rfl
      · exact ⟨.int 300, .int 300, rfl, rfl, trivial⟩
      · exact ⟨.record [.int 1, .int 2], .list [.int 1, .int 2], rfl, rfl, by simp [InitVal.Plain, AllPlain]⟩
    · subst hp
      obtain ⟨ref, hr⟩ := hinit
      simp at hr

/-- C80 is violated by every component with two ports whose types have one name and no common representation: the import
does not fail, both ports get the same layout, and one of them cannot hold the values of its type. -/
theorem C80_shared_name_violated (ceilLog : Nat → Nat) (ws : Workspace) (swc : AComponent) (name : Option Str) (n : Node)
    (h : Node.fromSwc ceilLog ws swc name = .ok n) (side side' : Side) (p p' : APort) (hp : p ∈ swc.ports side)
    (hp' : p' ∈ swc.ports side') (tn : Str) (t t' : AType) (ht : ws.typeOf p = some (tn, t))
    (ht' : ws.typeOf p' = some (tn, t')) (hno : ∀ e, ¬(t.RepresentedBy e ∧ t'.RepresentedBy e)) :
    ∃ q ∈ n.ports side, ∃ q' ∈ n.ports side', ∃ e, q.name = p.name ∧ q'.name = p'.name ∧ q.elem = .refType tn e ∧
      q'.elem = .refType tn e ∧ ¬(t.RepresentedBy e ∧ t'.RepresentedBy e) := by
  obtain ⟨-, hports, hnd, -⟩ := C80_ports ceilLog ws swc name n h
  have key : ∀ (side : Side) (p : APort) (t : AType), p ∈ swc.ports side → ws.typeOf p = some (tn, t) →
      ∃ q ∈ n.ports side, ∃ e, q.name = p.name ∧ q.elem = .refType tn e ∧ ∃ u ∈ n.types, u.name = tn ∧ u.elem = e := by
    intro side p t hp ht
    obtain ⟨h1, h2⟩ := hports side
    have hm : p ∈ (swc.ports side).filter (fun p => (ws.typeOf p).isSome) := List.mem_filter.mpr ⟨hp, by rw [ht]; rfl⟩
    obtain ⟨i, hi⟩ := List.getElem?_of_mem hm
    have h3 := congrArg (fun l : List Str => l[i]?) h1
    simp only [List.getElem?_map, hi, Option.map_some, Option.map_eq_some_iff] at h3
    obtain ⟨q, hq, hqn⟩ := h3
    obtain ⟨-, tn', t'', e, e1, e2, e3⟩ := h2 i p q hi hq
    rw [ht] at e1
    cases e1
    exact ⟨q, List.mem_of_getElem? hq, e, hqn, e2, e3⟩
  obtain ⟨q, q1, e, q2, q3, u, u1, u2, u3⟩ := key side p t hp ht
  obtain ⟨q', r1, e', r2, r3, u', v1, v2, v3⟩ := key side' p' t' hp' ht'
  have huu : u = u' := by
    obtain ⟨i, hi⟩ := List.getElem?_of_mem u1
    obtain ⟨j, hj⟩ := List.getElem?_of_mem v1
    have hij : i = j := by
      refine (List.getElem?_inj (by simpa using (List.getElem?_eq_some_iff.mp hi).1) hnd).mp ?_
      rw [List.getElem?_map, List.getElem?_map, hi, hj]
      simp [u2, v2]
    rw [hij, hj] at hi
    exact (Option.some.inj hi).symm
  subst huu
  rw [← u3] at q3
  rw [← v3] at r3
  exact ⟨q, q1, q', r1, u.elem, q2, r2, q3, r3, hno _⟩

/-- Such a component: a number and a text. -/
example : ∃ n, Node.fromSwc exactCeilLog (fun ref =>
      if ref = ['A'] then some (.senderReceiver [['B']]) else if ref = ['B'] then some (.dataType ['T'] (.int 0 65535))
      else if ref = ['C'] then some (.senderReceiver [['D']]) else if ref = ['D'] then some (.dataType ['T'] (.string 5)) else none)
      ⟨['S'], [⟨['p'], ['A'], []⟩], [⟨['q'], ['C'], []⟩]⟩ none = .ok n ∧
    ∀ e, ¬((AType.int 0 65535).RepresentedBy e ∧ (AType.string 5).RepresentedBy e) := by
  have h : (Node.fromSwc exactCeilLog (fun ref =>
      if ref = ['A'] then some (.senderReceiver [['B']]) else if ref = ['B'] then some (.dataType ['T'] (.int 0 65535))
      else if ref = ['C'] then some (.senderReceiver [['D']]) else if ref = ['D'] then some (.dataType ['T'] (.string 5)) else none)
      ⟨['S'], [⟨['p'], ['A'], []⟩], [⟨['q'], ['C'], []⟩]⟩ none).toOption.isSome = true := by decide +kernel
  generalize Node.fromSwc _ _ _ _ = x at h
  cases x with
  | error y => cases h
  | ok n =>
    refine ⟨n, rfl, fun e ⟨h1, h2⟩ => ?_⟩
    have h1 : e.Admits 0 65535 := by simpa only [AType.RepresentedBy] using h1
    have h2 : ∃ len : Nat, e = .prim .str none none (some len) ∧ (len : Int) = 5 + 1 := by
      simpa only [AType.RepresentedBy] using h2
    obtain ⟨len, rfl, -⟩ := h2
    obtain ⟨tc, lo, hi, he, -⟩ := h1
    cases he

/-- C80 is violated by two data types with the same short name: the second port gets the layout of the
first port's type. The 8-bit value 0..100 becomes a 16-bit one, or, with the ports in the other order,
values above 255 do not fit. No exception is raised. -/
theorem C80_collision_violated :
    (Node.fromSwc exactCeilLog imWs ⟨"S".toList, [], [⟨"p".toList, "/If/A".toList, []⟩, ⟨"q".toList, "/If/B".toList, []⟩]⟩ none).toOption.map
        (fun n => n.provides.map (fun p => (p.name, p.elem)))
      = some [("p".toList, .refType "Speed".toList (.prim .u16 none none none)), ("q".toList, .refType "Speed".toList (.prim .u16 none none none))] ∧
    (Node.fromSwc exactCeilLog imWs ⟨"S".toList, [], [⟨"q".toList, "/If/B".toList, []⟩, ⟨"p".toList, "/If/A".toList, []⟩]⟩ none).toOption.map
        (fun n => n.provides.map (fun p => (p.name, p.elem)))
      = some [("q".toList, .refType "Speed".toList (.prim .u8 (some 0) (some 100) none)),
              ("p".toList, .refType "Speed".toList (.prim .u8 (some 0) (some 100) none))] ∧
    ¬ (AType.int 0 65535).RepresentedBy (.prim .u8 (some 0) (some 100) none) := by
  refine ⟨by decide +kernel, by decide +kernel, ?_⟩
  rw [AType.RepresentedBy]
  rintro ⟨tc, lo, hi, he, hv⟩
  cases he
  have := (hv 101 (by omega) (by omega)).2.2 100 rfl
  omega

theorem addAutosarPorts_skip (ceilLog : Nat → Nat) (ws : Workspace) (side : Side) (l r : List APort) (p : APort)
    (hp : ws p.interfaceRef = none) (n : Node) :
    n.addAutosarPorts ceilLog ws side (l ++ p :: r) = n.addAutosarPorts ceilLog ws side (l ++ r) := by
  induction l generalizing n with
  | nil =>
    have : n.addAutosarPort ceilLog ws side p = (n, .ok none) := by
      unfold Node.addAutosarPort Node.updateDataType
      simp only [hp]
    simp only [List.nil_append]
    rw [Node.addAutosarPorts, this]
  | cons q l ih =>
    simp only [List.cons_append]
    rw [Node.addAutosarPorts, Node.addAutosarPorts]
    cases h : n.addAutosarPort ceilLog ws side q with
    | mk m x =>
      cases x with
      | error x => rfl
      | ok x => exact ih m

/-- C80 is violated by ports whose interface is not in the workspace: the import does not raise on their
account, it gives the same node as for a component without them. -/
theorem C80_dropped_violated (ceilLog : Nat → Nat) (ws : Workspace) (name : Str) (l r l' r' : List APort) (p p' : APort)
    (newName : Option Str) (hp : ws p.interfaceRef = none) (hp' : ws p'.interfaceRef = none) :
    Node.fromSwc ceilLog ws ⟨name, l ++ p :: r, l' ++ p' :: r'⟩ newName
      = Node.fromSwc ceilLog ws ⟨name, l ++ r, l' ++ r'⟩ newName := by
  unfold Node.fromSwc Node.importSwc
  simp only [addAutosarPorts_skip ceilLog ws .provide l' r' p' hp']
  have : ∀ n : Node, n.addAutosarPorts ceilLog ws .require (l ++ p :: r) = n.addAutosarPorts ceilLog ws .require (l ++ r) :=
    fun n => addAutosarPorts_skip ceilLog ws .require l r p hp n
  simp only [this]

example : imWs "/If/Missing".toList = none ∧
    (Node.fromSwc exactCeilLog imWs ⟨"S".toList, [⟨"a".toList, "/If/A".toList, []⟩], []⟩ none).toOption.isSome := by
  decide +kernel

/-- C80: a port with two or more data elements, a data element whose type is not in the workspace or an
init value that is not in the workspace: no node is returned. -/
theorem C80_refuses (ceilLog : Nat → Nat) (ws : Workspace) (swc : AComponent) (name : Option Str) (side : Side) (p : APort)
    (hp : p ∈ swc.ports side)
    (h : (∃ a b l, ws p.interfaceRef = some (.senderReceiver (a :: b :: l))) ∨
      (∃ ref, ws p.interfaceRef = some (.senderReceiver [ref]) ∧ ws ref = none) ∨
      (∃ ref, p.comspec = [.dataElement (some ref)] ∧ ws ref = none ∧ (ws.typeOf p).isSome)) (n : Node) :
    Node.fromSwc ceilLog ws swc name ≠ .ok n := by
  have one : ∀ (n m : Node) (s : Side) (r : Option Port), n.addAutosarPort ceilLog ws s p ≠ (m, .ok r) := by
    intro n m s r hr
    unfold Node.addAutosarPort at hr
    rcases h with ⟨a, b, l, h⟩ | ⟨ref, h, h'⟩ | ⟨ref, h, h', h''⟩
    · simp [Node.updateDataType, h] at hr
    · simp [Node.updateDataType, h, h'] at hr
    · obtain ⟨⟨tn, t⟩, ht⟩ := Option.isSome_iff_exists.mp h''
      obtain ⟨tref, h1, h2⟩ := typeOf_some ht
      split at hr
      · simp at hr
      · rename_i n1 hu
        simp only [Node.updateDataType, h1, h2, bind_ok_iff, Except.ok.injEq, Prod.mk.injEq] at hu
        obtain ⟨_, _, _, hu⟩ := hu
        cases hu
      · have hx : ∀ (n : Node) (t : TypeObj), n.addImported ws s p t = .error .valueError := by
          intro n t
          simp [Node.addImported, APort.attribute, h, h', constText]
        simp [hx] at hr
  have many : ∀ (l : List APort) (n m : Node) (s : Side), p ∈ l → n.addAutosarPorts ceilLog ws s l ≠ (m, .ok ()) := by
    intro l
    induction l with
    | nil => intro n m s hl; simp at hl
    | cons q l ih =>
      intro n m s hl hr
      unfold Node.addAutosarPorts at hr
      split at hr
      · simp at hr
      · rename_i n1 r h1
        rcases List.mem_cons.mp hl with rfl | hl
        · exact one _ _ _ _ h1
        · exact ih _ _ _ hl hr
  intro hok
  unfold Node.fromSwc at hok
  split at hok
  · rename_i m hm
    unfold Node.importSwc at hm
    split at hm
    · simp at hm
    · rename_i n1 h1
      cases h2 : n1.addAutosarPorts ceilLog ws .require swc.requires with
      | mk n2 r =>
        rw [h2] at hm
        cases r with
        | error x => simp [Node.finishImport] at hm
        | ok u =>
          cases side with
          | require => exact many _ _ _ _ hp h2
          | provide => exact many _ _ _ _ hp h1
  · simp at hok

example : ∃ a b l, imWs "/If/D".toList = some (.senderReceiver (a :: b :: l)) := ⟨_, _, _, rfl⟩

/-! ### C81 -/

/-- C81: the ports of an imported component have the init values of the component: none where the
component has none, and otherwise the value of the constant, as the attribute is read by the rest of the
library; no port is a parameter or queued. Missing: constants that are not plain, which `C81_quote_violated`
and `C81_empty_violated` are about. -/
theorem C81_init_partial (ceilLog : Nat → Nat) (ws : Workspace) (swc : AComponent)
    (h : Importable ws swc) (name : Option Str) (n : Node) (hn : Node.fromSwc ceilLog ws swc name = .ok n)
    (side : Side) (i : Nat) (p : APort) (q : Port) (hp : (swc.ports side)[i]? = some p) (hq : (n.ports side)[i]? = some q) :
    (¬ p.HasInit → q.attr = none) ∧
    (p.HasInit → ∃ v w a, ws.initOf p = some v ∧ v.value = some w ∧ q.attr = some a ∧ a.initValue = some w ∧
      a.isParameter = false ∧ a.isQueued = false) := by
  have hlink : ∃ s, p.attribute ws = .ok s ∧ optArg portAttribute s = .ok q.attr := by
    obtain ⟨hi, _⟩ := fromSwc_inv hn
    have hall : (swc.ports side).filter (fun p => (ws.typeOf p).isSome) = swc.ports side :=
      filter_all (fun p hp => by obtain ⟨tn, t, ht, _⟩ := h.types side p hp; simp [ht])
    rw [← hall] at hp
    cases side with
    | require => exact (hi.req.2 i p q hp hq).attr
    | provide => exact (hi.prov.2 i p q hp hq).attr
  obtain ⟨s, h1, h2⟩ := hlink
  rcases attribute_ok (h.inits side p (List.mem_of_getElem? hp)) with ⟨h3, h4⟩ | ⟨v, w, h3, h4, h5, h6⟩
  · rw [h4] at h1
    simp only [Except.ok.injEq] at h1
    subst h1
    simp only [optArg, Except.ok.injEq] at h2
    exact ⟨fun _ => h2.symm, fun h => absurd h h3⟩
  · rw [h6] at h1
    simp only [Except.ok.injEq] at h1
    subst h1
    simp only [optArg, C51_roundtrip w h5, ok_bind, Except.ok.injEq] at h2
    refine ⟨fun h => absurd ?_ h, fun _ => ⟨v, w, _, h3, h4, h2.symm, rfl, rfl, rfl⟩⟩
    unfold Workspace.initOf at h3
    split at h3
    · rename_i ref hr; exact ⟨ref, hr⟩
    · simp at h3

example : ((Node.fromSwc exactCeilLog imWs imSwc none).toOption.map
    (fun n => n.requires.map (fun q => (q.name, q.attr.map (fun a => (a.str, a.isQueued)))))) =
      some [("VehSpeed".toList, some ("=0x12C".toList, false)), ("Lamp".toList, some ("={1,2}".toList, false))] := by
  decide +kernel

/-- C81: so the data file of the provide ports starts with the encoding of the constant in the range of the
port. -/
theorem C81_bytes_partial (ceilLog : Nat → Nat) (ws : Workspace) (swc : AComponent)
    (h : Importable ws swc) (name : Option Str) (n : Node) (hn : Node.fromSwc ceilLog ws swc name = .ok n)
    (nd : NodeData) (hd : n.nodeData = .ok nd) (hfit : n.InitsFit n.provides)
    (i : Nat) (p : APort) (q : Port) (hp : swc.provides[i]? = some p) (hq : n.provides[i]? = some q)
    (hinit : p.HasInit) (v : AConst) (w : InitVal) (hv : ws.initOf p = some v) (hw : v.value = some w) (hascii : w.Ascii)
    (e : Elem) (he : n.portType q = .ok e) (x : PyVal) (hden : e.Denotes w x) (hx : e.Exact x) :
    ∃ bs, e.layout x = some bs ∧ portBytes nd.outRanges nd.outFile i = some bs := by
  obtain ⟨v', w', a, h1, h2, h3, h4, _⟩ := (C81_init_partial ceilLog ws swc h name n hn .provide i p q hp hq).2 hinit
  obtain ⟨v2, w2, h5, h6, h7⟩ := h.inits .provide p (List.mem_of_getElem? hp) hinit
  rw [hv] at h1 h5
  cases h1; cases h5
  rw [hw] at h2 h6
  cases h2; cases h6
  have hi := fromSwc_inv hn
  have hat : portAttribute ('=' :: ([] ++ w.derive)) = .ok a := by
    have hall : (swc.ports .provide).filter (fun p => (ws.typeOf p).isSome) = swc.ports .provide :=
      filter_all (fun p hp => by obtain ⟨tn, t, ht, _⟩ := h.types .provide p hp; simp [ht])
    have hl := (hi.1.prov.2 i p q (by rw [show swc.provides = swc.ports .provide from rfl, hall]; exact hp) hq).attr
    obtain ⟨s, g1, g2⟩ := hl
    rcases attribute_ok (h.inits .provide p (List.mem_of_getElem? hp)) with ⟨g3, _⟩ | ⟨v3, w3, g3, g4, g5, g6⟩
    · exact absurd hinit g3
    · rw [hv] at g3; cases g3
      rw [hw] at g4; cases g4
      rw [g6] at g1
      simp only [Except.ok.injEq] at g1
      subst g1
      simp only [optArg, bind_ok_iff, Except.ok.injEq] at g2
      obtain ⟨y, g7, g8⟩ := g2
      rw [h3] at g8
      cases g8
      exact g7
  exact C71_provide_partial n nd hd hfit i q hq w.derive [] w (spells_derive w h7) (by simp [Blank]) a hat h3 hascii e he x hden hx

/-- C81 is violated by texts with a quote: the text `a"Q` becomes the init value `a`, and the port becomes
a queued one. -/
theorem C81_quote_violated (ws : Workspace) (p : APort) (ref : Str)
    (hp : p.comspec = [.dataElement (some ref)]) (hr : ws ref = some (.constant (.str ['a', '"', 'Q']))) :
    ∃ s, p.attribute ws = .ok (some s) ∧
      ∃ a, portAttribute s = .ok a ∧ a.isQueued = true ∧ (∃ t, a.initValue = some (.str t) ∧ t = ['a']) := by
  refine ⟨"=\"a\"Q\"".toList, ?_, ?_⟩
  · simp [APort.attribute, hp, hr, constText, AConst.derive]
  · exact ⟨_, rfl, by decide +kernel, _, rfl, rfl⟩

/-- C81 is violated by an empty record or array: the port has no init value. -/
theorem C81_empty_violated (ws : Workspace) (p : APort) (ref : Str)
    (hp : p.comspec = [.dataElement (some ref)]) (hr : ws ref = some (.constant (.array []))) :
    ∃ s, p.attribute ws = .ok (some s) ∧ (∀ a, portAttribute s = .ok a → a.initValue = none) := by
  refine ⟨"={}".toList, ?_, ?_⟩
  · simp [APort.attribute, hp, hr, constText, AConst.derive, AConst.deriveAll, joinComma]
  · intro a ha
    have : (match portAttribute "={}".toList with | .ok a => a.initValue.isNone | .error _ => true) = true := by decide +kernel
    rw [ha] at this
    simpa using this

end Apx
