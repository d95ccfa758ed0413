import Verif.Props.Node

/-! C45: what mirroring does with nameless fields. -/

namespace Apx

mutual
/-- The element with every nameless field called `None`. -/
def Elem.noneNamed : Elem → Elem
  | .record fs a => .record fs.noneNamed a
  | e => e
/-- See `Elem.noneNamed`. -/
def Fields.noneNamed : Fields → Fields
  | .nil => .nil
  | .cons n e r => .cons (some (n.getD "None".toList)) e.noneNamed r.noneNamed
end

mutual
/-- Some field of the element has no name. -/
def Elem.Nameless : Elem → Prop
  | .record fs _ => fs.Nameless
  | _ => False
/-- See `Elem.Nameless`. -/
def Fields.Nameless : Fields → Prop
  | .nil => False
  | .cons n e r => n = none ∨ e.Nameless ∨ r.Nameless
end

mutual
theorem Elem.noneNamed_ne (e : Elem) (h : e.Nameless) : e.noneNamed ≠ e := by
  match e with
  | .record fs a =>
    simp only [Elem.noneNamed, ne_eq, Elem.record.injEq, and_true]
    exact Fields.noneNamed_ne fs h
  | .prim .. => exact h.elim
  | .refId _ => exact h.elim
  | .refName _ => exact h.elim
  | .refType _ _ => exact h.elim
theorem Fields.noneNamed_ne (fs : Fields) (h : fs.Nameless) : fs.noneNamed ≠ fs := by
  match fs with
  | .nil => exact h.elim
  | .cons n e r =>
    simp only [Fields.noneNamed, ne_eq, Fields.cons.injEq]
    rintro ⟨h1, h2, h3⟩
    rcases h with h | h | h
    · subst h; cases h1
    · exact Elem.noneNamed_ne e h h2
    · exact Fields.noneNamed_ne r h h3
end

mutual
theorem Elem.noneNamed_toStr (ids : Str → Option Int) (nm : Bool) (e : Elem) : e.noneNamed.toStr ids nm = e.toStr ids nm := by
  match e with
  | .record fs a => simp only [Elem.noneNamed, Elem.toStr, Fields.noneNamed_toStr ids nm fs]
  | .prim .. => rfl
  | .refId _ => rfl
  | .refName _ => rfl
  | .refType _ _ => rfl
theorem Fields.noneNamed_toStr (ids : Str → Option Int) (nm : Bool) (fs : Fields) :
    fs.noneNamed.toStr ids nm = fs.toStr ids nm := by
  match fs with
  | .nil => rfl
  | .cons n e r =>
    simp only [Fields.noneNamed, Fields.toStr, Elem.noneNamed_toStr ids nm e, Fields.noneNamed_toStr ids nm r]
    cases n <;> rfl
end

mutual
theorem Elem.noneNamed_raw (e : Elem) (h : e.Raw) : e.noneNamed.Raw := by
  match e with
  | .record fs a => exact ⟨h.1, Fields.noneNamed_raw fs h.2⟩
  | .prim .. => exact h
  | .refId _ => exact h
  | .refName _ => exact h
  | .refType _ _ => exact h
theorem Fields.noneNamed_raw (fs : Fields) (h : fs.Raw) : fs.noneNamed.Raw := by
  match fs with
  | .nil => trivial
  | .cons n e r => exact ⟨Elem.noneNamed_raw e h.1, Fields.noneNamed_raw r h.2⟩
end

/-- The port with every nameless field called `None`. -/
def Port.noneNamed (p : Port) : Port := { p with elem := p.elem.noneNamed }

theorem Port.noneNamed_inv {named : List NamedType} {p : Port} (h : PortInv named p) : PortInv named p.noneNamed := by
  have hr : p.elem.noneNamed.isReference = p.elem.isReference := by cases p.elem <;> rfl
  refine ⟨?_, ?_, h.attr⟩
  · intro h1
    have h1 : p.elem.noneNamed.isReference = true := h1
    rw [hr] at h1
    obtain ⟨m, t, he, hm⟩ := h.ref h1
    have hn : p.noneNamed.elem = p.elem := by show p.elem.noneNamed = _; rw [he]; rfl
    rw [hn]
    exact ⟨m, t, he, hm⟩
  · intro h1
    have h1 : p.elem.noneNamed.isReference = false := h1
    rw [hr] at h1
    exact Elem.noneNamed_raw _ (h.raw h1)

theorem mirror_named (ids : Str → Option Int) (side : Side) (ps : List Port) :
    mapPy (Port.mirror ids side) ps = mapPy (Port.mirror ids side) (ps.map Port.noneNamed) := by
  induction ps with
  | nil => rfl
  | cons p ps ih =>
    simp only [mapPy, List.map_cons, ih, Port.mirror, Port.noneNamed, Elem.noneNamed_toStr]

/-- C45, exactly: mirroring keeps everything except that nameless fields of records, which the parser of signatures
accepts, are called `None` afterwards. -/
theorem C45_exactly_partial (n : Node) (hb : n.Built) (name : Option Str)
    (hw : ∀ side, ∀ p ∈ n.ports side, p.elem.noneNamed.WellFormed) :
    ∃ m, n.mirror name = .ok m ∧ m.name = name.getD n.name ∧ m.types = n.types ∧
      m.requires.map Port.content = n.provides.map (fun p => p.noneNamed.content) ∧
      m.provides.map Port.content = n.requires.map (fun p => p.noneNamed.content) := by
  have hl : ∀ side, ∃ l, mapPy (Port.mirror n.ids side) (n.ports side) = .ok l ∧
      mapPy (resolvePort n.named) l = .ok (((n.ports side).map Port.noneNamed).map fun p => { p with id := none }) := by
    intro side
    rw [mirror_named]
    apply mirror_list hb.inv
    · intro p hp
      obtain ⟨q, hq, rfl⟩ := List.mem_map.mp hp
      exact Port.noneNamed_inv (hb.inv.ports side q hq)
    · intro p hp
      obtain ⟨q, hq, rfl⟩ := List.mem_map.mp hp
      exact hw side q hq
  obtain ⟨l, h1, h2⟩ := hl .provide
  obtain ⟨l', h3, h4⟩ := hl .require
  simp only [Node.ports] at h1 h2 h3 h4
  refine ⟨⟨name.getD n.name, false, n.types, (n.provides.map Port.noneNamed).map fun p => { p with id := none },
    (n.requires.map Port.noneNamed).map fun p => { p with id := none }⟩, ?_, rfl, rfl, ?_, ?_⟩
  · unfold Node.mirror
    rw [h1, h3]
    simp only [ok_bind, Node.resolveTypes, Node.named] at *
    rw [h2, h4]
    rfl
  · simp [Port.content, Function.comp_def]
  · simp [Port.content, Function.comp_def]

/-- C45 fails for every node with a port that has a nameless field, which the parser of signatures accepts: the node can
be mirrored, and the mirror's port of that number has another type. -/
theorem C45_nameless_violated (n : Node) (hb : n.Built) (name : Option Str)
    (hw : ∀ side, ∀ p ∈ n.ports side, p.elem.noneNamed.WellFormed) (k : Nat) (p : Port) (hk : n.requires[k]? = some p)
    (hp : p.elem.Nameless) :
    ∃ m q, n.mirror name = .ok m ∧ m.provides[k]? = some q ∧ q.name = p.name ∧ q.elem = p.elem.noneNamed ∧ q.elem ≠ p.elem := by
  obtain ⟨m, h1, -, -, -, h2⟩ := C45_exactly_partial n hb name hw
  have h3 := congrArg (·[k]?) h2
  simp only [List.getElem?_map, hk, Option.map_some, Option.map_eq_some_iff] at h3
  obtain ⟨q, h4, h5⟩ := h3
  simp only [Port.content, Port.noneNamed, Prod.mk.injEq] at h5
  exact ⟨m, q, h1, h4, h5.1, h5.2.1, by rw [h5.2.1]; exact Elem.noneNamed_ne _ hp⟩

/-- A node with a nameless field. -/
example : let n := (Node.new ['N']).run [.addPort .require ['A'] ['{', 'C', '}'] none]
    n.Built ∧ (∀ side, ∀ p ∈ n.ports side, p.elem.noneNamed.WellFormed) ∧
      ∃ p, n.requires[0]? = some p ∧ p.elem.Nameless := by
  have h : ((Node.new ['N']).run [.addPort .require ['A'] ['{', 'C', '}'] none]).requires.map Port.elem =
      [.record (.cons none (.prim .u8 none none none) .nil) none] ∧
      ((Node.new ['N']).run [.addPort .require ['A'] ['{', 'C', '}'] none]).provides = [] := by decide +kernel
  intro n
  refine ⟨⟨_, _, rfl⟩, ?_, ?_⟩
  · intro side p hp
    cases side with
    | require =>
      have : p.elem ∈ n.requires.map Port.elem := List.mem_map.mpr ⟨p, hp, rfl⟩
      rw [h.1] at this
      simp only [List.mem_cons, List.not_mem_nil, or_false] at this
      rw [this]
      exact ⟨rfl, ⟨_, rfl, by simp [QuoteFree]⟩, rfl, trivial⟩
    | provide =>
      have hp : p ∈ n.provides := hp
      rw [h.2] at hp
      cases hp
  · cases hr : n.requires with
    | nil => have := h.1; rw [show _ = n.requires from rfl, hr] at this; cases this
    | cons p ps =>
      have h1 := h.1
      rw [show _ = n.requires from rfl, hr] at h1
      simp only [List.map_cons, List.cons.injEq] at h1
      exact ⟨p, rfl, by rw [h1.1]; exact .inl rfl⟩

end Apx
