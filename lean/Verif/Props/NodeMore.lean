import Verif.Props.Client
import Verif.Props.WriteMore

/-! C42, C44, C45, C46, C54: where they fail, for all nodes. -/

namespace Apx

/-! ### C42 -/

/-- C42 fails after mirroring, for every node that has a port: the ports of the mirror have no identifiers, and node
data cannot be created. -/
theorem C42_mirror_violated (n m : Node) (name : Option Str) (h : n.mirror name = .ok m) :
    (∀ side, ∀ p ∈ m.ports side, p.id = none) ∧
      (n.requires ≠ [] ∨ n.provides ≠ [] → ∃ x, m.nodeData = .error x) := by
  have hid : ∀ side, ∀ p ∈ m.ports side, p.id = none := by
    intro side p hp
    obtain ⟨_, _, _, hm⟩ := mirror_ok n m name h
    obtain ⟨l, h1, h2⟩ := hm side
    have h3 := map_ok_map h2 Port.id Port.id (fun x y e => (resolvePort_id_name _ _ _ e).1)
    have h4 := map_ok_map h1 (fun _ => (none : Option Nat)) Port.id (by
      intro x y e
      simp only [Port.mirror, mkPort, bind_ok_iff, Except.ok.injEq] at e
      obtain ⟨_, _, _, _, _, _, rfl⟩ := e
      rfl)
    have : p.id ∈ (m.ports side).map Port.id := List.mem_map.mpr ⟨p, hp, rfl⟩
    rw [h3, h4] at this
    obtain ⟨_, _, h5⟩ := List.mem_map.mp this
    exact h5.symm
  refine ⟨hid, fun hne => ?_⟩
  have hex : ∃ side p, (m.ports side)[0]? = some p := by
    have hpos : ∀ side, n.ports side.other ≠ [] → ∃ p, (m.ports side)[0]? = some p := by
      intro side hs
      have hl := congrArg List.length (mirror_names n m name h side)
      simp only [List.length_map] at hl
      have h0 : 0 < (m.ports side).length := by rw [hl]; exact List.length_pos_iff.mpr hs
      exact ⟨_, List.getElem?_eq_getElem h0⟩
    rcases hne with hne | hne
    · exact ⟨.provide, hpos .provide hne⟩
    · exact ⟨.require, hpos .require hne⟩
  obtain ⟨side, p, hp⟩ := hex
  cases hd : m.nodeData with
  | error x => exact ⟨x, rfl⟩
  | ok nd =>
    have h1 := nodeData_ids hd side 0 p hp
    rw [hid side p (List.mem_of_getElem? hp)] at h1
    cases h1

/-- C42 fails after sorting, for every node with ports that are not in the order of their names: writing the node as
text (which finalizes it sorted) makes it impossible to create its node data. -/
theorem C42_dump_violated (n m : Node) (nm : Bool) (text : Str) (hb : n.Built) (hf : n.isFinalized = false)
    (hids : ∀ (side : Side) (i : Nat) (p : Port), (n.ports side)[i]? = some p → p.id = some i) (h : n.dumps nm = .ok (m, text))
    (side : Side) (hs : ¬ SortedByName Port.name (n.ports side)) : ∃ x, m.nodeData = .error x := by
  have hm : m = n.finalized true false := by
    unfold Node.dumps at h
    rw [if_neg (by simp [hf]), finalize_eq n true false hb.inv.toNodeInv0 hf, ok_bind] at h
    obtain ⟨_, _, h⟩ := bind_ok_iff.mp h
    simp only [Except.ok.injEq, Prod.mk.injEq] at h
    exact h.1.symm
  have hp : m.ports side = sortedByName Port.name (n.ports side) := by
    rw [hm, finalized_ports]
    rfl
  cases hd : m.nodeData with
  | error x => exact ⟨x, rfl⟩
  | ok nd =>
    exfalso
    apply hs
    have hperm : (m.ports side).Perm (n.ports side) := by
      rw [hp]
      exact sortedByName_perm _ _
    have he : m.ports side = n.ports side := by
      apply List.ext_getElem? 
      intro i
      by_cases hi : i < (m.ports side).length
      · have h1 := List.getElem?_eq_getElem hi
        have h2 := nodeData_ids hd side i _ h1
        obtain ⟨j, hj, h3⟩ := List.mem_iff_getElem.mp (hperm.mem_iff.mp (List.getElem_mem hi))
        have h4 := hids side j _ (List.getElem?_eq_getElem hj)
        rw [h3, h2] at h4
        cases h4
        rw [h1, ← h3, List.getElem?_eq_getElem hj]
      · rw [List.getElem?_eq_none (by omega), List.getElem?_eq_none (by have := hperm.length_eq; omega)]
    rw [← he, hp]
    exact sortedByName_sorted _ _

/-- The example node meets the hypotheses: it has node data, so its ports are numbered by position, it is not finalized,
and its require ports are not in order. -/
example : noNode.isFinalized = false ∧ (∃ nd, noNode.nodeData = .ok nd) ∧ (noNode.dumps false).succeeds = true ∧
    noNode.requires.map Port.name ≠ (sortedByName Port.name noNode.requires).map Port.name ∧
    (noNode.mirror none).succeeds = true :=
  ⟨by decide +kernel, (Py.succeeds_iff _).mp (by decide +kernel), by decide +kernel, by decide +kernel, by decide +kernel⟩

/-! ### C44 -/

/-- C44 fails for ports added directly, for every node: a port is accepted whatever the names of the ports that are
there, so with the name of one of them there are two. -/
theorem C44_append_violated (n : Node) (side : Side) (q : Port) (hq : q.elem.isReference = false) :
    ∃ n', n.addPort side q = .ok (n', { q with id := some (n.ports side).length }) ∧
      n'.ports side = n.ports side ++ [{ q with id := some (n.ports side).length }] ∧
      (q.name ∈ n.portNames → ¬ n'.portNames.Nodup) := by
  refine ⟨n.setPorts side (n.ports side ++ [{ q with id := some (n.ports side).length }]), ?_, ?_, ?_⟩
  · unfold Node.addPort resolvePort
    simp only [hq, Bool.false_eq_true, if_false, ok_bind]
  · cases side <;> rfl
  · intro hm hn
    unfold Node.portNames at hm hn
    cases side with
    | require =>
      simp only [Node.setPorts, Node.ports, List.map_append, List.map_cons, List.map_nil, List.nodup_append,
        List.mem_append, List.mem_singleton] at hn
      obtain ⟨⟨_, _, h1⟩, _, h2⟩ := hn
      rcases List.mem_append.mp hm with h | h
      · exact h1 _ h _ rfl rfl
      · exact h2 _ (.inr rfl) _ h rfl
    | provide =>
      simp only [Node.setPorts, Node.ports, List.map_append, List.map_cons, List.map_nil, List.nodup_append,
        List.mem_append, List.mem_singleton] at hn
      obtain ⟨_, ⟨_, _, h1⟩, h2⟩ := hn
      rcases List.mem_append.mp hm with h | h
      · exact h2 _ h _ (.inr rfl) rfl
      · exact h1 _ h _ rfl rfl

/-- C44 fails for copies: the documented behaviour is that a port whose name exists is ignored if `ignore_duplicates` is
given and refused otherwise. The argument makes no difference: a port with the text of the one that is there is accepted,
any other is refused. -/
theorem C44_ignore_violated (n src : Node) (side : Side) (p q : Port) (hq : n.portNamed p.name = some (side, q)) (ig : Bool) :
    (∀ s, q.toStr n.ids true side = .ok s → p.toStr src.ids true side = .ok s → n.addPortFrom src side p ig = (n, .ok q)) ∧
    (∀ s t, q.toStr n.ids true side = .ok s → p.toStr src.ids true side = .ok t → s ≠ t →
      n.addPortFrom src side p ig = (n, .error .valueError)) := by
  constructor
  · intro s h1 h2
    simp only [Node.addPortFrom, Node.checkDuplicate, hq, ne_eq, not_true, if_false, verifyEqual, h1, h2, ok_bind]
  · intro s t h1 h2 hne
    simp only [Node.addPortFrom, Node.checkDuplicate, hq, ne_eq, not_true, if_false, verifyEqual, h1, h2, ok_bind, hne,
      not_false_eq_true, if_true, error_bind]

/-! ### C45 -/

/-- C45 fails for every node with a port whose type is a record with a type number inside: it cannot be mirrored. -/
theorem C45_number_violated (n : Node) (side : Side) (p : Port) (hp : p ∈ n.ports side) (hn : ¬ p.elem.NoNumbers)
    (name : Option Str) : ∃ x, n.mirror name = .error x := by
  cases h : n.mirror name with
  | error x => exact ⟨x, rfl⟩
  | ok m =>
    obtain ⟨_, _, _, hm⟩ := mirror_ok n m name h
    obtain ⟨l, h1, _⟩ := hm side.other
    have hoo : side.other.other = side := by cases side <;> rfl
    rw [hoo] at h1
    have h2 : Port.mirror n.ids side p ∈ l.map (Except.ok : Port → Py Port) := by
      rw [← h1]
      exact List.mem_map_of_mem hp
    obtain ⟨q, _, h3⟩ := List.mem_map.mp h2
    simp only [Port.mirror, (Elem.toStr_numbers n.ids _ p.elem).2 hn, error_bind] at h3
    cases h3

/-! ### C46 -/

theorem pyIndex_negative {α : Type} (l : List α) (i : Int) (h1 : i < 0) (h2 : 0 ≤ i + l.length) :
    pyIndex l i = pyIndex l (i + l.length) := by
  unfold pyIndex
  rw [if_pos h1, if_pos h2, if_neg (by omega)]

/-- C46 is violated by negative numbers, in every node with types: `T[-k]` denotes no type, but it is taken for the `k`th
type from the end. -/
theorem C46_negative_violated (n : Node) (t u : TypeObj) (k : Nat) (hk : 0 < k) (hn : n.typeNamed t.name = none)
    (hu : k ≤ n.types.length ∧ n.types[n.types.length - k]? = some u) (ht : t.elem = .refId (-(k : Int)))
    (hr : ∃ e, (Elem.refType u.name u.elem).resolveDataElement = .ok e) :
    ∃ t', n.addType t = .ok ({ n with types := n.types ++ [t'] }, t') ∧ t'.elem = .refType u.name u.elem := by
  obtain ⟨e, hr⟩ := hr
  have hl : n.named.length = n.types.length := by simp [Node.named]
  have hx : pyIndex n.named (-(k : Int)) = .ok u.named := by
    rw [pyIndex_negative _ _ (by omega) (by rw [hl]; omega), hl]
    unfold pyIndex
    rw [if_neg (by omega)]
    have h1 : (-(k : Int) + (n.types.length : Int)).toNat = n.types.length - k := by omega
    rw [h1]
    simp only [Node.named, List.getElem?_map, hu.2, Option.map_some]
  refine ⟨{ t with elem := .refType u.name u.elem }, ?_, rfl⟩
  unfold Node.addType
  simp only [hn, ht, resolveDsg, Elem.resolveType, hx, ok_bind, TypeObj.named, hr]

example : ∃ t u : TypeObj, noNode.typeNamed t.name = none ∧ t.elem = .refId (-((1 : Nat) : Int)) ∧
    1 ≤ noNode.types.length ∧ noNode.types[noNode.types.length - 1]? = some u ∧
    ∃ e, (Elem.refType u.name u.elem).resolveDataElement = .ok e := by
  have h : (match noNode.types[noNode.types.length - 1]? with
      | some u => (Elem.refType u.name u.elem).resolveDataElement.succeeds
      | none => false) = true ∧ noNode.typeNamed ['Z', 'Z'] = none ∧ 1 ≤ noNode.types.length := by
    refine ⟨by decide +kernel, ?_, by decide +kernel⟩
    rw [← Option.isNone_iff_eq_none]
    decide +kernel
  obtain ⟨h1, h2, h3⟩ := h
  split at h1
  · rename_i u hu
    exact ⟨⟨['Z', 'Z'], .refId (-((1 : Nat) : Int)), none, none, none⟩, u, h2, rfl, h3, hu, (Py.succeeds_iff _).mp h1⟩
  · cases h1

/-! ### C54 -/

/-- C54 is violated by negative numbers, which are no identifiers of ports: they count from the end. -/
theorem C54_negative_violated (n : Node) (nd : NodeData) (i : Int) (h1 : i < 0) :
    (0 ≤ i + n.requires.length → (Client.mk (some (n, nd))).read (.index i) =
      (Client.mk (some (n, nd))).read (.index (i + n.requires.length))) ∧
    (0 ≤ i + n.provides.length → ∀ v, (Client.mk (some (n, nd))).write (.index i) v =
      (Client.mk (some (n, nd))).write (.index (i + n.provides.length)) v) := by
  constructor
  · intro h2
    simp only [Client.read, Node.readTarget, pyIndex_negative n.requires i h1 h2]
  · intro h2 v
    simp only [Client.write, Node.writeTarget, pyIndex_negative n.provides i h1 h2]

/-- C54 is violated whenever a type has the name of a port: reading that name gives the value of the provide port numbered
like the type, or an exception if there is none. -/
theorem C54_type_name_violated (n : Node) (nd : NodeData) (name : Str) (t : TypeObj) (k : Nat)
    (ht : n.typeNamed name = some t) (hk : t.id = some k) :
    (Client.mk (some (n, nd))).read (.name name) = (⟨some (n, nd)⟩, match nd.readProvide k with
      | .ok v => .ok (some v)
      | .error x => .raised x) := by
  have hf : n.find name = some (.type t) := by
    unfold Node.find
    unfold Node.typeNamed at ht
    rw [ht]
  simp only [Client.read, Node.readTarget, hf, hk]
  cases nd.readProvide k <;> rfl

end Apx
