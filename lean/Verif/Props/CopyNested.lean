import Verif.Props.Copy
import Verif.Proofs.Tools

/-! C61: ports of types that read alike and mean something else, for all nodes. -/

namespace Apx

/-- Copying a port of a record type that reads alike in the receiving node: the port is added, with the receiving node's type of
that name. -/
theorem alike_copy {n src : Node} (hn : NodeInv n) (hs : NodeInv src) {side : Side} {p : Port} (hp : p ∈ src.ports side)
    (hw : p.elem.WellFormed) (hdup : n.portNamed p.name = none) {t u : TypeObj} (ht : t ∈ n.types)
    (hu : u ∈ src.types) (hname : t.name = u.name) (he : p.elem = .refType u.name u.elem) {text : Str}
    (h1 : t.toStr n.ids true = .ok text) (h2 : u.toStr src.ids true = .ok text)
    {fs : Fields} {arrayLen : Option Nat} (hrec : t.elem = .record fs arrayLen) (ignoreDuplicates : Bool) :
    ∃ q, n.addPortFrom src side p ignoreDuplicates = (n.setPorts side (n.ports side ++ [q]), .ok q) ∧ q.name = p.name ∧
      q.attr = p.attr ∧ q.elem = .refType t.name t.elem := by
  have hpi := hs.ports side p hp
  obtain ⟨s, c, k1, k2, k3, k4, k5, k6, -⟩ := reparse_port hs p hpi hw (side = .require)
  have hc : p.clone src.ids side = .ok c := by
    unfold Port.clone Port.mirror
    simp only [k1, ok_bind, k2]
  have hfind : n.find u.name = some (.type t) := by
    have := typeNamed_of_mem hn ht
    unfold Node.typeNamed at this
    unfold Node.find
    rw [← hname, this]
  have htgt : n.targetType src u.name u.elem = (n, .ok t) := by
    unfold Node.targetType
    simp only [hfind, typeNamed_of_mem hs hu, Option.getD_some, h1, h2, verifyEqual, ok_bind, ne_eq, not_true, if_false]
  obtain ⟨d, hd⟩ : ∃ d, (Elem.refType t.name t.elem).resolveDataElement = .ok d := by
    rw [hrec]
    exact ⟨.record fs arrayLen, rfl⟩
  have hres : ∀ k, resolvePort n.named { c with elem := .refType t.name t.elem, id := some k } =
      .ok { c with elem := .refType t.name t.elem, id := some k } := by
    intro k
    simp [resolvePort, Elem.isReference, resolveDsg, Elem.resolveType, hd]
  refine ⟨{ c with elem := .refType t.name t.elem, id := some (n.ports side).length }, ?_, k3, k4, rfl⟩
  unfold Node.addPortFrom Node.checkDuplicate
  simp only [hdup, hc, he, htgt]
  unfold Node.addPortM Node.addPort
  simp only [hres]
  rfl

/-- C61 fails for every port of a record type that reads alike in the receiving node and is another one there, because types
it refers to are other ones: the port is copied without an error, and has the receiving node's type of that name. -/
theorem C61_alike_violated (n src : Node) (hn : n.Built) (hs : src.Built) (side : Side) (p : Port) (hp : p ∈ src.ports side)
    (hw : p.elem.WellFormed) (hnew : ∀ side, ∀ q ∈ n.ports side, q.name ≠ p.name) (t u : TypeObj) (ht : t ∈ n.types)
    (hu : u ∈ src.types) (hname : t.name = u.name) (he : p.elem = .refType u.name u.elem) (text : Str)
    (h1 : t.toStr n.ids true = .ok text) (h2 : u.toStr src.ids true = .ok text) (hne : t.elem ≠ u.elem)
    (fs : Fields) (arrayLen : Option Nat) (hrec : t.elem = .record fs arrayLen) (ignoreDuplicates : Bool) :
    ∃ n' q, n.addPortFrom src side p ignoreDuplicates = (n', .ok q) ∧ q ∈ n'.ports side ∧ q.name = p.name ∧
      q.attr = p.attr ∧ n'.types = n.types ∧ q.elem = .refType u.name t.elem ∧ q.elem ≠ p.elem := by
  have hdup : n.portNamed p.name = none := by
    have ha : n.provides.find? (fun q => decide (q.name = p.name)) = none :=
      List.find?_eq_none.mpr fun q hq => by simpa using hnew .provide q hq
    have hb : n.requires.find? (fun q => decide (q.name = p.name)) = none :=
      List.find?_eq_none.mpr fun q hq => by simpa using hnew .require q hq
    simp only [Node.portNamed, ha, hb, Option.map_none]
  obtain ⟨q, k1, k2, k3, k4⟩ := alike_copy hn.inv hs.inv hp hw hdup ht hu hname he h1 h2 hrec ignoreDuplicates
  obtain ⟨f1, f2⟩ := setPorts_both n side (n.ports side ++ [q])
  refine ⟨_, q, k1, ?_, k2, k3, setPorts_types .., ?_, ?_⟩
  · rw [f2]
    simp
  · rw [k4, hname]
  · rw [k4, he, hname]
    intro h
    exact hne (Elem.refType.inj h).2

/-- `cySrc` and `cyOther`: the type `R` reads alike in both. -/
example : cyOther.Built ∧ cySrc.Built ∧ (∃ p ∈ cySrc.ports .require, ∃ u ∈ cySrc.types, p.elem = .refType u.name u.elem ∧
    p.elem.WellFormed ∧ (∀ side, ∀ q ∈ cyOther.ports side, q.name ≠ p.name) ∧
    ∃ t ∈ cyOther.types, t.name = u.name ∧ (∃ text, t.toStr cyOther.ids true = .ok text ∧ u.toStr cySrc.ids true = .ok text) ∧
      t.elem ≠ u.elem ∧ ∃ fs a, t.elem = .record fs a) := by
  refine ⟨⟨_, _, rfl⟩, ⟨_, _, rfl⟩, ?_⟩
  have h : cySrc.requires.map (fun p => (p.name, p.elem)) = [(['P'], .refType ['R'] (.record (.cons (some ['x'])
      (.refType ['A'] (.prim .u8 none none none)) .nil) none))] := by decide +kernel
  have hu : cySrc.types.map (fun t => (t.name, t.elem, decide (t.attr.isNone ∧ t.shortName = none))) =
      [(['A'], .prim .u8 none none none, true), (['R'], .record (.cons (some ['x'])
      (.refType ['A'] (.prim .u8 none none none)) .nil) none, true)] := by decide +kernel
  have ht : cyOther.types.map (fun t => (t.name, t.elem, decide (t.attr.isNone ∧ t.shortName = none))) =
      [(['A'], .prim .u16 none none none, true), (['R'], .record (.cons (some ['x'])
      (.refType ['A'] (.prim .u16 none none none)) .nil) none, true)] := by decide +kernel
  obtain ⟨p, hp, e⟩ := List.mem_map.mp (h ▸ List.mem_singleton.mpr rfl)
  obtain ⟨u, hu1, eu⟩ := List.mem_map.mp (hu ▸ List.mem_cons_of_mem _ (List.mem_singleton.mpr rfl))
  obtain ⟨t, ht1, et⟩ := List.mem_map.mp (ht ▸ List.mem_cons_of_mem _ (List.mem_singleton.mpr rfl))
  simp only [Prod.mk.injEq, decide_eq_true_eq, Option.isNone_iff_eq_none] at e eu et
  refine ⟨p, hp, u, hu1, ?_, ?_, ?_, t, ht1, ?_, ⟨"T\"R\"{\"x\"T[\"A\"]}".toList, ?_, ?_⟩, ?_, _, _, et.2.1⟩
  · rw [e.2, eu.1, eu.2.1]
  · rw [e.2]
    simp [Elem.WellFormed, RefNameOk]
  · have h0 : cyOther.requires.isEmpty = true ∧ cyOther.provides.isEmpty = true := by decide +kernel
    have : cyOther.requires = [] ∧ cyOther.provides = [] := ⟨List.isEmpty_iff.mp h0.1, List.isEmpty_iff.mp h0.2⟩
    intro side q hq
    cases side
    · have hq : q ∈ cyOther.requires := hq
      rw [this.1] at hq; cases hq
    · have hq : q ∈ cyOther.provides := hq
      rw [this.2] at hq; cases hq
  · rw [et.1, eu.1]
  · simp [TypeObj.toStr, et, Elem.toStr, Fields.toStr, lineText, nameStr, arrayStr]
  · simp [TypeObj.toStr, eu, Elem.toStr, Fields.toStr, lineText, nameStr, arrayStr]
  · rw [et.2.1, eu.2.1]; decide

end Apx
