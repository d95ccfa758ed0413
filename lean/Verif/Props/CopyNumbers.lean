import Verif.Props.Copy
import Verif.Props.Again
import Verif.Proofs.Import

/-! C61: ports copied from a node whose node data has been created. -/

namespace Apx

mutual
/-- An element that is written with a type number and read with other types is another one. -/
theorem Elem.renumbered_apart {A : List NamedType} {ids : Str → Option Int} {m : Str} {x : Elem} {i : Nat}
    (hi : ids m = some (i : Int)) (hA : ∀ t, A[i]? = some t → t.elem ≠ x) (e : Elem) (hm : Elem.Mentions (.refType m x) e)
    (B : List NamedType) (a b : Elem) (ha : (e.asWritten ids false).resolveType A = .ok a) (hb : e.resolveType B = .ok b) :
    a ≠ b := by
  match e with
  | .prim .. => simp [Elem.Mentions] at hm
  | .refId _ => simp [Elem.Mentions] at hm
  | .refName _ => simp [Elem.Mentions] at hm
  | .refType k y =>
    simp only [Elem.Mentions, Elem.refType.injEq] at hm
    obtain ⟨rfl, rfl⟩ := hm
    simp only [Elem.asWritten, hi, Elem.resolveType, pyIndex_ofNat, Except.ok.injEq] at ha hb
    subst hb
    cases ht : A[i]? with
    | none => simp [ht, error_bind] at ha
    | some t =>
      simp only [ht, ok_bind, Except.ok.injEq] at ha
      subst ha
      intro h
      exact hA t ht (Elem.refType.inj h).2
  | .record fs l =>
    simp only [Elem.Mentions] at hm
    simp only [Elem.asWritten, Elem.resolveType, bind_ok_iff, Except.ok.injEq] at ha hb
    obtain ⟨x', hx, rfl⟩ := ha
    obtain ⟨y, hy, rfl⟩ := hb
    intro h
    exact Fields.renumbered_apart hi hA fs hm B x' y hx hy (Elem.record.inj h).1
theorem Fields.renumbered_apart {A : List NamedType} {ids : Str → Option Int} {m : Str} {x : Elem} {i : Nat}
    (hi : ids m = some (i : Int)) (hA : ∀ t, A[i]? = some t → t.elem ≠ x) (fs : Fields) (hm : Fields.Mentions (.refType m x) fs)
    (B : List NamedType) (a b : Fields) (ha : (fs.asWritten ids false).resolveType A = .ok a) (hb : fs.resolveType B = .ok b) :
    a ≠ b := by
  match fs with
  | .nil => exact hm.elim
  | .cons n e r =>
    simp only [Fields.Mentions] at hm
    simp only [Fields.asWritten, Fields.resolveType, bind_ok_iff, Except.ok.injEq] at ha hb
    obtain ⟨x1, hx, x', hx', rfl⟩ := ha
    obtain ⟨y, hy, y', hy', rfl⟩ := hb
    intro h
    obtain ⟨-, h1, h2⟩ := Fields.cons.inj h
    rcases hm with hm | hm
    · exact Elem.renumbered_apart hi hA e hm B x1 y hx hy h1
    · exact Fields.renumbered_apart hi hA r hm B x' y' hx' hy' h2
end

/-- The attribute of a port can still be read when node data has been created. -/
theorem afterNodeData_attr {s src : Node} (hs : s.Built) (h : s.afterNodeData = .ok src) {p : Port} (hp : p ∈ src.provides)
    (a : PortAttr) (ha : p.attr = some a) : portAttribute a.str = .ok a := by
  unfold Node.afterNodeData at h
  simp only [bind_ok_iff, Except.ok.injEq] at h
  obtain ⟨-, -, r, -, l, hl, rfl⟩ := h
  obtain ⟨p0, h1, h2⟩ := mapPy_mem hl p hp
  unfold resolveInPlace at h2
  simp only [bind_ok_iff, Except.ok.injEq] at h2
  obtain ⟨e, -, rfl⟩ := h2
  exact (hs.inv.ports .provide p0 h1).attr a ha

/-- C61 fails for every provide port that is a record holding a reference, once the node data of its node has been
created, unless the receiving node has the same type under the same number: the copy refers to the type by its number in
the other node. The port is copied without an error and has another data layout, if it has one. -/
theorem C61_numbers_violated (n s src : Node) (hs : s.Built) (hu : s.afterNodeData = .ok src) (p : Port)
    (hp : p ∈ src.provides) (fs : Fields) (he : p.elem = .record fs none) (hw : p.elem.WellFormed)
    (hnew : ∀ side, ∀ q ∈ n.ports side, q.name ≠ p.name)
    (m : Str) (x : Elem) (hm : Elem.Mentions (.refType m x) p.elem) (i : Nat) (hi : src.ids m = some (i : Int))
    (hno : ∀ t, n.named[i]? = some t → t.elem ≠ x) (ignoreDuplicates : Bool) :
    ∃ n' q, n.addPortFrom src .provide p ignoreDuplicates = (n', .ok q) ∧ n'.named = n.named ∧ q ∈ n'.provides ∧
      q.name = p.name ∧
      ∀ de de', q.toNPort.type n'.named = .ok de → p.toNPort.type src.named = .ok de' → de ≠ de' := by
  have h1 : n.portNamed p.name = none := by
    have ha : n.provides.find? (fun q => decide (q.name = p.name)) = none :=
      List.find?_eq_none.mpr fun q hq => by simpa using hnew .provide q hq
    have hb : n.requires.find? (fun q => decide (q.name = p.name)) = none :=
      List.find?_eq_none.mpr fun q hq => by simpa using hnew .require q hq
    simp only [Node.portNamed, ha, hb, Option.map_none]
  obtain ⟨txt, k1, k2⟩ := Elem.parse_toStr_data src.ids false p.elem hw
  have ha : optArg portAttribute (p.attr.map PortAttr.str) = .ok p.attr := by
    cases hpa : p.attr with
    | none => rfl
    | some a => simp [optArg, afterNodeData_attr hs hu hp a hpa]
  have hc : p.clone src.ids .provide = .ok ⟨p.name, p.elem.asWritten src.ids false, p.attr, none⟩ := by
    simp [Port.clone, Port.mirror, k1, mkPort, k2, ha]
  have hadd : n.addPortFrom src .provide p ignoreDuplicates =
      n.addPortM .provide ⟨p.name, p.elem.asWritten src.ids false, p.attr, none⟩ := by
    unfold Node.addPortFrom Node.checkDuplicate
    simp only [h1, hc]
    simp only [he]
  have hres : ∀ k, resolvePort n.named ⟨p.name, p.elem.asWritten src.ids false, p.attr, some k⟩ =
      .ok ⟨p.name, p.elem.asWritten src.ids false, p.attr, some k⟩ := by
    intro k
    simp [resolvePort, he, Elem.asWritten, Elem.isReference]
  obtain ⟨f1, f2⟩ := setPorts_both n .provide
    (n.provides ++ [⟨p.name, p.elem.asWritten src.ids false, p.attr, some n.provides.length⟩])
  refine ⟨_, ⟨p.name, p.elem.asWritten src.ids false, p.attr, some n.provides.length⟩, ?_, f1, ?_, rfl, ?_⟩
  · rw [hadd]
    unfold Node.addPortM Node.addPort
    simp only [Node.ports]
    rw [hres]
    rfl
  · rw [show ∀ k : Node, k.provides = k.ports .provide from fun _ => rfl, f2]
    simp
  · intro de de' hd hd'
    simp only [NPort.type, Port.toNPort, f1] at hd hd'
    rw [bind_ok_iff] at hd hd'
    obtain ⟨a, a1, a2⟩ := hd
    obtain ⟨b, b1, b2⟩ := hd'
    have hab := Elem.renumbered_apart hi hno p.elem hm src.named a b a1 b1
    rw [he] at a1 b1
    simp only [Elem.asWritten, Elem.resolveType, bind_ok_iff, Except.ok.injEq] at a1 b1
    obtain ⟨x, -, rfl⟩ := a1
    obtain ⟨y, -, rfl⟩ := b1
    simp only [Elem.resolveDataElement, maxRecurseDepth, Elem.resolveLoop, Except.ok.injEq] at a2 b2
    rw [← a2, ← b2]
    exact hab

/-- A node providing a record holding a reference. -/
def cyProv : Node := (Node.new ['S']).run [.addType ['A'] ['C'] none,
  .addPort .provide ['P'] "{\"x\"T[\"A\"]}".toList none, .finalize false false]

/-- The hypotheses of the theorem: the type with number 0 of `cyDest` is another one. The one-byte port becomes a
two-byte port. -/
example : cyProv.Built ∧ ∃ src, cyProv.afterNodeData = .ok src ∧ ∃ p ∈ src.provides, ∃ fs, p.elem = .record fs none ∧
    p.elem.WellFormed ∧ (∀ side, ∀ q ∈ cyDest.ports side, q.name ≠ p.name) ∧
    ∃ x, Elem.Mentions (.refType ['A'] x) p.elem ∧ src.ids ['A'] = some ((0 : Nat) : Int) ∧
      (∀ t, cyDest.named[0]? = some t → t.elem ≠ x) ∧ TypesAgree cyDest.named src.named ∧
      (cyDest.extend src).2.toOption.isSome ∧ firstLen src .provide = .ok 1 ∧
      firstLen (cyDest.extend src).1 .provide = .ok 2 := by
  refine ⟨⟨_, _, rfl⟩, ?_⟩
  have h : (match cyProv.afterNodeData with
      | .ok src => decide (src.provides.map (fun p => (p.name, p.elem)) =
            [(['P'], .record (.cons (some ['x']) (.refType ['A'] (.prim .u8 none none none)) .nil) none)] ∧
          src.ids ['A'] = some ((0 : Nat) : Int) ∧ (∀ t ∈ cyDest.named, ∀ u ∈ src.named, t.name ≠ u.name) ∧
          (cyDest.extend src).2.toOption.isSome ∧ firstLen src .provide = .ok 1 ∧
          firstLen (cyDest.extend src).1 .provide = .ok 2)
      | .error _ => false) = true := by decide +kernel
  split at h
  · rename_i src hsrc
    rw [decide_eq_true_eq] at h
    obtain ⟨h, a1, a2, a3, a4, a5⟩ := h
    obtain ⟨p, hp, h⟩ := List.mem_map.mp (h ▸ List.mem_singleton.mpr rfl)
    obtain ⟨h1, h2⟩ := Prod.mk.inj h
    have hd : cyDest.named = [⟨['B'], .prim .u16 none none none⟩] := by decide +kernel
    refine ⟨src, hsrc, p, hp, _, h2, ?_, ?_, .prim .u8 none none none, ?_, a1, ?_,
      fun t ht u hu hn => (a2 t ht u hu hn).elim, a3, a4, a5⟩
    · rw [h2]
      simp [Elem.WellFormed, Fields.WellFormed, RefNameOk, QuoteFree]
    · intro side
      rw [h1]
      cases side <;> decide +kernel
    · rw [h2]
      exact .inl rfl
    · intro t ht
      rw [hd] at ht
      cases ht
      decide
  · cases h

end Apx
