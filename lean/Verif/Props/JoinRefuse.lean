import Verif.Props.Join
import Verif.Proofs.Again

/-!
C77: definitions that contradict each other are refused, and what is not noticed.
-/

namespace Apx

/-! ### What lines say -/

theorem port_line_inj {n m : Node} (hi : NodeInv n) (hj : NodeInv m) {p q : Port} {side side' : Side} (hp : p ∈ n.ports side)
    (hq : q ∈ m.ports side') (wp : p.Writable) (wq : q.Writable)
    (h : p.toStr n.ids true side = q.toStr m.ids true side') : p.line = q.line := by
  have key : ∀ (n : Node) (_ : NodeInv n) (p : Port) (side : Side) (_ : p ∈ n.ports side) (_ : p.Writable),
      ∃ l s, p.toStr n.ids true side = .ok l ∧ dataSignature s = .ok (p.elem.asWritten (fun _ => none) true) ∧
        splitLine l = .full [side.letter] (some p.name) s (p.attr.map PortAttr.str) := by
    intro n hi p side hp ⟨hw1, hw2, hw3, hw5⟩
    obtain ⟨s, h1, h2⟩ := Elem.parse_toStr_data (fun _ => none) true p.elem hw2
    have h1' := h1
    rw [Elem.toStr_ids _ n.ids] at h1'
    obtain ⟨hl, hnl⟩ := splitLine_lineText side.letter p.name s (p.attr.map PortAttr.str) (by cases side <;> decide)
      (by cases side <;> decide) hw1
      (Elem.toStr_ends _ _ _ _ h1) (fun c hc => Elem.toStr_no_cut _ true p.elem hw3 hw2 s h1 c hc)
      (by
        intro a ha
        rw [Option.map_eq_some_iff] at ha
        obtain ⟨b, hb, rfl⟩ := ha
        exact hw5 b hb)
    exact ⟨_, s, by simp only [Port.toStr, h1', ok_bind], h2, hl⟩
  obtain ⟨l, s, a1, a2, a3⟩ := key n hi p side hp wp
  obtain ⟨l', s', b1, b2, b3⟩ := key m hj q side' hq wq
  rw [a1, b1] at h
  cases h
  rw [a3] at b3
  simp only [Line.full.injEq, Option.some.injEq] at b3
  obtain ⟨-, c2, rfl, c4⟩ := b3
  rw [a2] at b2
  have hat : p.attr = q.attr := by
    cases hpa : p.attr with
    | none =>
      rw [hpa] at c4
      cases hqa : q.attr with
      | none => rfl
      | some b => rw [hqa] at c4; simp at c4
    | some a =>
      rw [hpa] at c4
      cases hqa : q.attr with
      | none => rw [hqa] at c4; simp at c4
      | some b =>
        rw [hqa] at c4
        simp only [Option.map_some, Option.some.injEq] at c4
        have e1 := (hi.ports side p hp).attr a hpa
        have e2 := (hj.ports side' q hq).attr b hqa
        rw [c4, e2] at e1
        exact congrArg some (Except.ok.inj e1).symm
  simp only [Port.line, Prod.mk.injEq]
  exact ⟨c2, Except.ok.inj b2, hat⟩

theorem type_line_inj {n m : Node} (hi : NodeInv n) (hj : NodeInv m) {t u : TypeObj} (ht : t ∈ n.types)
    (hu : u ∈ m.types) (wt : t.Writable) (wu : u.Writable)
    (h : t.toStr n.ids true = u.toStr m.ids true) : t.line = u.line := by
  have key : ∀ (n : Node) (t : TypeObj) (_ : t.Writable),
      ∃ l s, t.toStr n.ids true = .ok l ∧ dataSignature s = .ok (t.elem.asWritten (fun _ => none) true) ∧
        splitLine l = .full ['T'] (some t.name) s (t.attr.map TypeAttr.str) := by
    intro n t ⟨hw1, hw2, hw3, hw4, hw5⟩
    obtain ⟨s, h1, h2⟩ := Elem.parse_toStr_data (fun _ => none) true t.elem hw2
    have h1' := h1
    rw [Elem.toStr_ids _ n.ids] at h1'
    obtain ⟨hl, hnl⟩ := splitLine_lineText 'T' t.name s (t.attr.map TypeAttr.str) (by decide) (by decide) hw1
      (Elem.toStr_ends _ _ _ _ h1) (fun c hc => Elem.toStr_no_cut _ true t.elem hw3 hw2 s h1 c hc)
      (by
        intro a ha
        rw [Option.map_eq_some_iff] at ha
        obtain ⟨b, hb, rfl⟩ := ha
        exact hw5 b hb)
    exact ⟨_, s, by simp only [TypeObj.toStr, h1', ok_bind, hw4, Option.getD_none], h2, hl⟩
  obtain ⟨l, s, a1, a2, a3⟩ := key n t wt
  obtain ⟨l', s', b1, b2, b3⟩ := key m u wu
  rw [a1, b1] at h
  cases h
  rw [a3] at b3
  simp only [Line.full.injEq, Option.some.injEq] at b3
  obtain ⟨-, c2, rfl, c4⟩ := b3
  rw [a2] at b2
  have hat : t.attr = u.attr := by
    cases hpa : t.attr with
    | none =>
      rw [hpa] at c4
      cases hqa : u.attr with
      | none => rfl
      | some b => rw [hqa] at c4; simp at c4
    | some a =>
      rw [hpa] at c4
      cases hqa : u.attr with
      | none => rw [hqa] at c4; simp at c4
      | some b =>
        rw [hqa] at c4
        simp only [Option.map_some, Option.some.injEq] at c4
        have e1 := hi.tattr t ht a hpa
        have e2 := hj.tattr u hu b hqa
        rw [c4, e2] at e1
        exact congrArg some (Except.ok.inj e1).symm
  simp only [TypeObj.line, Prod.mk.injEq]
  exact ⟨c2, Except.ok.inj b2, hat⟩

mutual
theorem Elem.resolve_text (types : List NamedType) (a b : Str → Option Int) (e e' : Elem) (s : Str)
    (h : e.resolveType types = .ok e') (hs : e.toStr a true = .ok s) : e'.toStr b true = .ok s := by
  match e with
  | .prim _ _ _ _ =>
    simp only [Elem.resolveType, Except.ok.injEq] at h
    subst h
    rw [← hs]; exact Elem.toStr_ids _ _ _
  | .refType _ _ =>
    simp only [Elem.resolveType, Except.ok.injEq] at h
    subst h
    rw [← hs]; exact Elem.toStr_ids _ _ _
  | .refId _ => simp [Elem.toStr] at hs
  | .refName m =>
    simp only [Elem.resolveType] at h
    split at h
    · rename_i t ht
      simp only [Except.ok.injEq] at h
      subst h
      rw [← hs]
      simp [Elem.toStr, (findType_name ht).2]
    · cases h
  | .record fs x =>
    simp only [Elem.resolveType, bind_ok_iff, Except.ok.injEq] at h
    obtain ⟨gs, hg, rfl⟩ := h
    simp only [Elem.toStr, bind_ok_iff, Except.ok.injEq] at hs
    obtain ⟨u, hu, rfl⟩ := hs
    simp only [Elem.toStr, Fields.resolve_text types a b fs gs u hg hu, ok_bind]
theorem Fields.resolve_text (types : List NamedType) (a b : Str → Option Int) (fs gs : Fields) (s : Str)
    (h : fs.resolveType types = .ok gs) (hs : fs.toStr a true = .ok s) : gs.toStr b true = .ok s := by
  match fs with
  | .nil =>
    simp only [Fields.resolveType, Except.ok.injEq] at h
    subst h
    simpa [Fields.toStr] using hs
  | .cons n e r =>
    simp only [Fields.resolveType, bind_ok_iff, Except.ok.injEq] at h
    obtain ⟨e', h1, r', h2, rfl⟩ := h
    simp only [Fields.toStr, bind_ok_iff, Except.ok.injEq] at hs
    obtain ⟨u, hu, v, hv, rfl⟩ := hs
    simp only [Fields.toStr, Elem.resolve_text types a b e e' u h1 hu, Fields.resolve_text types a b r r' v h2 hv, ok_bind]
end

/-! ### One port -/

theorem typeNamed_prefix {n m : Node} (h : n.types <+: m.types) {name : Str} {t : TypeObj} (ht : n.typeNamed name = some t) :
    m.typeNamed name = some t := by
  obtain ⟨l, hl⟩ := h
  unfold Node.typeNamed at ht ⊢
  rw [← hl, List.find?_append, ht]
  rfl

theorem cloneType_text {n n' src : Node} {name : Str} {e : Elem} {t u : TypeObj} (h : n.cloneType src name e = (n', .ok t))
    (hu : src.typeNamed name = some u) (he : u.elem = e) (hw : u.Writable)
    (hat : ∀ a, u.attr = some a → typeAttribute a.str = .ok a) :
    n'.typeNamed name = some t ∧ t.toStr n'.ids true = u.toStr src.ids true := by
  obtain ⟨hw1, hw2, hw3, hw4, hw5⟩ := hw
  have hun : u.name = name := by
    unfold Node.typeNamed at hu
    simpa using List.find?_some hu
  subst he
  obtain ⟨s, h1, h2⟩ := Elem.parse_toStr_data src.ids true u.elem hw2
  have ha : optArg typeAttribute (u.attr.map TypeAttr.str) = .ok u.attr := by
    cases hpa : u.attr with
    | none => rfl
    | some a => simp [optArg, hat a hpa]
  have hmk : mkType name s (u.attr.map TypeAttr.str) = .ok ⟨name, u.elem.asWritten src.ids true, u.attr, none, none⟩ := by
    simp [mkType, h2, ha]
  have hut : u.toStr src.ids true = .ok (lineText 'T' name s (u.attr.map TypeAttr.str)) := by
    simp [TypeObj.toStr, h1, hw4, hun]
  unfold Node.cloneType at h
  simp only [h1, ok_bind, hu, Option.bind_some, hmk] at h
  rw [hut]
  have hcs : ∀ ids : Str → Option Int, (u.elem.asWritten src.ids true).toStr ids true = .ok s :=
    fun ids => (Elem.toStr_asWritten src.ids ids src.ids u.elem).trans h1
  unfold Node.addType at h
  simp only at h
  cases hn : n.typeNamed name with
  | none =>
    simp only [hn] at h
    cases hr : resolveDsg n.named (u.elem.asWritten src.ids true) with
    | error x => simp [hr, error_bind] at h
    | ok e' =>
      simp only [hr, ok_bind, Prod.mk.injEq, Except.ok.injEq] at h
      obtain ⟨rfl, rfl⟩ := h
      refine ⟨?_, ?_⟩
      · unfold Node.typeNamed at hn ⊢
        simp only [List.find?_append, hn]
        simp
      · unfold resolveDsg at hr
        simp only [bind_ok_iff, Except.ok.injEq] at hr
        obtain ⟨e2, h5, _, _, rfl⟩ := hr
        simp [TypeObj.toStr, Elem.resolve_text _ _ _ _ _ _ h5 (hcs src.ids)]
  | some x =>
    simp only [hn, TypeObj.toStr, hcs, ok_bind, Option.getD_none] at h
    cases hx : x.elem.toStr n.ids true with
    | error y => simp [hx, error_bind, verifyEqual] at h
    | ok y =>
      by_cases hne : lineText 'T' (x.shortName.getD x.name) y (x.attr.map TypeAttr.str) = lineText 'T' name s (u.attr.map TypeAttr.str)
      · simp only [hx, verifyEqual, ok_bind, ne_eq, hne, not_true, if_false, Prod.mk.injEq, Except.ok.injEq] at h
        obtain ⟨rfl, rfl⟩ := h
        exact ⟨hn, by simp only [TypeObj.toStr, hx, ok_bind, hne]⟩
      · simp [hx, verifyEqual, hne, error_bind] at h

theorem addTypeFrom_text {n n' src : Node} {name : Str} {e : Elem} {t u : TypeObj} (h : n.addTypeFrom src name e = (n', .ok t))
    (hu : src.typeNamed name = some u) (he : u.elem = e) (hw : u.Writable)
    (hat : ∀ a, u.attr = some a → typeAttribute a.str = .ok a) :
    n'.typeNamed name = some t ∧ t.toStr n'.ids true = u.toStr src.ids true := by
  cases e with
  | prim tc mn mx a => simp only [Node.addTypeFrom] at h; exact cloneType_text h hu he hw hat
  | record fs a =>
    simp only [Node.addTypeFrom] at h
    split at h
    · exact cloneType_text h hu he hw hat
    · cases h
  | refId _ => simp [Node.addTypeFrom] at h
  | refName _ => simp [Node.addTypeFrom] at h
  | refType _ _ => simp [Node.addTypeFrom] at h

theorem targetType_text {n n' src : Node} {name : Str} {e : Elem} {t u : TypeObj} (h : n.targetType src name e = (n', .ok t))
    (hu : src.typeNamed name = some u) (he : u.elem = e) (hw : u.Writable)
    (hat : ∀ a, u.attr = some a → typeAttribute a.str = .ok a) :
    n'.typeNamed name = some t ∧ t.toStr n'.ids true = u.toStr src.ids true := by
  unfold Node.targetType at h
  simp only [hu, Option.getD_some] at h
  split at h
  · exact addTypeFrom_text h hu he hw hat
  · rename_i x hx
    have hxt : n.typeNamed name = some x := by
      unfold Node.find at hx
      unfold Node.typeNamed
      split at hx
      · rename_i y hy
        simp only [Option.some.injEq, Found.type.injEq] at hx
        rw [hy, hx]
      · split at hx
        · simp at hx
        · rw [Option.map_eq_some_iff] at hx
          obtain ⟨_, _, hx⟩ := hx
          cases hx
    split at h
    · rename_i hv
      simp only [Prod.mk.injEq, Except.ok.injEq] at h
      obtain ⟨rfl, rfl⟩ := h
      refine ⟨hxt, ?_⟩
      simp only [verifyEqual, bind_ok_iff] at hv
      obtain ⟨a, ha, b, hb, hv⟩ := hv
      split at hv
      · cases hv
      · rename_i hne
        simp only [ne_eq, Decidable.not_not] at hne
        rw [ha, hb, hne]
    · cases h
  · split at h <;> cases h

theorem portNamed_append {n n' : Node} {side : Side} {q : Port} (h1 : n'.ports side = n.ports side ++ [q])
    (h2 : n'.ports side.flip = n.ports side.flip) (hq : n.portNamed q.name = none) :
    n'.portNamed q.name = some (side, q) ∧ ∀ name r, n.portNamed name = some r → n'.portNamed name = some r := by
  unfold Node.portNamed at hq ⊢
  cases side with
  | require =>
    simp only [Node.ports, Side.flip] at h1 h2
    rw [h1, h2]
    split at hq
    · cases hq
    · rename_i h3
      rw [Option.map_eq_none_iff] at hq
      refine ⟨by simp [h3, List.find?_append, hq], ?_⟩
      intro name r hr
      cases h4 : n.provides.find? (fun p => p.name = name) with
      | some y =>
        rw [h4] at hr
        exact hr
      | none =>
        rw [h4] at hr
        simp only [Option.map_eq_some_iff] at hr ⊢
        obtain ⟨x, hx, rfl⟩ := hr
        exact ⟨x, by rw [List.find?_append, hx]; rfl, rfl⟩
  | provide =>
    simp only [Node.ports, Side.flip] at h1 h2
    rw [h1, h2]
    split at hq
    · cases hq
    · rename_i h3
      rw [Option.map_eq_none_iff] at hq
      refine ⟨by simp [h3, List.find?_append], ?_⟩
      intro name r hr
      split at hr
      · rename_i h4
        simp only [List.find?_append, h4, Option.some_or]
        exact hr
      · rename_i h4
        rw [Option.map_eq_some_iff] at hr
        obtain ⟨x, hx, rfl⟩ := hr
        have hne : q.name ≠ name := by
          intro he
          subst he
          rw [hq] at hx
          cases hx
        simp [List.find?_append, h4, hx, hne]

/-- What a successful copy of a port leaves. -/
theorem addPortFrom_ok {n n' src : Node} (hi : NodeInv src) (hw : src.Writable) {side : Side} {p q : Port}
    (hp : p ∈ src.ports side) {ig : Bool} (h : n.addPortFrom src side p ig = (n', .ok q)) :
    n'.portNamed p.name = some (side, q) ∧ q.toStr n'.ids true side = p.toStr src.ids true side ∧
      (∀ name r, n.portNamed name = some r → n'.portNamed name = some r) ∧ n.types <+: n'.types ∧
      (∀ name, n.portNamed name = none → name ≠ p.name → n'.portNamed name = none) ∧
      (n.portNamed p.name = none → ∀ t ∈ src.types, p.elem = .refType t.name t.elem →
        ∃ u, n'.typeNamed t.name = some u ∧ u.toStr n'.ids true = t.toStr src.ids true) := by
  have hpi := hi.ports side p hp
  obtain ⟨hn1, hwp, -, -⟩ := hw.ports side p hp
  have none_of : ∀ (m : Node) (x : Port), m.ports side = n.ports side ++ [x] → m.ports side.flip = n.ports side.flip →
      x.name = p.name → ∀ name, n.portNamed name = none → name ≠ p.name → m.portNamed name = none := by
    intro m x e1 e2 e3 name hno hne
    rcases portNamed_cases m name with ⟨h, -⟩ | ⟨s, r, h, hr, hrn⟩
    · exact h
    · rcases portNamed_cases n name with ⟨-, h'⟩ | ⟨s', r', h', -⟩
      · refine absurd (mem_portNames.mpr ⟨s, r, ?_, hrn⟩) h'
        have : r ∈ n.ports s ∨ r = x := by
          by_cases hs : s = side
          · subst hs
            rw [e1] at hr
            simpa using hr
          · have : s = side.flip := by cases s <;> cases side <;> simp_all [Side.flip]
            rw [this, e2] at hr
            rw [this]
            exact .inl hr
        rcases this with h | rfl
        · exact h
        · exact absurd (hrn.symm.trans e3) hne
      · rw [hno] at h'
        cases h'
  unfold Node.addPortFrom at h
  rcases portNamed_cases n p.name with ⟨hno, hpn⟩ | ⟨side', x, hx, -, -⟩
  · have hcd : n.checkDuplicate src side p = .ok none := by simp [Node.checkDuplicate, hno]
    simp only [hcd] at h
    obtain ⟨s, c, k1, k2, k3, k4, k5, k6, -⟩ := reparse_port hi p hpi hwp (side = .require)
    have hcl : p.clone src.ids side = .ok c := by
      simp only [Port.clone, Port.mirror, k1, ok_bind, k2]
    simp only [hcl] at h
    split at h
    · cases h
    · cases h
    · rename_i name e he
      split at h
      · cases h
      · rename_i n1 t ht
        have hg := targetType_grows n src name e
        rw [ht] at hg
        obtain ⟨hg, -, hg3⟩ := hg
        obtain ⟨hg3, hg4⟩ := hg3 t rfl
        unfold Node.addPortM at h
        split at h
        · rename_i n2 q2 ha
          simp only [Prod.mk.injEq, Except.ok.injEq] at h
          obtain ⟨rfl, rfl⟩ := h
          unfold Node.addPort at ha
          simp only [bind_ok_iff] at ha
          obtain ⟨q0, hq0, ha⟩ := ha
          simp only [Except.ok.injEq, Prod.mk.injEq] at ha
          obtain ⟨rfl, rfl⟩ := ha
          have hqe : q0.elem = .refType t.name t.elem ∧ q0.name = p.name ∧ q0.attr = p.attr := by
            simp only [resolvePort, Elem.isReference, if_true, resolveDsg, Elem.resolveType, ok_bind, bind_ok_iff,
              Except.ok.injEq] at hq0
            obtain ⟨e3, ⟨_, _, rfl⟩, rfl⟩ := hq0
            exact ⟨rfl, k3, k4⟩
          obtain ⟨f1, f2, f3, f4, f5⟩ := setPorts_facts n1 side (n1.ports side ++ [q0])
          have hpa := portNamed_append (n := n) (n' := n1.setPorts side (n1.ports side ++ [q0])) (q := q0) (side := side)
            (by rw [f4, hg.ports]) (by rw [f5, hg.ports]) (by rw [hqe.2.1]; exact hno)
          refine ⟨hqe.2.1 ▸ hpa.1, ?_, hpa.2, by rw [f3]; exact hg.types,
            none_of _ q0 (by rw [f4, hg.ports]) (by rw [f5, hg.ports]) hqe.2.1, ?_⟩
          · simp [Port.toStr, hqe.1, hqe.2.1, hqe.2.2, he, Elem.toStr, hg4]
          · intro _ t' ht' he'
            rw [he'] at he
            cases he
            have := targetType_text ht (typeNamed_of_mem hi ht') rfl (hw.types t' ht') (hi.tattr t' ht')
            refine ⟨t, ?_, ?_⟩
            · unfold Node.typeNamed at this ⊢
              rw [f3]
              exact this.1
            · rw [← this.2]
              simp only [TypeObj.toStr, Elem.toStr_ids (n1.setPorts side (n1.ports side ++ [q0])).ids n1.ids t.elem]
        · cases h
    · rename_i hx1 hx2 hx3
      have hr : p.elem.isReference = false := by
        cases he : p.elem with
        | refId i => exact (hx1 i he).elim
        | refName i => exact (hx2 i he).elim
        | refType i t => exact (hx3 i t he).elim
        | prim => rfl
        | record => rfl
      have hce : c.elem = p.elem := by
        rw [k6, Elem.asWritten_noResolved _ _ _ (Elem.raw_noResolved _ (hpi.raw hr))]
      have hres : ∀ k, resolvePort n.named { c with id := some k } = .ok { c with id := some k } := by
        intro k
        simp [resolvePort, hce, hr]
      rw [addPortM_total hres] at h
      obtain ⟨f1, f2, f3, f4, f5⟩ := setPorts_facts n side (n.ports side ++ [{ c with id := some (n.ports side).length }])
      simp only [Prod.mk.injEq, Except.ok.injEq] at h
      obtain ⟨rfl, rfl⟩ := h
      have hpa := portNamed_append (n := n) (q := { c with id := some (n.ports side).length }) f4 f5
        (by simp only [k3]; exact hno)
      refine ⟨k3 ▸ hpa.1, ?_, hpa.2, by rw [f3]; exact List.prefix_refl _, none_of _ _ f4 f5 k3, ?_⟩
      · simp only [Port.toStr, hce, k3, k4]
        rw [Elem.toStr_ids _ src.ids]
      · intro _ t _ he
        exact (hx3 _ _ he).elim
  · simp only [Node.checkDuplicate, hx] at h
    by_cases hs : side' = side
    · subst hs
      simp only [ne_eq, not_true, if_false] at h
      cases hv : verifyEqual (x.toStr n.ids true side') (p.toStr src.ids true side') with
      | error y => simp [hv, error_bind] at h
      | ok y =>
        simp only [hv, ok_bind, Prod.mk.injEq, Except.ok.injEq] at h
        obtain ⟨rfl, rfl⟩ := h
        refine ⟨hx, ?_, fun _ _ h => h, List.prefix_refl _, fun _ h _ => h, ?_⟩
        · simp only [verifyEqual, bind_ok_iff] at hv
          obtain ⟨a, ha, b, hb, hv⟩ := hv
          split at hv
          · cases hv
          · rename_i hne
            simp only [ne_eq, Decidable.not_not] at hne
            rw [ha, hb, hne]
        · intro hc
          rw [hx] at hc
          cases hc
    · simp [hs] at h

/-! ### All ports -/

/-- The ports of the definitions, in the order in which they are copied. -/
def copySeq (srcs : List Node) : List (Node × Side × Port) :=
  srcs.flatMap fun m => m.requires.map (fun p => (m, .require, p)) ++ m.provides.map (fun p => (m, .provide, p))

/-- Copying the ports one after the other. -/
def copyAll (n : Node) : List (Node × Side × Port) → Py Node
  | [] => .ok n
  | (m, side, p) :: l =>
    match n.addPortFrom m side p false with
    | (n, .ok _) => copyAll n l
    | (_, .error x) => .error x

theorem copyAll_append (a b : List (Node × Side × Port)) (n : Node) :
    copyAll n (a ++ b) = (copyAll n a >>= fun n => copyAll n b) := by
  induction a generalizing n with
  | nil => rfl
  | cons x a ih =>
    obtain ⟨m, side, p⟩ := x
    simp only [List.cons_append, copyAll]
    split
    · exact ih _
    · rfl

theorem extendWith_copy (src : Node) (side : Side) (ps : List Port) (n : Node) :
    copyAll n (ps.map fun p => (src, side, p)) =
      (match n.extendWith src side ps with | (n, .ok ()) => .ok n | (_, .error x) => .error x) := by
  induction ps generalizing n with
  | nil => rfl
  | cons p ps ih =>
    simp only [List.map_cons, copyAll, Node.extendWith]
    rcases n.addPortFrom src side p false with ⟨n', q | q⟩
    · rfl
    · exact ih n'

theorem joinNodes_copy (srcs : List Node) (n : Node) : joinNodes n srcs = copyAll n (copySeq srcs) := by
  induction srcs generalizing n with
  | nil => rfl
  | cons m srcs ih =>
    simp only [copySeq, List.flatMap_cons]
    rw [copyAll_append, copyAll_append, extendWith_copy]
    simp only [joinNodes, Node.extend]
    rcases n.extendWith m .require m.requires with ⟨n', q | q⟩
    · rfl
    · simp only [ok_bind]
      rw [extendWith_copy]
      rcases n'.extendWith m .provide m.provides with ⟨n2, q | q⟩
      · rfl
      · exact ih n2

theorem mem_copySeq {srcs : List Node} {m : Node} {side : Side} {p : Port} :
    (m, side, p) ∈ copySeq srcs ↔ m ∈ srcs ∧ p ∈ m.ports side := by
  simp only [copySeq, List.mem_flatMap, List.mem_append, List.mem_map]
  constructor
  · rintro ⟨k, hk, ⟨q, hq, h⟩ | ⟨q, hq, h⟩⟩
    · cases h; exact ⟨hk, hq⟩
    · cases h; exact ⟨hk, hq⟩
  · rintro ⟨hm, hp⟩
    refine ⟨m, hm, ?_⟩
    cases side with
    | require => exact .inl ⟨p, hp, rfl⟩
    | provide => exact .inr ⟨p, hp, rfl⟩

theorem copySeq_names (srcs : List Node) : (copySeq srcs).map (fun x => x.2.2.name) = srcs.flatMap Node.portNames := by
  induction srcs with
  | nil => rfl
  | cons m srcs ih =>
    have : copySeq (m :: srcs) = (m.requires.map (fun p => (m, Side.require, p)) ++ m.provides.map (fun p => (m, .provide, p))) ++
        copySeq srcs := rfl
    rw [this, List.map_append, ih]
    simp [Node.portNames, Function.comp_def]

/-- The definitions are as the tools write them. -/
def SourcesOk (l : List (Node × Side × Port)) : Prop :=
  ∀ x ∈ l, NodeInv x.1 ∧ x.1.Writable ∧ x.2.2 ∈ x.1.ports x.2.1

/-- After all ports have been copied, each is there, and the types of those that are alone are there. -/
theorem copyAll_ok (l : List (Node × Side × Port)) (hl : SourcesOk l) (n n' : Node) (h : copyAll n l = .ok n') :
    (∀ name r, n.portNamed name = some r → n'.portNamed name = some r) ∧ n.types <+: n'.types ∧
    (∀ x ∈ l, ∃ q, n'.portNamed x.2.2.name = some (x.2.1, q) ∧
      q.toStr n'.ids true x.2.1 = x.2.2.toStr x.1.ids true x.2.1) ∧
    (∀ x ∈ l, n.portNamed x.2.2.name = none → (l.map (fun y => y.2.2.name)).count x.2.2.name = 1 → ∀ t ∈ x.1.types,
      x.2.2.elem = .refType t.name t.elem → ∃ u, n'.typeNamed t.name = some u ∧ u.toStr n'.ids true = t.toStr x.1.ids true) := by
  induction l generalizing n with
  | nil =>
    simp only [copyAll, Except.ok.injEq] at h
    subst h
    exact ⟨fun _ _ h => h, List.prefix_refl _, by simp, by simp⟩
  | cons x l ih =>
    obtain ⟨m, side, p⟩ := x
    obtain ⟨hi, hw, hp⟩ := hl _ (List.mem_cons_self ..)
    simp only [copyAll] at h
    split at h
    · rename_i n1 q hq
      obtain ⟨a1, a2, a3, a4, a5, a6⟩ := addPortFrom_ok hi hw hp hq
      obtain ⟨b1, b2, b3, b4⟩ := ih (fun x hx => hl x (by simp [hx])) n1 h
      have hport : ∀ (u : Port) (s : Side), u.toStr n1.ids true s = u.toStr n'.ids true s := by
        intro u s
        simp only [Port.toStr, Elem.toStr_ids n1.ids n'.ids u.elem]
      have htype : ∀ u : TypeObj, u.toStr n1.ids true = u.toStr n'.ids true := by
        intro u
        simp only [TypeObj.toStr, Elem.toStr_ids n1.ids n'.ids u.elem]
      refine ⟨fun name r hr => b1 _ _ (a3 _ _ hr), a4.trans b2, ?_, ?_⟩
      · intro y hy
        rcases List.mem_cons.mp hy with rfl | hy
        · exact ⟨q, b1 _ _ a1, by rw [← hport]; exact a2⟩
        · exact b3 y hy
      · intro y hy hno hc t ht he
        rcases List.mem_cons.mp hy with rfl | hy'
        · obtain ⟨u, hu, hut⟩ := a6 hno t ht he
          exact ⟨u, typeNamed_prefix b2 hu, by rw [← htype]; exact hut⟩
        · have hmem : y.2.2.name ∈ l.map (fun y => y.2.2.name) := List.mem_map.mpr ⟨y, hy', rfl⟩
          have hpos := List.count_pos_iff.mpr hmem
          have hne : y.2.2.name ≠ p.name := by
            intro he
            rw [List.map_cons, List.count_cons] at hc
            simp only [he, beq_self_eq_true, if_true] at hc hpos
            omega
          have hc' : (l.map (fun y => y.2.2.name)).count y.2.2.name = 1 := by
            rw [List.map_cons, List.count_cons] at hc
            simpa [Ne.symm hne] using hc
          exact b4 y hy' (a5 _ hno hne) hc' t ht he
    · cases h

/-! ### C77 -/

/-- C77: definitions that contradict each other are refused, and nothing is written. -/
theorem C77_refused (name : Str) (sort normalize : Bool) (texts : List Str) (srcs : List Node)
    (hsrc : mapPy parseFile texts = .ok srcs) (hw : ∀ m ∈ srcs, m.Writable)
    (hc : PortsContradict srcs ∨ TypesContradict srcs) :
    ∃ x, apxJoin name sort normalize texts = ⟨[], .error x⟩ := by
  have hb : ∀ m ∈ srcs, NodeInv m := fun m hm =>
    (parseFiles_built texts Parser.new (by intro n hn; cases hn) srcs (parseFiles_each hsrc Parser.new) m hm).1.inv
  have hl : SourcesOk (copySeq srcs) := by
    rintro ⟨m, side, p⟩ hx
    obtain ⟨hm, hp⟩ := mem_copySeq.mp hx
    exact ⟨hb m hm, hw m hm, hp⟩
  cases hj : joinNodes (Node.new name) srcs with
  | error x =>
    exact ⟨x, by simp only [apxJoin, parseFiles_each hsrc Parser.new, joinedNode, hj, error_bind]; rfl⟩
  | ok n =>
    exfalso
    rw [joinNodes_copy] at hj
    obtain ⟨-, -, h3, h4⟩ := copyAll_ok _ hl _ _ hj
    rcases hc with ⟨m, hm, m', hm', side, side', p, hp, q, hq, he, hne⟩ |
      ⟨m, hm, m', hm', side, side', p, hp, q, hq, t, ht, u, hu, c1, c2, e1, e2, htu, hne⟩
    · obtain ⟨x, x1, x2⟩ := h3 _ (mem_copySeq.mpr ⟨hm, hp⟩)
      obtain ⟨y, y1, y2⟩ := h3 _ (mem_copySeq.mpr ⟨hm', hq⟩)
      simp only at x1 x2 y1 y2
      rw [he, y1] at x1
      simp only [Option.some.injEq, Prod.mk.injEq] at x1
      obtain ⟨rfl, rfl⟩ := x1
      rcases hne with hne | hne
      · exact hne rfl
      · exact hne (port_line_inj (hb m hm) (hb m' hm') hp hq ((hw m hm).ports _ p hp) ((hw m' hm').ports _ q hq)
          (x2.symm.trans y2))
    · rw [← copySeq_names] at c1 c2
      have hno : ∀ z, (Node.new name).portNamed z = none := fun z => rfl
      obtain ⟨x, x1, x2⟩ := h4 _ (mem_copySeq.mpr ⟨hm, hp⟩) (hno _) c1 t ht e1
      obtain ⟨y, y1, y2⟩ := h4 _ (mem_copySeq.mpr ⟨hm', hq⟩) (hno _) c2 u hu e2
      rw [htu, y1] at x1
      cases x1
      exact hne (type_line_inj (hb m hm) (hb m' hm') ht hu ((hw m hm).types t ht) ((hw m' hm').types u hu) (x2.symm.trans y2))

/-- C77 fails for the two ends of a connection: definitions one of which provides what another requires cannot be joined,
whether or not the port has the same type and attributes in both. -/
theorem C77_direction_violated (name : Str) (sort normalize : Bool) (texts : List Str) (srcs : List Node)
    (hsrc : mapPy parseFile texts = .ok srcs) (hw : ∀ m ∈ srcs, m.Writable) (m m' : Node) (hm : m ∈ srcs) (hm' : m' ∈ srcs)
    (p q : Port) (hp : p ∈ m.provides) (hq : q ∈ m'.requires) (hpq : p.name = q.name) :
    ∃ x, apxJoin name sort normalize texts = ⟨[], .error x⟩ :=
  C77_refused name sort normalize texts srcs hsrc hw
    (.inl ⟨m, hm, m', hm', .provide, .require, p, hp, q, hq, hpq, .inl (by decide)⟩)

theorem joinNodes_common (name : Str) (srcs : List Node) (hb : ∀ m ∈ srcs, NodeInv m) (hw : ∀ m ∈ srcs, m.Writable) (k : Node)
    (hwk : k.Writable) (hcommon : ∀ side, ∀ p ∈ k.ports side, ∃ m ∈ srcs, ∃ q ∈ m.ports side, q.line = p.line) :
    joinNodes (Node.new name) (srcs ++ [k]) = joinNodes (Node.new name) srcs := by
  have hl : SourcesOk (copySeq srcs) := by
    rintro ⟨m, side, p⟩ hx
    obtain ⟨hm, hp⟩ := mem_copySeq.mp hx
    exact ⟨hb m hm, hw m hm, hp⟩
  rw [joinNodes_copy, joinNodes_copy]
  have : copySeq (srcs ++ [k]) = copySeq srcs ++ copySeq [k] := by simp [copySeq, List.flatMap_append]
  rw [this, copyAll_append]
  cases hn : copyAll (Node.new name) (copySeq srcs) with
  | error x => rfl
  | ok n =>
    rw [ok_bind]
    obtain ⟨-, -, h3, -⟩ := copyAll_ok _ hl _ _ hn
    have key : ∀ l : List (Node × Side × Port), (∀ x ∈ l, x.1 = k ∧ x.2.2 ∈ k.ports x.2.1) → copyAll n l = .ok n := by
      intro l
      induction l with
      | nil => intro _; rfl
      | cons x l ih =>
        intro hx
        obtain ⟨m, side, p⟩ := x
        obtain ⟨hmk, hp⟩ := hx _ (List.mem_cons_self ..)
        simp only at hmk hp
        subst hmk
        obtain ⟨m0, hm0, q, hq, hqp⟩ := hcommon side p hp
        obtain ⟨r, r1, r2⟩ := h3 _ (mem_copySeq.mpr ⟨hm0, hq⟩)
        simp only at r1 r2
        simp only [Port.line, Prod.mk.injEq] at hqp
        obtain ⟨g1, g2, g3⟩ := hqp
        rw [g1] at r1
        have hpt : p.toStr m.ids true side = q.toStr m0.ids true side := by
          simp only [Port.toStr, g1, g3]
          rw [← Elem.toStr_asWritten (fun _ => none) m0.ids m0.ids q.elem, g2,
            Elem.toStr_asWritten (fun _ => none) m0.ids m.ids p.elem]
        obtain ⟨s, hs⟩ : ∃ s, p.toStr m.ids true side = .ok s := by
          obtain ⟨s, h1, -⟩ := Elem.parse_toStr_data m.ids true p.elem (hwk.ports side p hp).2.1
          exact ⟨lineText side.letter p.name s (p.attr.map PortAttr.str), by simp only [Port.toStr, h1, ok_bind]⟩
        have hstep : n.addPortFrom m side p false = (n, .ok r) := by
          have hcd : n.checkDuplicate m side p = .ok (some r) := by
            simp only [Node.checkDuplicate, r1, ne_eq, not_true, if_false]
            rw [r2, ← hpt, verifyEqual_same _ _ hs]
            rfl
          simp only [Node.addPortFrom, hcd]
        simp only [copyAll, hstep]
        exact ih fun y hy => hx y (by simp [hy])
    exact key _ (by
      rintro ⟨m, side, p⟩ hx
      obtain ⟨hm, hp⟩ := mem_copySeq.mp hx
      simp only [List.mem_singleton] at hm
      subst hm
      exact ⟨rfl, hp⟩)

/-- C77 fails where definitions have a port in common and its type is the same name for something else: a
definition that adds only such ports changes nothing, and no message is given, whatever its types are. -/
theorem C77_common_port_violated (name : Str) (sort normalize : Bool) (texts : List Str) (srcs : List Node)
    (hsrc : mapPy parseFile texts = .ok srcs) (hw : ∀ m ∈ srcs, m.Writable) (text : Str) (k : Node)
    (hk : parseFile text = .ok k) (hwk : k.Writable)
    (hcommon : ∀ side, ∀ p ∈ k.ports side, ∃ m ∈ srcs, ∃ q ∈ m.ports side, q.line = p.line) :
    apxJoin name sort normalize (texts ++ [text]) = apxJoin name sort normalize texts := by
  have hb : ∀ m ∈ srcs, NodeInv m := fun m hm =>
    (parseFiles_built texts Parser.new (by intro n hn; cases hn) srcs (parseFiles_each hsrc Parser.new) m hm).1.inv
  have hsrc' : mapPy parseFile (texts ++ [text]) = .ok (srcs ++ [k]) := by
    clear hw hb hcommon
    induction texts generalizing srcs with
    | nil =>
      simp only [mapPy, Except.ok.injEq] at hsrc
      subst hsrc
      simp [mapPy, hk]
    | cons a texts ih =>
      simp only [mapPy, bind_ok_iff, Except.ok.injEq] at hsrc
      obtain ⟨y, h1, r, h2, rfl⟩ := hsrc
      simp [mapPy, h1, ih r h2]
  have hj := joinNodes_common name srcs hb hw k hwk hcommon
  simp only [apxJoin, parseFiles_each hsrc Parser.new, parseFiles_each hsrc' Parser.new, joinedNode, hj]

/-! ### The theorems apply -/

/-- `tlText2` with another type for port `o`. -/
def jrText : Str := "APX/1.2\nN\"Z\"\nP\"o\"S\n".toList
/-- See `jrText`. -/
def jrSrc : Node := ⟨['Z'], false, [], [], [⟨['o'], .prim .u16 none none none, none, some 0⟩]⟩
/-- `tlText2` with another type `A`, which only port `y` has. -/
def jrText2 : Str := "APX/1.2\nN\"Z\"\nT\"A\"S\nP\"y\"T[\"A\"]\n".toList
/-- See `jrText2`. -/
def jrSrc2 : Node := ⟨['Z'], false, [⟨['A'], .prim .u16 none none none, none, none, none⟩], [],
  [⟨['y'], .refType ['A'] (.prim .u16 none none none), none, some 0⟩]⟩
/-- `tlText2` with another type `A`, for the same port `w`. -/
def jrText3 : Str := "APX/1.2\nN\"Z\"\nT\"A\"L\nP\"w\"T[\"A\"]\n".toList
/-- See `jrText3`. -/
def jrSrc3 : Node := ⟨['Z'], false, [⟨['A'], .prim .u32 none none none, none, none, none⟩], [],
  [⟨['w'], .refType ['A'] (.prim .u32 none none none), none, some 0⟩]⟩

theorem jrSrc_loaded : parseFile jrText = .ok jrSrc := loaded_of_view (by decide +kernel) (by decide +kernel)
  (by decide +kernel) (by decide +kernel) rfl (by decide) (by decide)

theorem jrSrc_writable : jrSrc.Writable := by
  refine ⟨by unfold NameOk; decide, ?_, ?_⟩
  · simp [jrSrc, NameOk, Elem.WellFormed, Elem.Clean]
  · intro side
    cases side <;> simp [Node.ports, jrSrc, NameOk, Elem.WellFormed, Elem.Clean, RefNameOk]

theorem jrSrc2_loaded : parseFile jrText2 = .ok jrSrc2 := loaded_of_view (by decide +kernel) (by decide +kernel)
  (by decide +kernel) (by decide +kernel) rfl (by decide) (by decide)

theorem jrSrc2_writable : jrSrc2.Writable := by
  refine ⟨by unfold NameOk; decide, ?_, ?_⟩
  · simp [jrSrc2, NameOk, Elem.WellFormed, Elem.Clean]
  · intro side
    cases side <;> simp [Node.ports, jrSrc2, NameOk, Elem.WellFormed, Elem.Clean, RefNameOk]

theorem jrSrc3_loaded : parseFile jrText3 = .ok jrSrc3 := loaded_of_view (by decide +kernel) (by decide +kernel)
  (by decide +kernel) (by decide +kernel) rfl (by decide) (by decide)

theorem jrSrc3_writable : jrSrc3.Writable := by
  refine ⟨by unfold NameOk; decide, ?_, ?_⟩
  · simp [jrSrc3, NameOk, Elem.WellFormed, Elem.Clean]
  · intro side
    cases side <;> simp [Node.ports, jrSrc3, NameOk, Elem.WellFormed, Elem.Clean, RefNameOk]

example : mapPy parseFile [tlText2, jrText] = .ok [tlSrc2, jrSrc] ∧ (∀ m ∈ [tlSrc2, jrSrc], m.Writable) ∧
    PortsContradict [tlSrc2, jrSrc] := by
  refine ⟨mapPy_two tlSrc2_loaded jrSrc_loaded, ?_, tlSrc2, by simp, jrSrc, by simp, .provide, .provide,
    ⟨['o'], .prim .u8 none none none, none, some 0⟩, by simp [Node.ports, tlSrc2],
    ⟨['o'], .prim .u16 none none none, none, some 0⟩, by simp [Node.ports, jrSrc], rfl, .inr (by simp [Port.line, Elem.asWritten])⟩
  intro m hm
  rcases List.mem_cons.mp hm with rfl | hm
  · exact tlSrc2_splittable.writable
  · rw [List.mem_singleton.mp hm]; exact jrSrc_writable

example : mapPy parseFile [tlText2, jrText2] = .ok [tlSrc2, jrSrc2] ∧ (∀ m ∈ [tlSrc2, jrSrc2], m.Writable) ∧
    TypesContradict [tlSrc2, jrSrc2] := by
  refine ⟨mapPy_two tlSrc2_loaded jrSrc2_loaded, ?_, tlSrc2, by simp, jrSrc2, by simp, .provide, .provide,
    ⟨['w'], .refType ['A'] (.prim .u8 (some 0) (some 3) none), none, some 1⟩, by simp [Node.ports, tlSrc2],
    ⟨['y'], .refType ['A'] (.prim .u16 none none none), none, some 0⟩, by simp [Node.ports, jrSrc2],
    ⟨['A'], .prim .u8 (some 0) (some 3) none, none, none, none⟩, by simp [tlSrc2],
    ⟨['A'], .prim .u16 none none none, none, none, none⟩, by simp [jrSrc2], by decide, by decide, rfl, rfl, rfl,
    by simp [TypeObj.line, Elem.asWritten]⟩
  intro m hm
  rcases List.mem_cons.mp hm with rfl | hm
  · exact tlSrc2_splittable.writable
  · rw [List.mem_singleton.mp hm]; exact jrSrc2_writable

/-- The port `w` has one byte in the first definition and four in the second. -/
example : mapPy parseFile [tlText2] = .ok [tlSrc2] ∧ (∀ m ∈ [tlSrc2], m.Writable) ∧ parseFile jrText3 = .ok jrSrc3 ∧
    jrSrc3.Writable ∧ (∀ side, ∀ p ∈ jrSrc3.ports side, ∃ m ∈ [tlSrc2], ∃ q ∈ m.ports side, q.line = p.line) ∧
    apxSize tlText2 = .ok (0, 2) ∧ apxSize jrText3 = .ok (0, 4) ∧
    (apxJoin ['J'] false false [tlText2, jrText3]).sizesWritten = [.ok (0, 2)] := by
  refine ⟨by simp [mapPy, tlSrc2_loaded], ?_, jrSrc3_loaded, jrSrc3_writable, ?_, by decide +kernel, by decide +kernel,
    by decide +kernel⟩
  · intro m hm
    rw [List.mem_singleton.mp hm]; exact tlSrc2_splittable.writable
  · intro side
    cases side
    · simp [Node.ports, jrSrc3]
    · simp [Node.ports, jrSrc3, tlSrc2, Port.line, Elem.asWritten]

/-- The definition of `tlText2`, from the other end of its first port. -/
def jrText4 : Str := "APX/1.2\nN\"U\"\nR\"o\"C\n".toList

/-- See `jrText4`. -/
def jrSrc4 : Node := ⟨['U'], false, [], [⟨['o'], .prim .u8 none none none, none, some 0⟩], []⟩

theorem jrSrc4_loaded : parseFile jrText4 = .ok jrSrc4 := loaded_of_view (by decide +kernel) (by decide +kernel)
  (by decide +kernel) (by decide +kernel) rfl (by decide) (by decide)

example : mapPy parseFile [tlText2, jrText4] = .ok [tlSrc2, jrSrc4] ∧ (∀ m ∈ [tlSrc2, jrSrc4], m.Writable) ∧
    ∃ p ∈ tlSrc2.provides, ∃ q ∈ jrSrc4.requires, p.name = q.name ∧ p.line = q.line := by
  refine ⟨mapPy_two tlSrc2_loaded jrSrc4_loaded, ?_, ⟨['o'], .prim .u8 none none none, none, some 0⟩, by simp [tlSrc2],
    ⟨['o'], .prim .u8 none none none, none, some 0⟩, by simp [jrSrc4], rfl, rfl⟩
  intro m hm
  rcases List.mem_cons.mp hm with rfl | hm
  · exact tlSrc2_splittable.writable
  · rw [List.mem_singleton.mp hm]
    refine ⟨by unfold NameOk; decide, by simp [jrSrc4], ?_⟩
    intro side
    cases side <;> simp [Node.ports, jrSrc4, NameOk, Elem.WellFormed, Elem.Clean, RefNameOk]

end Apx
