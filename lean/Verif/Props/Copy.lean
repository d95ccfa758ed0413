import Verif.Props.Node

/-! C61: a port copied into another node keeps its data layout. -/

namespace Apx

/-- Types of the same name are the same type. -/
def TypesAgree (a b : List NamedType) : Prop := ∀ t ∈ a, ∀ u ∈ b, t.name = u.name → t = u

mutual
theorem Elem.resolve_back {N S : List NamedType} (hag : TypesAgree N S) (ids : Str → Option Int) (e e' : Elem)
    (hr : e.RefsIn S) (h : (e.asWritten ids true).resolveType N = .ok e') : e' = e := by
  match e with
  | .prim tc mn mx a =>
    simp only [Elem.asWritten, Elem.resolveType, Except.ok.injEq] at h
    exact h.symm
  | .refId i => exact hr.elim
  | .refName m => exact hr.elim
  | .refType m t =>
    simp only [Elem.asWritten, Elem.resolveType] at h
    split at h
    · rename_i u hu
      obtain ⟨h1, h2⟩ := findType_mem _ _ _ hu
      simp only [Except.ok.injEq] at h
      rw [← h, hag u h1 ⟨m, t⟩ hr h2]
    · cases h
  | .record fs a =>
    simp only [Elem.asWritten, Elem.resolveType] at h
    rw [bind_ok_iff] at h
    obtain ⟨fs', h1, h⟩ := h
    cases h
    rw [Fields.resolve_back hag ids fs fs' hr h1]
theorem Fields.resolve_back {N S : List NamedType} (hag : TypesAgree N S) (ids : Str → Option Int) (fs fs' : Fields)
    (hr : fs.RefsIn S) (h : (fs.asWritten ids true).resolveType N = .ok fs') : fs' = fs := by
  match fs with
  | .nil =>
    simp only [Fields.asWritten, Fields.resolveType, Except.ok.injEq] at h
    exact h.symm
  | .cons m e r =>
    simp only [Fields.asWritten, Fields.resolveType] at h
    rw [bind_ok_iff] at h
    obtain ⟨e', h1, h⟩ := h
    rw [bind_ok_iff] at h
    obtain ⟨r', h2, h⟩ := h
    cases h
    rw [Elem.resolve_back hag ids e e' hr.1 h1, Fields.resolve_back hag ids r r' hr.2 h2]
end

mutual
theorem Elem.resolve_agree {N S : List NamedType} (hag : TypesAgree N S) (e a b : Elem) (hw : e.WellFormed)
    (ha : e.resolveType N = .ok a) (hb : e.resolveType S = .ok b) : a = b := by
  match e with
  | .prim tc mn mx x =>
    simp only [Elem.resolveType, Except.ok.injEq] at ha hb
    rw [← ha, ← hb]
  | .refId i => exact hw.elim
  | .refName m =>
    simp only [Elem.resolveType] at ha hb
    split at ha
    · rename_i u hu
      split at hb
      · rename_i w hv
        cases ha
        cases hb
        obtain ⟨h1, h2⟩ := findType_mem _ _ _ hu
        obtain ⟨h3, h4⟩ := findType_mem _ _ _ hv
        rw [hag u h1 w h3 (h2.trans h4.symm)]
      · cases hb
    · cases ha
  | .refType m t =>
    simp only [Elem.resolveType, Except.ok.injEq] at ha hb
    rw [← ha, ← hb]
  | .record fs x =>
    simp only [Elem.resolveType] at ha hb
    rw [bind_ok_iff] at ha hb
    obtain ⟨f1, h1, ha⟩ := ha
    obtain ⟨f2, h2, hb⟩ := hb
    cases ha
    cases hb
    rw [Fields.resolve_agree hag fs f1 f2 hw.2 h1 h2]
theorem Fields.resolve_agree {N S : List NamedType} (hag : TypesAgree N S) (fs a b : Fields) (hw : fs.WellFormed)
    (ha : fs.resolveType N = .ok a) (hb : fs.resolveType S = .ok b) : a = b := by
  match fs with
  | .nil =>
    simp only [Fields.resolveType, Except.ok.injEq] at ha hb
    rw [← ha, ← hb]
  | .cons m e r =>
    simp only [Fields.resolveType] at ha hb
    rw [bind_ok_iff] at ha hb
    obtain ⟨e1, h1, ha⟩ := ha
    obtain ⟨e2, h2, hb⟩ := hb
    rw [bind_ok_iff] at ha hb
    obtain ⟨r1, h3, ha⟩ := ha
    obtain ⟨r2, h4, hb⟩ := hb
    cases ha
    cases hb
    rw [Elem.resolve_agree hag e e1 e2 hw.2.1 h1 h2, Fields.resolve_agree hag r r1 r2 hw.2.2 h3 h4]
end

/-- The types of the source node: unique names, well-formed and resolved. -/
structure CopySrc (src : Node) : Prop where
  inv : NodeInv src
  wf : ∀ t ∈ src.types, t.elem.WellFormed

theorem CopySrc.unique {src : Node} (hs : CopySrc src) (a b : NamedType) (ha : a ∈ src.named) (hb : b ∈ src.named)
    (h : a.name = b.name) : a = b :=
  (nodeInv_resolvedIn hs.inv b.name b.elem hb).1 a ha h

theorem CopySrc.elem {src : Node} (hs : CopySrc src) (t : NamedType) (ht : t ∈ src.named) :
    t.elem.WellFormed ∧ t.elem.RefsIn src.named := by
  obtain ⟨u, hu, rfl⟩ := List.mem_map.mp ht
  exact ⟨hs.wf u hu, hs.inv.refs u hu⟩

/-- What is known after copying the type `e`. -/
def CopyOk (src : Node) (e : Elem) (r : NodeM TypeObj) : Prop :=
  TypesAgree r.1.named src.named ∧ ∀ t, r.2 = .ok t → t.elem = e ∧ t ∈ r.1.types

theorem cloneType_keeps (n src : Node) (hs : CopySrc src) (hag : TypesAgree n.named src.named) (name : Str) (e : Elem)
    (hm : ⟨name, e⟩ ∈ src.named) : CopyOk src e (n.cloneType src name e) := by
  unfold Node.cloneType
  split
  · rename_i n' t h
    rw [bind_ok_iff] at h
    obtain ⟨s, h1, h⟩ := h
    rw [bind_ok_iff] at h
    obtain ⟨c, h2, h⟩ := h
    obtain ⟨f1, -, -, -, f2, -, -⟩ := mkType_facts _ _ _ _ h2
    obtain ⟨hw, hr⟩ := hs.elem _ hm
    obtain ⟨s', g1, g2⟩ := Elem.parse_toStr_data src.ids true e hw
    rw [h1] at g1
    cases g1
    have hce : c.elem = e.asWritten src.ids true := by
      rw [g2] at f2
      exact (Except.ok.inj f2).symm
    rcases addType_cases n n' c t h with ⟨rfl, k1, k2⟩ | ⟨-, e', k1, -, rfl, rfl⟩
    · refine ⟨hag, fun t' ht' => ?_⟩
      cases ht'
      have := hag t.named (List.mem_map.mpr ⟨t, k1, rfl⟩) _ hm (k2.trans f1)
      exact ⟨congrArg NamedType.elem this, k1⟩
    · rw [hce] at k1
      have he := Elem.resolve_back hag src.ids e e' hr k1
      subst he
      refine ⟨?_, fun t' ht' => ?_⟩
      · intro a ha b hb hab
        simp only [Node.named, List.map_append, List.map_cons, List.map_nil, List.mem_append, List.mem_singleton] at ha
        rcases ha with ha | rfl
        · exact hag a ha b hb hab
        · exact hs.unique _ b (by simpa [TypeObj.named, f1] using hm) hb hab
      · cases ht'
        exact ⟨rfl, by simp⟩
  · exact ⟨hag, fun t ht => by cases ht⟩

mutual
theorem addTypeFrom_keeps (n src : Node) (hs : CopySrc src) (hag : TypesAgree n.named src.named) (name : Str) (e : Elem)
    (hm : ⟨name, e⟩ ∈ src.named) : CopyOk src e (n.addTypeFrom src name e) := by
  match e with
  | .prim tc mn mx a => simp only [Node.addTypeFrom]; exact cloneType_keeps n src hs hag name _ hm
  | .record fs a =>
    have hf := addFieldsFrom_keeps n src hs hag fs (hs.elem _ hm).2
    simp only [Node.addTypeFrom]
    split
    · rename_i n' he
      rw [he] at hf
      exact cloneType_keeps n' src hs hf name _ hm
    · rename_i n' x he
      rw [he] at hf
      exact ⟨hf, fun t ht => by cases ht⟩
  | .refId _ => exact ⟨hag, fun t ht => by cases ht⟩
  | .refName _ => exact ⟨hag, fun t ht => by cases ht⟩
  | .refType _ _ => exact ⟨hag, fun t ht => by cases ht⟩
theorem addFieldsFrom_keeps (n src : Node) (hs : CopySrc src) (hag : TypesAgree n.named src.named) (fs : Fields)
    (hr : fs.RefsIn src.named) : TypesAgree (n.addFieldsFrom src fs).1.named src.named := by
  match fs with
  | .nil => exact hag
  | .cons _ (.refType m t) r =>
    have ht := addTypeFrom_keeps n src hs hag m t hr.1
    simp only [Node.addFieldsFrom]
    split
    · rename_i n' u he
      rw [he] at ht
      exact addFieldsFrom_keeps n' src hs ht.1 r hr.2
    · rename_i n' x he
      rw [he] at ht
      exact ht.1
  | .cons _ (.refId _) _ => exact hag
  | .cons _ (.refName _) _ => exact hag
  | .cons _ (.prim _ _ _ _) r => simp only [Node.addFieldsFrom]; exact addFieldsFrom_keeps n src hs hag r hr.2
  | .cons _ (.record _ _) r => simp only [Node.addFieldsFrom]; exact addFieldsFrom_keeps n src hs hag r hr.2
end

theorem targetType_keeps (n src : Node) (hs : CopySrc src) (hag : TypesAgree n.named src.named) (name : Str) (e : Elem)
    (hm : ⟨name, e⟩ ∈ src.named) : CopyOk src e (n.targetType src name e) := by
  have hg := (targetType_grows n src name e).2.2
  unfold Node.targetType at hg ⊢
  simp only at hg ⊢
  split
  · exact addTypeFrom_keeps n src hs hag name e hm
  · rename_i t he
    rw [he] at hg
    simp only at hg
    split
    · rename_i hv
      rw [hv] at hg
      refine ⟨hag, fun t' ht' => ?_⟩
      obtain ⟨h1, h2⟩ := hg t' ht'
      exact ⟨congrArg NamedType.elem (hag t'.named (List.mem_map.mpr ⟨t', h1, rfl⟩) _ hm h2), h1⟩
    · exact ⟨hag, fun t' ht' => by cases ht'⟩
  · split
    · exact ⟨hag, fun t' ht' => by cases ht'⟩
    · exact ⟨hag, fun t' ht' => by cases ht'⟩

theorem stops_attr (a : Option Str) : Stops (match a with | some a => ':' :: a | none => []) := by
  cases a <;> simp [Stops]

theorem lineText_eq (kind : Char) (name dsg : Str) (a : Option Str) :
    lineText kind name dsg a = kind :: '"' :: (name ++ ('"' :: (dsg ++ (match a with | some a => ':' :: a | none => [])))) := by
  cases a <;> simp [lineText]

/-- Two ports of one name with the same normalized text: same type as written, same attributes. -/
theorem portText_inj (idsN idsS : Str → Option Int) (side : Side) (q p : Port) (hq : q.elem.WellFormed)
    (hp : p.elem.WellFormed) (hn : q.name = p.name)
    (h : verifyEqual (q.toStr idsN true side) (p.toStr idsS true side) = .ok ()) :
    q.elem.asWritten idsN true = p.elem.asWritten idsS true ∧ q.attr.map PortAttr.str = p.attr.map PortAttr.str := by
  obtain ⟨s, h1, -, -, h2⟩ := Elem.parse_toStr idsN true q.elem hq
  obtain ⟨s', h1', -, -, h2'⟩ := Elem.parse_toStr idsS true p.elem hp
  simp only [Port.toStr, h1, h1', ok_bind, verifyEqual] at h
  split at h
  · cases h
  rename_i heq
  simp only [ne_eq, Decidable.not_not] at heq
  rw [lineText_eq, lineText_eq, hn] at heq
  simp only [List.cons.injEq, true_and, List.append_cancel_left_eq] at heq
  have e1 := h2 _ (2 * (s ++ _).length + 1) (stops_attr (q.attr.map PortAttr.str)) (Nat.le_refl _)
  have e2 := h2' _ (2 * (s' ++ _).length + 1) (stops_attr (p.attr.map PortAttr.str)) (Nat.le_refl _)
  rw [heq, e2] at e1
  simp only [Except.ok.injEq, Prod.mk.injEq, Option.some.injEq] at e1
  refine ⟨e1.1.symm, ?_⟩
  have h3 := e1.2
  revert h3
  cases q.attr.map PortAttr.str <;> cases p.attr.map PortAttr.str <;> simp <;> exact Eq.symm

theorem attr_of_str {a b : Option PortAttr} (h : a.map PortAttr.str = b.map PortAttr.str)
    (ha : ∀ x, a = some x → portAttribute x.str = .ok x) (hb : ∀ x, b = some x → portAttribute x.str = .ok x) : a = b := by
  cases a <;> cases b <;> simp at h
  · rfl
  · rename_i x y
    have h1 := ha x rfl
    have h2 := hb y rfl
    rw [h, h2] at h1
    rw [Except.ok.inj h1]

theorem asWritten_isReference (ids : Str → Option Int) (b : Bool) (e : Elem) :
    (e.asWritten ids b).isReference = e.isReference := by
  cases e with
  | refType m t => simp only [Elem.asWritten]; split <;> rfl
  | _ => rfl

/-- What is known after copying a port. -/
def PortCopied (src : Node) (side : Side) (p : Port) (r : NodeM Port) : Prop :=
  TypesAgree r.1.named src.named ∧ (∀ side, ∀ q ∈ r.1.ports side, q.elem.WellFormed) ∧
    ∀ q, r.2 = .ok q → q ∈ r.1.ports side ∧ q.content = p.content

theorem addPortM_keeps (m src : Node) (hm : TypesAgree m.named src.named)
    (hwm : ∀ side, ∀ q ∈ m.ports side, q.elem.WellFormed) (side : Side) (p c : Port) (hwp : p.elem.WellFormed)
    (h1 : c.name = p.name) (h2 : c.attr = p.attr) (h3 : c.elem = p.elem)
    (h4 : ∀ k, resolvePort m.named { c with id := some k } = .ok { c with id := some k }) :
    PortCopied src side p (m.addPortM side c) := by
  have : m.addPort side c = .ok (m.setPorts side (m.ports side ++ [{ c with id := some (m.ports side).length }]),
      { c with id := some (m.ports side).length }) := by
    unfold Node.addPort
    rw [h4]
    rfl
  unfold Node.addPortM
  rw [this]
  refine ⟨?_, ?_, ?_⟩
  · simpa only [setPorts_named] using hm
  · intro side' q hq
    simp only [ports_setPorts] at hq
    split at hq
    · rcases List.mem_append.mp hq with hq | hq
      · exact hwm side q hq
      · rw [List.mem_singleton.mp hq]
        simpa only [h3] using hwp
    · exact hwm side' q hq
  · intro q hq
    cases hq
    refine ⟨?_, ?_⟩
    · simp [ports_setPorts]
    · simp [Port.content, h1, h2, h3]

theorem addPortFrom_keeps (n src : Node) (hn : NodeInv n) (hs : CopySrc src) (hag : TypesAgree n.named src.named)
    (hwn : ∀ side, ∀ q ∈ n.ports side, q.elem.WellFormed) (side : Side) (p : Port) (hp : p ∈ src.ports side)
    (hwp : p.elem.WellFormed) (ig : Bool) : PortCopied src side p (n.addPortFrom src side p ig) := by
  have hpi := hs.inv.ports side p hp
  have failed : ∀ (m : Node) (x : PyErr), TypesAgree m.named src.named →
      (∀ side, ∀ q ∈ m.ports side, q.elem.WellFormed) → PortCopied src side p (m, .error x) := by
    intro m x h1 h2
    exact ⟨h1, h2, fun q hq => by cases hq⟩
  have hres := addPortFrom_result n src side p ig
  unfold Node.addPortFrom at hres ⊢
  split
  · exact failed _ _ hag hwn
  · rename_i q hd
    rw [hd] at hres
    cases hres with
    | existing _ hq hv =>
      obtain ⟨hq1, hq2⟩ := portNamed_some n p.name side q hq
      have hqi := hn.ports side q hq1
      obtain ⟨h1, h2⟩ := portText_inj n.ids src.ids side q p (hwn side q hq1) hwp hq2 hv
      have hattr := attr_of_str h2 hqi.attr hpi.attr
      have hisr : q.elem.isReference = p.elem.isReference := by
        rw [← asWritten_isReference n.ids true, h1, asWritten_isReference]
      have helem : q.elem = p.elem := by
        cases hr : p.elem.isReference with
        | false =>
          rw [Elem.asWritten_noResolved _ _ _ (Elem.raw_noResolved _ (hqi.raw (hisr.trans hr))),
            Elem.asWritten_noResolved _ _ _ (Elem.raw_noResolved _ (hpi.raw hr))] at h1
          exact h1
        | true =>
          obtain ⟨m, t, e1, e2, -⟩ := hqi.ref (hisr.trans hr)
          obtain ⟨m', t', e1', e2', -⟩ := hpi.ref hr
          rw [e1, e1'] at h1 ⊢
          simp only [Elem.asWritten, Elem.refName.injEq] at h1
          have := hag _ e2 _ e2' h1
          cases this
          rfl
      refine ⟨hag, hwn, fun q' hq' => ?_⟩
      cases hq'
      exact ⟨hq1, by simp [Port.content, hq2, hattr, helem]⟩
    | added m m' c q h1 =>
      rename_i hadd _ _ _ _ _
      unfold Node.checkDuplicate at hd
      rw [h1] at hd
      cases hd
  · split
    · exact failed _ _ hag hwn
    · rename_i c hc
      obtain ⟨s, c', k1, k2, k3, k4, k5, k6, -⟩ := reparse_port hs.inv p hpi hwp (side = .require)
      have hcc : c = c' := by
        unfold Port.clone Port.mirror at hc
        simp only [k1, ok_bind, k2, Except.ok.injEq] at hc
        exact hc.symm
      subst hcc
      split
      · exact failed _ _ hag hwn
      · exact failed _ _ hag hwn
      · rename_i name e he
        obtain ⟨m, t, e1, e2, d, hd⟩ := hpi.ref (by rw [he]; rfl)
        rw [he] at e1
        cases e1
        have ht := targetType_keeps n src hs hag name e e2
        have hg := targetType_grows n src name e
        split
        · rename_i m x hx
          rw [hx] at ht hg
          exact failed m x ht.1 fun side q hq => hwn side q (by rw [← hg.1.ports]; exact hq)
        · rename_i m t hx
          rw [hx] at ht hg
          obtain ⟨g1, g2⟩ := ht.2 t rfl
          obtain ⟨-, g3⟩ := hg.2.2 t rfl
          refine addPortM_keeps m src ht.1 ?_ side p _ hwp k3 k4 (by rw [he, g1, g3]) ?_
          · exact fun side q hq => hwn side q (by rw [← hg.1.ports]; exact hq)
          · intro k
            rw [he] at hd
            simp only [Elem.resolveDataElement] at hd
            simp [resolvePort, Elem.isReference, resolveDsg, Elem.resolveType, g1, g3, hd, Elem.resolveDataElement]
      · rename_i hx1 hx2 hx3
        have hr : p.elem.isReference = false := by
          cases he : p.elem with
          | refId i => exact (hx1 i he).elim
          | refName i => exact (hx2 i he).elim
          | refType i t => exact (hx3 i t he).elim
          | prim => rfl
          | record => rfl
        have hce : c.elem = p.elem := by
          rw [k6, Elem.asWritten_noResolved _ _ _ (Elem.raw_noResolved _ (hpi.raw hr))]
        refine addPortM_keeps n src hag hwn side p c hwp k3 k4 hce ?_
        intro k
        simp [resolvePort, hce, hr]

/-- C61, the part that holds: if types of the same name are the same in the two nodes (which then stays
so), a port that has been copied has the name, attributes and type of the original, and the data
layouts computed for it in the two nodes are the same. If the port's type is a reference, the type is
defined in the receiving node.

Assumed: names of types and fields that can be printed and parsed. -/
theorem C61_copied_partial (n src : Node) (hn : n.Built) (hs : src.Built)
    (hag : TypesAgree n.named src.named) (hwt : ∀ t ∈ src.types, t.elem.WellFormed)
    (hwn : ∀ side, ∀ q ∈ n.ports side, q.elem.WellFormed)
    (side : Side) (p : Port) (hp : p ∈ src.ports side) (hwp : p.elem.WellFormed) (ignoreDuplicates : Bool)
    (n' : Node) (q : Port) (h : n.addPortFrom src side p ignoreDuplicates = (n', .ok q)) :
    q ∈ n'.ports side ∧ q.content = p.content ∧ TypesAgree n'.named src.named ∧
      (p.elem.isReference = true → ∃ de, q.toNPort.type n'.named = .ok de) ∧
      ∀ de de', q.toNPort.type n'.named = .ok de → p.toNPort.type src.named = .ok de' → de = de' := by
  have hc := addPortFrom_keeps n src hn.inv ⟨hs.inv, hwt⟩ hag hwn side p hp hwp ignoreDuplicates
  rw [h] at hc
  obtain ⟨h1, -, h2⟩ := hc
  obtain ⟨h3, h4⟩ := h2 q rfl
  have he : q.elem = p.elem := by
    simp only [Port.content, Prod.mk.injEq] at h4
    exact h4.2.1
  refine ⟨h3, h4, h1, ?_, ?_⟩
  · intro hr
    obtain ⟨m, t, e1, e2, d, hd⟩ := (hs.inv.ports side p hp).ref hr
    refine ⟨d, ?_⟩
    simp only [NPort.type, Port.toNPort, he]
    rw [e1] at hd ⊢
    simp only [Elem.resolveType, ok_bind, hd]
  · intro de de' hd hd'
    simp only [NPort.type, Port.toNPort, he] at hd hd'
    rw [bind_ok_iff] at hd hd'
    obtain ⟨a, a1, a2⟩ := hd
    obtain ⟨b, b1, b2⟩ := hd'
    have := Elem.resolve_agree h1 p.elem a b hwp a1 b1
    subst this
    rw [a2] at b2
    exact Except.ok.inj b2

theorem type_agree {N S : List NamedType} (hag : TypesAgree N S) (p q : Port) (hc : q.content = p.content)
    (hw : p.elem.WellFormed) (de de' : Elem) (hd : q.toNPort.type N = .ok de) (hd' : p.toNPort.type S = .ok de') :
    de = de' := by
  have he : q.elem = p.elem := by
    simp only [Port.content, Prod.mk.injEq] at hc
    exact hc.2.1
  simp only [NPort.type, Port.toNPort, he] at hd hd'
  rw [bind_ok_iff] at hd hd'
  obtain ⟨a, a1, a2⟩ := hd
  obtain ⟨b, b1, b2⟩ := hd'
  have := Elem.resolve_agree hag p.elem a b hw a1 b1
  subst this
  rw [a2] at b2
  exact Except.ok.inj b2

theorem addPortFrom_ports_mono (n src : Node) (side : Side) (p : Port) (ig : Bool) (side' : Side) (q : Port)
    (h : q ∈ n.ports side') : q ∈ (n.addPortFrom src side p ig).1.ports side' := by
  have hr := addPortFrom_result n src side p ig
  cases h' : n.addPortFrom src side p ig with
  | mk m r =>
    rw [h'] at hr
    cases hr with
    | existing q => exact h
    | failed _ x hg hm => rw [hg.ports]; exact h
    | added m m' c q _ hg _ _ _ _ hadd =>
      obtain ⟨-, rfl⟩ := addPort_cases _ _ _ _ _ hadd
      simp only [ports_setPorts]
      split
      · rename_i hs
        subst hs
        rw [hg.ports]
        exact List.mem_append_left _ h
      · rw [hg.ports]; exact h

theorem extendWith_keeps (src : Node) (hs : CopySrc src) (side : Side) (ps : List Port) (hps : ∀ p ∈ ps, p ∈ src.ports side)
    (hwp : ∀ p ∈ ps, p.elem.WellFormed) (n : Node) (hn : NodeInv n) (hag : TypesAgree n.named src.named)
    (hwn : ∀ side, ∀ q ∈ n.ports side, q.elem.WellFormed) (n' : Node)
    (h : n.extendWith src side ps = (n', .ok ())) :
    NodeInv n' ∧ TypesAgree n'.named src.named ∧ (∀ side, ∀ q ∈ n'.ports side, q.elem.WellFormed) ∧
      (∀ side', ∀ q ∈ n.ports side', q ∈ n'.ports side') ∧
      ∀ p ∈ ps, ∃ q ∈ n'.ports side, q.content = p.content := by
  induction ps generalizing n with
  | nil => cases h; exact ⟨hn, hag, hwn, fun _ _ h => h, by simp⟩
  | cons p ps ih =>
    simp only [Node.extendWith] at h
    have h1 := addPortFrom_keeps n src hn hs hag hwn side p (hps p (by simp)) (hwp p (by simp)) false
    have h2 := addPortFrom_inv n src side p false hn
    have h3 := addPortFrom_ports_mono n src side p false
    split at h
    · rename_i m q he
      rw [he] at h1 h2 h3
      obtain ⟨i1, i2, i3, i4, i5⟩ := ih (fun r hr => hps r (by simp [hr])) (fun r hr => hwp r (by simp [hr])) m h2 h1.1 h1.2.1 h
      refine ⟨i1, i2, i3, fun side' r hr => i4 side' r (h3 side' r hr), ?_⟩
      intro r hr
      rcases List.mem_cons.mp hr with rfl | hr
      · obtain ⟨k1, k2⟩ := h1.2.2 q rfl
        exact ⟨q, i4 _ q k1, k2⟩
      · exact i5 r hr
    · cases h

/-- C61 for `extend`: under the same assumptions, after extending a node with another one every port
of the other node has a copy with its name, attributes, type and data layout, and the ports that were
there before are still there. -/
theorem C61_extend_partial (n src : Node) (hn : n.Built) (hs : src.Built)
    (hag : TypesAgree n.named src.named) (hwt : ∀ t ∈ src.types, t.elem.WellFormed)
    (hwn : ∀ side, ∀ q ∈ n.ports side, q.elem.WellFormed) (hws : ∀ side, ∀ p ∈ src.ports side, p.elem.WellFormed)
    (n' : Node) (h : n.extend src = (n', .ok ())) (side : Side) :
    (∀ q ∈ n.ports side, q ∈ n'.ports side) ∧
    ∀ p ∈ src.ports side, ∃ q ∈ n'.ports side, q.content = p.content ∧
      ∀ de de', q.toNPort.type n'.named = .ok de → p.toNPort.type src.named = .ok de' → de = de' := by
  have hs' : CopySrc src := ⟨hs.inv, hwt⟩
  unfold Node.extend at h
  split at h
  · rename_i m he
    obtain ⟨a1, a2, a3, a4, a5⟩ := extendWith_keeps src hs' .require src.requires (fun _ h => h) (hws .require) n hn.inv
      hag hwn m he
    obtain ⟨b1, b2, b3, b4, b5⟩ := extendWith_keeps src hs' .provide src.provides (fun _ h => h) (hws .provide) m a1 a2
      a3 n' h
    refine ⟨fun q hq => b4 side q (a4 side q hq), ?_⟩
    have hex : ∀ p ∈ src.ports side, ∃ q ∈ n'.ports side, q.content = p.content := by
      cases side with
      | require =>
        intro p hp
        obtain ⟨q, q1, q2⟩ := a5 p hp
        exact ⟨q, b4 .require q q1, q2⟩
      | provide => exact b5
    intro p hp
    obtain ⟨q, q1, q2⟩ := hex p hp
    exact ⟨q, q1, q2, type_agree b2 p q q2 (hws side p hp)⟩
  · cases h

/-- C61 for `mirror`: every port has the data layout in the mirror that it has in the node. -/
theorem C61_mirror_partial (n : Node) (hn : n.Built) (name : Option Str)
    (hw : ∀ side, ∀ p ∈ n.ports side, p.elem.WellFormed) :
    ∃ m, n.mirror name = .ok m ∧
      m.requires.map (fun p => p.toNPort.type m.named) = n.provides.map (fun p => p.toNPort.type n.named) ∧
      m.provides.map (fun p => p.toNPort.type m.named) = n.requires.map (fun p => p.toNPort.type n.named) := by
  refine ⟨_, mirror_eq hn.inv name hw, ?_, ?_⟩ <;>
    simp [Node.named, NPort.type, Port.toNPort, Function.comp_def]

/-! ### Where it fails -/

/-- A node whose port is a record holding a value of another type. -/
def cySrc : Node := (Node.new ['S']).run [.addType ['A'] ['C'] none,
  .addType ['R'] "{\"x\"T[\"A\"]}".toList none, .addPort .require ['P'] "T[\"R\"]".toList none]

/-- A node with types of the same names, with another meaning. -/
def cyOther : Node := (Node.new ['D']).run [.addType ['A'] ['S'] none,
  .addType ['R'] "{\"x\"T[\"A\"]}".toList none]

/-- A node with no types but an unrelated one. -/
def cyDest : Node := (Node.new ['D']).run [.addType ['B'] ['S'] none]

/-- The length of the data of the first port. -/
def firstLen (n : Node) (side : Side) : Py Nat :=
  match n.ports side with
  | [] => .error .indexError
  | p :: _ => p.toNPort.packLen n.named

/-- C61 fails if the receiving node has types of the same name and text but another meaning: the
one-byte port becomes a two-byte port, without an error. -/
theorem C61_nested_violated :
    (cyOther.extend cySrc).2.toOption.isSome ∧ firstLen cySrc .require = .ok 1 ∧
      firstLen (cyOther.extend cySrc).1 .require = .ok 2 := by decide +kernel

theorem setPorts_both (n : Node) (side : Side) (l : List Port) :
    (n.setPorts side l).named = n.named ∧ (n.setPorts side l).ports side = l := by
  cases side <;> exact ⟨rfl, rfl⟩

/-- A port that is no reference itself is copied as it is, and the types of the receiving node stay as they are. -/
theorem copy_plain (n src : Node) (hs : src.Built) (side : Side) (p : Port) (hp : p ∈ src.ports side)
    (hr : p.elem.isReference = false) (hw : p.elem.WellFormed) (hnew : ∀ side, ∀ q ∈ n.ports side, q.name ≠ p.name)
    (ignoreDuplicates : Bool) :
    ∃ n' q, n.addPortFrom src side p ignoreDuplicates = (n', .ok q) ∧ n'.named = n.named ∧ q ∈ n'.ports side ∧
      q.content = p.content := by
  have h1 : n.portNamed p.name = none := by
    have ha : n.provides.find? (fun q => decide (q.name = p.name)) = none :=
      List.find?_eq_none.mpr fun q hq => by simpa using hnew .provide q hq
    have hb : n.requires.find? (fun q => decide (q.name = p.name)) = none :=
      List.find?_eq_none.mpr fun q hq => by simpa using hnew .require q hq
    simp only [Node.portNamed, ha, hb, Option.map_none]
  have hpi := hs.inv.ports side p hp
  obtain ⟨s, c, k1, k2, k3, k4, k5, k6, -⟩ := reparse_port hs.inv p hpi hw (side = .require)
  have hc : p.clone src.ids side = .ok c := by
    unfold Port.clone Port.mirror
    simp only [k1, ok_bind, k2]
  have hce : c.elem = p.elem := by
    rw [k6, Elem.asWritten_noResolved _ _ _ (Elem.raw_noResolved _ (hpi.raw hr))]
  have hadd : n.addPortFrom src side p ignoreDuplicates = n.addPortM side c := by
    unfold Node.addPortFrom Node.checkDuplicate
    simp only [h1, hc]
    cases he : p.elem with
    | refId i => rw [he] at hr; cases hr
    | refName i => rw [he] at hr; cases hr
    | refType i t => rw [he] at hr; cases hr
    | prim => rfl
    | record => rfl
  have hres : ∀ k, resolvePort n.named { c with id := some k } = .ok { c with id := some k } := by
    intro k
    simp [resolvePort, hce, hr]
  obtain ⟨f1, f2⟩ 
    := setPorts_both n side (n.ports side ++ [{ c with id := some (n.ports side).length }])
  refine ⟨_, { c with id := some (n.ports side).length }, ?_, f1, ?_, ?_⟩
  · rw [hadd]
    unfold Node.addPortM Node.addPort
    rw [hres]
    rfl
  · rw [f2]
    simp
  · simp [Port.content, k3, k4, hce]

/-- C61 fails for every port that is a record holding a reference to a type that the receiving node does not know: the
port is copied without an error, its types are not, and it has no data layout there. -/
theorem C61_missing_violated (n src : Node) (hs : src.Built) (side : Side) (p : Port) (hp : p ∈ src.ports side)
    (fs : Fields) (he : p.elem = .record fs none) (hw : p.elem.WellFormed)
    (hnew : ∀ side, ∀ q ∈ n.ports side, q.name ≠ p.name)
    (m : Str) (hm : Elem.Mentions (.refName m) p.elem) (hno : ∀ t ∈ n.named, t.name ≠ m) (ignoreDuplicates : Bool) :
    ∃ n' q, n.addPortFrom src side p ignoreDuplicates = (n', .ok q) ∧ q ∈ n'.ports side ∧ q.content = p.content ∧
      ∀ de, q.toNPort.type n'.named ≠ .ok de := by
  obtain ⟨n', q, h1, h2, h3, h4⟩ := copy_plain n src hs side p hp (by rw [he]; rfl) hw hnew ignoreDuplicates
  refine ⟨n', q, h1, h3, h4, fun de hd => ?_⟩
  have hq : q.elem = p.elem := by
    simp only [Port.content, Prod.mk.injEq] at h4
    exact h4.2.1
  simp only [NPort.type, Port.toNPort, hq, h2] at hd
  rw [bind_ok_iff] at hd
  obtain ⟨a, a1, -⟩ := hd
  obtain ⟨x, hx⟩ := Elem.resolve_unknown n.named (.refName m) hno p.elem hm
  rw [hx] at a1
  cases a1

mutual
theorem Elem.resolve_apart {A B : List NamedType} (m : Str) (t u : NamedType) (hA : findType A m = some t)
    (hB : findType B m = some u) (hne : t.elem ≠ u.elem) (e : Elem) (hm : Elem.Mentions (.refName m) e) (a b : Elem)
    (ha : e.resolveType A = .ok a) (hb : e.resolveType B = .ok b) : a ≠ b := by
  match e with
  | .prim .. => simp [Elem.Mentions] at hm
  | .refId _ => simp [Elem.Mentions] at hm
  | .refType .. => simp [Elem.Mentions] at hm
  | .refName k =>
    simp only [Elem.Mentions, Elem.refName.injEq] at hm
    subst hm
    simp only [Elem.resolveType, hA, hB, Except.ok.injEq] at ha hb
    subst ha hb
    intro h
    exact hne (Elem.refType.inj h).2
  | .record fs l =>
    simp only [Elem.Mentions] at hm
    simp only [Elem.resolveType, bind_ok_iff, Except.ok.injEq] at ha hb
    obtain ⟨x, hx, rfl⟩ := ha
    obtain ⟨y, hy, rfl⟩ := hb
    intro h
    exact Fields.resolve_apart m t u hA hB hne fs hm x y hx hy (Elem.record.inj h).1
theorem Fields.resolve_apart {A B : List NamedType} (m : Str) (t u : NamedType) (hA : findType A m = some t)
    (hB : findType B m = some u) (hne : t.elem ≠ u.elem) (fs : Fields) (hm : Fields.Mentions (.refName m) fs) (a b : Fields)
    (ha : fs.resolveType A = .ok a) (hb : fs.resolveType B = .ok b) : a ≠ b := by
  match fs with
  | .nil => exact hm.elim
  | .cons n e r =>
    simp only [Fields.Mentions] at hm
    simp only [Fields.resolveType, bind_ok_iff, Except.ok.injEq] at ha hb
    obtain ⟨x, hx, x', hx', rfl⟩ := ha
    obtain ⟨y, hy, y', hy', rfl⟩ := hb
    intro h
    obtain ⟨-, h1, h2⟩ := Fields.cons.inj h
    rcases hm with hm | hm
    · exact Elem.resolve_apart m t u hA hB hne e hm x y hx hy h1
    · exact Fields.resolve_apart m t u hA hB hne r hm x' y' hx' hy' h2
end

/-- C61 fails for every port that is a record holding a reference to a type that is another one in the receiving node:
the port is copied without an error, and what its data means there is something else (or nothing). -/
theorem C61_other_violated (n src : Node) (hs : src.Built) (side : Side) (p : Port) (hp : p ∈ src.ports side)
    (fs : Fields) (he : p.elem = .record fs none) (hw : p.elem.WellFormed)
    (hnew : ∀ side, ∀ q ∈ n.ports side, q.name ≠ p.name)
    (m : Str) (hm : Elem.Mentions (.refName m) p.elem) (t u : NamedType) (ht : findType n.named m = some t)
    (hu : findType src.named m = some u) (hne : t.elem ≠ u.elem) (ignoreDuplicates : Bool) :
    ∃ n' q, n.addPortFrom src side p ignoreDuplicates = (n', .ok q) ∧ q ∈ n'.ports side ∧ q.content = p.content ∧
      ∀ de de', q.toNPort.type n'.named = .ok de → p.toNPort.type src.named = .ok de' → de ≠ de' := by
  obtain ⟨n', q, h1, h2, h3, h4⟩ := copy_plain n src hs side p hp (by rw [he]; rfl) hw hnew ignoreDuplicates
  refine ⟨n', q, h1, h3, h4, fun de de' hd hd' => ?_⟩
  have hq : q.elem = p.elem := by
    simp only [Port.content, Prod.mk.injEq] at h4
    exact h4.2.1
  simp only [NPort.type, Port.toNPort, hq, h2] at hd hd'
  rw [bind_ok_iff] at hd hd'
  obtain ⟨a, a1, a2⟩ := hd
  obtain ⟨b, b1, b2⟩ := hd'
  have hab := Elem.resolve_apart m t u ht hu hne p.elem hm a b a1 b1
  rw [he] at a1 b1
  simp only [Elem.resolveType, bind_ok_iff, Except.ok.injEq] at a1 b1
  obtain ⟨x, -, rfl⟩ := a1
  obtain ⟨y, -, rfl⟩ := b1
  simp only [Elem.resolveDataElement, maxRecurseDepth, Elem.resolveLoop, Except.ok.injEq] at a2 b2
  rw [← a2, ← b2]
  exact hab

/-- A node whose port is a record holding a reference to `A`, a one-byte value. -/
def cyHolder : Node := (Node.new ['S']).run [.addType ['A'] ['C'] none,
  .addPort .require ['P'] "{\"x\"T[\"A\"]}".toList none]

/-- The hypotheses of the two: `cyDest` does not know `A`, in `cyOther` it is a two-byte value. -/
example : cyHolder.Built ∧ ∃ p ∈ cyHolder.ports .require, ∃ fs, p.elem = .record fs none ∧ p.elem.WellFormed ∧
    Elem.Mentions (.refName ['A']) p.elem ∧ (∀ side, ∀ q ∈ cyDest.ports side, q.name ≠ p.name) ∧
    (∀ t ∈ cyDest.named, t.name ≠ ['A']) ∧ (∀ side, ∀ q ∈ cyOther.ports side, q.name ≠ p.name) ∧
    ∃ t u, findType cyOther.named ['A'] = some t ∧ findType cyHolder.named ['A'] = some u ∧ t.elem ≠ u.elem := by
  have h : cyHolder.requires.map (fun p => (p.name, p.elem)) =
      [(['P'], .record (.cons (some ['x']) (.refName ['A']) .nil) none)] := by decide +kernel
  obtain ⟨p, hp, h⟩ := List.mem_map.mp (h ▸ List.mem_singleton.mpr rfl)
  obtain ⟨h1, h2⟩ := Prod.mk.inj h
  refine ⟨⟨_, _, rfl⟩, p, hp, _, h2, ?_, ?_, ?_, ?_, ?_, ⟨['A'], .prim .u16 none none none⟩, ⟨['A'], .prim .u8 none none none⟩, by decide +kernel,
    by decide +kernel, by decide⟩
  · rw [h2]
    simp [Elem.WellFormed, Fields.WellFormed, RefNameOk, QuoteFree]
  · rw [h2]
    exact .inl rfl
  · intro side
    rw [h1]
    cases side <;> decide +kernel
  · decide +kernel
  · intro side
    rw [h1]
    cases side <;> decide +kernel

/-! ### The theorems apply -/

example : cyDest.Built := ⟨_, _, rfl⟩
example : cySrc.Built := ⟨_, _, rfl⟩

example : TypesAgree cyDest.named cySrc.named := by
  have h : ∀ t ∈ cyDest.named, ∀ u ∈ cySrc.named, t.name ≠ u.name := by decide +kernel
  exact fun t ht u hu hn => (h t ht u hu hn).elim

example : (∀ t ∈ cySrc.types, t.elem.WellFormed) ∧ (∀ side, ∀ p ∈ cySrc.ports side, p.elem.WellFormed) := by
  have h1 : cySrc.types.map TypeObj.elem = [.prim .u8 none none none,
      .record (.cons (some ['x']) (.refType ['A'] (.prim .u8 none none none)) .nil) none] := by decide +kernel
  have h2 : cySrc.requires.map Port.elem = [.refType ['R']
      (.record (.cons (some ['x']) (.refType ['A'] (.prim .u8 none none none)) .nil) none)] := by decide +kernel
  have h3 : cySrc.provides.map Port.elem = [] := by decide +kernel
  refine ⟨fun t ht => ?_, fun side p hp => ?_⟩
  · have := List.mem_map.mpr ⟨t, ht, (rfl : t.elem = _)⟩
    simp only [h1, List.mem_cons, List.not_mem_nil, or_false] at this
    rcases this with h | h <;> rw [h] <;> simp [Elem.WellFormed, Fields.WellFormed, RefNameOk, QuoteFree]
  · have := List.mem_map.mpr ⟨p, hp, (rfl : p.elem = _)⟩
    cases side
    · change p.elem ∈ cySrc.requires.map Port.elem at this
      simp only [h2, List.mem_cons, List.not_mem_nil, or_false] at this
      rw [this]
      simp [Elem.WellFormed, RefNameOk]
    · change p.elem ∈ cySrc.provides.map Port.elem at this
      simp [h3] at this

/-- The copy succeeds, copying both types and the port. -/
example : (cyDest.extend cySrc).2.toOption.isSome ∧ (cyDest.extend cySrc).1.types.length = 3 ∧
    firstLen (cyDest.extend cySrc).1 .require = .ok 1 := by decide +kernel

end Apx
