import Verif.Props.ImportText
import Verif.Proofs.Tools

/-! C84: copying the ports of imported components into other nodes. -/

namespace Apx

theorem cloneType_tabled (src : Node) (hl : src.Loadable) (n : Node) (name : Str) (e : Elem) :
    n.cloneType src.tabled name e = n.cloneType src name e := by
  have ha : ((src.tabled.typeNamed name).bind TypeObj.attr).map TypeAttr.str =
      ((src.typeNamed name).bind TypeObj.attr).map TypeAttr.str := by
    have : src.tabled.typeNamed name = (src.typeNamed name).map TypeObj.tabled := by
      simp only [Node.typeNamed, Node.tabled, List.find?_map]
      rfl
    rw [this]
    cases h : src.typeNamed name with
    | none => rfl
    | some t => simpa using tabled_attr (hl t (typeNamed_some _ _ _ h).1)
  unfold Node.cloneType
  rw [tabled_ids, ha]

mutual
theorem typeFrom_tabled (src : Node) (hl : src.Loadable) (n : Node) (name : Str) (e : Elem) :
    n.addTypeFrom src.tabled name e = n.addTypeFrom src name e := by
  match e with
  | .prim _ _ _ _ => simp only [Node.addTypeFrom, cloneType_tabled src hl]
  | .record fs a => simp only [Node.addTypeFrom, fieldsFrom_tabled src hl, cloneType_tabled src hl]
  | .refId _ => simp only [Node.addTypeFrom]
  | .refName _ => simp only [Node.addTypeFrom]
  | .refType _ _ => simp only [Node.addTypeFrom]
theorem fieldsFrom_tabled (src : Node) (hl : src.Loadable) (n : Node) (fs : Fields) :
    n.addFieldsFrom src.tabled fs = n.addFieldsFrom src fs := by
  match fs with
  | .nil => simp only [Node.addFieldsFrom]
  | .cons _ (.refType m t) r =>
    simp only [Node.addFieldsFrom, typeFrom_tabled src hl n m t]
    split
    · exact fieldsFrom_tabled src hl _ r
    · rfl
  | .cons _ (.refId _) _ => simp only [Node.addFieldsFrom]
  | .cons _ (.refName _) _ => simp only [Node.addFieldsFrom]
  | .cons _ (.prim _ _ _ _) r => simp only [Node.addFieldsFrom]; exact fieldsFrom_tabled src hl n r
  | .cons _ (.record _ _) r => simp only [Node.addFieldsFrom]; exact fieldsFrom_tabled src hl n r
end

theorem fresh_copy (src : Node) (hl : src.Loadable) (n : Node) (side : Side) (p : Port)
    (hf : ∀ name e, p.elem = .refType name e → n.find name = none) (ig : Bool) :
    n.addPortFromImported src side p = n.addPortFrom src.tabled side p ig := by
  unfold Node.addPortFromImported Node.addPortFrom
  have hc : n.checkDuplicate src.tabled side p = n.checkDuplicate src side p := by
    unfold Node.checkDuplicate
    rw [tabled_ids]
  rw [hc, tabled_ids]
  cases n.checkDuplicate src side p with
  | error x => rfl
  | ok o =>
    cases o with
    | some q => rfl
    | none =>
      simp only []
      cases p.clone src.ids side with
      | error x => rfl
      | ok c =>
        simp only []
        cases he : p.elem with
        | refType name e =>
          have : n.targetType src.tabled name e = n.targetTypeImported src name e := by
            unfold Node.targetType Node.targetTypeImported
            simp only [hf name e he]
            exact typeFrom_tabled src hl n name e
          simp only [this]
          split <;> simp_all
        | refId _ => rfl
        | refName _ => rfl
        | prim _ _ _ _ => rfl
        | record _ _ => rfl

theorem allOk_of_refs {fs : Fields} (h : fs.RefsIn []) : fs.AllOk := by
  match fs with
  | .nil => trivial
  | .cons _ e r =>
    refine ⟨?_, allOk_of_refs h.2⟩
    cases e with
    | record gs b => exact h.1
    | _ => trivial

theorem copyable_of_refs {e : Elem} (h : e.RefsIn []) : e.Copyable := by
  cases e with
  | prim => trivial
  | record fs a => exact allOk_of_refs h
  | refId _ => exact h.elim
  | refName _ => exact h.elim
  | refType m t => exact absurd h (by simp [Elem.RefsIn])

theorem find_none_names {n : Node} {name : Str} (h : n.find name = none) :
    name ∉ n.portNames ∧ name ∉ n.types.map TypeObj.name := by
  unfold Node.find at h
  split at h
  · cases h
  · rename_i h1
    split at h
    · cases h
    · rename_i h2
      rw [Option.map_eq_none_iff] at h
      rw [List.find?_eq_none] at h h1 h2
      simp only [Node.portNames, List.mem_append, List.mem_map, not_or, not_exists, not_and]
      exact ⟨⟨fun p hp => by simpa using h2 p hp, fun p hp => by simpa using h p hp⟩, fun t ht => by simpa using h1 t ht⟩

theorem portName_mem {n : Node} {side : Side} {p : Port} (h : p ∈ n.ports side) : p.name ∈ n.portNames := by
  unfold Node.portNames
  cases side with
  | require => exact List.mem_append_left _ (List.mem_map_of_mem h)
  | provide => exact List.mem_append_right _ (List.mem_map_of_mem h)

theorem import_port_ref {c : Nat → Nat} {ws : Workspace} {rs ps : List APort} {n : Node} (hi : ImportInv c ws rs ps n)
    (side : Side) (q : Port) (hq : q ∈ n.ports side) : ∃ tn e, q.elem = .refType tn e := by
  obtain ⟨i, hq⟩ := List.getElem?_of_mem hq
  have key : ∀ ps qs, PortLinks ws n.named ps qs → qs[i]? = some q → ∃ tn e, q.elem = .refType tn e := by
    intro ps qs hk hq
    have hlt := (List.getElem?_eq_some_iff.mp hq).1
    rw [hk.1] at hlt
    obtain ⟨tn, _, e, _, he, _⟩ := (hk.2 i _ q (List.getElem?_eq_getElem hlt) hq).elem
    exact ⟨tn, e, he⟩
  cases side with
  | require => exact key _ _ hi.req hq
  | provide => exact key _ _ hi.prov hq

theorem clone_name {ids : Str → Option Int} {side : Side} {p c : Port} (h : p.clone ids side = .ok c) : c.name = p.name := by
  unfold Port.clone Port.mirror at h
  rw [bind_ok_iff] at h
  obtain ⟨s, _, h⟩ := h
  unfold mkPort at h
  rw [bind_ok_iff] at h
  obtain ⟨e, _, h⟩ := h
  rw [bind_ok_iff] at h
  obtain ⟨a, _, h⟩ := h
  cases h
  rfl

theorem import_srcOk {src : Node} (ht : ImportText src) : SrcOk src.tabled := by
  refine ⟨⟨ht.inv, fun t htm => (ht.writable.types t htm).2.1⟩, ?_, fun t htm => (ht.writable.types t htm).2.2.2.1⟩
  intro t htm
  obtain ⟨u, hu, rfl⟩ := List.mem_map.mp htm
  exact copyable_of_refs (ht.norefs u hu [])

theorem import_copy {src : Node} (ht : ImportText src) {n : Node} (hag : AgreeC n src.tabled)
    (side : Side) (p : Port) (hp : p ∈ src.ports side) (href : ∃ tn e, p.elem = .refType tn e) (hpn : p.name ∉ n.portNames)
    (hpt' : ∀ t ∈ src.types, t.name ∉ n.portNames) (hf : ∀ tn e, p.elem = .refType tn e → n.find tn = none) :
    ∃ m q, n.addPortFromImported src side p = (m, .ok q) ∧ Adds src.tabled n m ∧ q.content = p.content ∧
      m.ports side = n.ports side ++ [q] ∧ m.ports side.flip = n.ports side.flip ∧ n.types <+: m.types ∧
      ∃ tn e, q.elem = .refType tn e ∧ ⟨tn, e⟩ ∈ m.named := by
  have hso := import_srcOk ht
  have hpt : p ∈ src.tabled.ports side := by cases side <;> exact hp
  obtain ⟨tn, e, he⟩ := href
  rw [fresh_copy src ht.loadable n side p hf false]
  obtain ⟨m, q, h1, hadds, _, _, h2⟩ := addPortFrom_total hso hag side p hpt (ht.writable.ports side p hpt).2.1
    (fun t htm => by
      obtain ⟨u, hu, rfl⟩ := List.mem_map.mp htm
      exact hpt' u hu)
    (fun side' r hr hre => absurd (by rw [← hre]; exact portName_mem hr) hpn) false
  have hres := addPortFrom_result n src.tabled side p false
  rw [h1] at hres ⊢
  have key : m.ports side = n.ports side ++ [q] ∧ n.types <+: m.types ∧
      (q.elem.isReference = true → ∃ tn e, q.elem = .refType tn e ∧ ⟨tn, e⟩ ∈ m.named) := by
    cases hres with
    | existing _ h3 _ =>
      obtain ⟨h4, h5⟩ := portNamed_some _ _ _ _ h3
      exact absurd (by rw [← h5]; exact portName_mem h4) hpn
    | added k m' c q' _ hg _ _ hpe hpa hadd =>
      obtain ⟨h3, h4⟩ := addPort_cases _ _ _ _ _ hadd
      have hpi := (resolvePort_inv _ _ _ h3 hpe hpa).1
      subst h4
      obtain ⟨_, _, f3, f4, _⟩ := setPorts_facts k side (k.ports side ++ [q])
      refine ⟨by rw [f4, hg.ports], by rw [f3]; exact hg.types, fun hr => ?_⟩
      obtain ⟨a, b, h5, h6, _⟩ := hpi.ref hr
      exact ⟨a, b, h5, by rw [setPorts_named]; exact h6⟩
  rcases h2 with ⟨h3, _⟩ | ⟨_, q', h3, h4, h5⟩
  · obtain ⟨r, hr, hre⟩ := List.mem_map.mp h3
    exact absurd (by rw [← pcontent_name hre]; exact portName_mem hr) hpn
  · have : q' = q := by
      have := key.1
      rw [h4] at this
      simpa using this
    subst this
    refine ⟨m, q', rfl, hadds, h3, h4, h5, key.2.1, key.2.2 ?_⟩
    have : q'.elem = p.elem := congrArg (fun c => c.2.1) h3
    rw [this, he]; rfl

theorem import_own_type {src : Node} (ht : ImportText src) {side : Side} {p : Port} (hp : p ∈ src.ports side) {tn : Str} {e : Elem}
    (he : p.elem = .refType tn e) : ∃ u ∈ src.types, u.name = tn ∧ u.elem = e := by
  have hpt : p ∈ src.tabled.ports side := by cases side <;> exact hp
  obtain ⟨tn', e', h1, h2, _⟩ := (ht.inv.ports side p hpt).ref (by rw [he]; rfl)
  rw [he] at h1
  cases h1
  rw [tabled_named] at h2
  obtain ⟨u, hu, hue⟩ := List.mem_map.mp h2
  simp only [TypeObj.named, NamedType.mk.injEq] at hue
  exact ⟨u, hu, hue⟩

theorem import_agree {n src : Node} (hsh : ∀ t ∈ n.types, t.shortName = none)
    (hf : ∀ t ∈ src.types, n.find t.name = none) : AgreeC n src.tabled := by
  intro t htm
  refine ⟨hsh t htm, fun u hu he => ?_⟩
  obtain ⟨v, hv, rfl⟩ := List.mem_map.mp hu
  exact absurd (List.mem_map.mpr ⟨t, htm, he⟩) (find_none_names (hf v hv)).2

/-- C84: a port of an imported component can be copied into a node that has neither a port of its name nor anything
named like a type of the component. The node gets a port of the same direction, name, type and init value, behind its
own ports, and the type. -/
theorem C84_port_partial (ceilLog : Nat → Nat) (hc : Accurate ceilLog) (ws : Workspace) (swc : AComponent)
    (name : Option Str) (h : Importable ws swc) (hl : Legible ws swc name) (src : Node)
    (hs : Node.fromSwc ceilLog ws swc name = .ok src) (n : Node) (hsh : ∀ t ∈ n.types, t.shortName = none)
    (side : Side) (p : Port) (hp : p ∈ src.ports side) (hpn : p.name ∉ n.portNames)
    (hf : ∀ t ∈ src.types, n.find t.name = none) :
    ∃ m q, n.addPortFromImported src side p = (m, .ok q) ∧ q.content = p.content ∧
      m.ports side = n.ports side ++ [q] ∧ m.ports side.flip = n.ports side.flip ∧ n.types <+: m.types ∧
      ∃ tn e, q.elem = .refType tn e ∧ ⟨tn, e⟩ ∈ m.named := by
  have ht := import_text hc h hl hs
  obtain ⟨m, q, h1, _, h2⟩ := import_copy ht (import_agree hsh hf) side p hp (import_port_ref (fromSwc_inv hs).1 side p hp) hpn
    (fun t htm => (find_none_names (hf t htm)).1) (fun tn e he => by
      obtain ⟨u, hu, rfl, _⟩ := import_own_type ht hp he
      exact hf u hu)
  exact ⟨m, q, h1, h2⟩

/-! ### Where it fails -/

/-- The name of the type a port refers to. -/
def Port.typeName (p : Port) : Option Str :=
  match p.elem with
  | .refType tn _ => some tn
  | _ => none

/-- Both loops of `extend`. -/
def Node.copyImported (n : Node) (src : Node) : List (Side × Port) → NodeM Unit
  | [] => (n, .ok ())
  | x :: l =>
    match n.addPortFromImported src x.1 x.2 with
    | (n, .ok _) => n.copyImported src l
    | (n, .error x) => (n, .error x)

theorem copyImported_append (n src : Node) (a b : List (Side × Port)) :
    n.copyImported src (a ++ b) = match n.copyImported src a with
      | (n, .ok ()) => n.copyImported src b
      | (n, .error x) => (n, .error x) := by
  induction a generalizing n with
  | nil => rfl
  | cons x a ih =>
    simp only [List.cons_append, Node.copyImported]
    split
    · exact ih _
    · rfl

theorem extendWithImported_eq (n src : Node) (side : Side) (l : List Port) :
    n.extendWithImported src side l = n.copyImported src (l.map (Prod.mk side)) := by
  induction l generalizing n with
  | nil => rfl
  | cons p l ih =>
    simp only [List.map_cons, Node.copyImported, Node.extendWithImported]
    split
    · rename_i h; simp only [h, ih]
    · rename_i h; simp only [h]

theorem extendImported_eq (n src : Node) : n.extendImported src =
    n.copyImported src (src.requires.map (Prod.mk .require) ++ src.provides.map (Prod.mk .provide)) := by
  rw [copyImported_append]
  unfold Node.extendImported
  rw [extendWithImported_eq]
  split
  · rename_i h; simp only [h, extendWithImported_eq]
  · rename_i h; simp only [h]

theorem targetTypeImported_ok {n m src : Node} {name : Str} {e : Elem} {t : TypeObj}
    (h : n.targetTypeImported src name e = (m, .ok t)) :
    name ∉ n.types.map TypeObj.name ∧ name ∈ m.types.map TypeObj.name ∧ Grows n m := by
  unfold Node.targetTypeImported at h
  split at h
  · rename_i hf
    have hg := addTypeFrom_grows n src name e
    rw [h] at hg
    obtain ⟨h1, _, h2⟩ := hg
    obtain ⟨h3, h4⟩ := h2 t rfl
    exact ⟨(find_none_names hf).2, List.mem_map.mpr ⟨t, h3, h4⟩, h1⟩
  · split at h <;> simp at h
  · split at h <;> simp at h

theorem addPortM_ok {n m : Node} {side : Side} {c q : Port} (h : n.addPortM side c = (m, .ok q)) :
    m.types = n.types ∧ ∀ x ∈ m.portNames, x ∈ n.portNames ∨ x = c.name := by
  unfold Node.addPortM at h
  split at h
  · rename_i m' q' h'
    simp only [Prod.mk.injEq, Except.ok.injEq] at h
    obtain ⟨rfl, rfl⟩ := h
    obtain ⟨h1, rfl⟩ := addPort_cases _ _ _ _ _ h'
    have h2 := (resolvePort_id_name _ _ _ h1).2.1
    refine ⟨by cases side <;> rfl, ?_⟩
    intro x hx
    cases side with
    | require =>
      simp only [Node.portNames, Node.setPorts, Node.ports, List.map_append, List.mem_append, List.map_cons, List.map_nil,
        List.mem_singleton] at hx ⊢
      rcases hx with (hx | hx) | hx
      · exact .inl (.inl hx)
      · exact .inr (hx.trans h2)
      · exact .inl (.inr hx)
    | provide =>
      simp only [Node.portNames, Node.setPorts, Node.ports, List.map_append, List.mem_append, List.map_cons, List.map_nil,
        List.mem_singleton] at hx ⊢
      rcases hx with hx | hx | hx
      · exact .inl (.inl hx)
      · exact .inl (.inr hx)
      · exact .inr (hx.trans h2)
  · simp at h

theorem copy_step {n m src : Node} {side : Side} {p q : Port} (h : n.addPortFromImported src side p = (m, .ok q))
    (hn : p.name ∉ n.portNames) :
    (∀ tn, p.typeName = some tn → tn ∉ n.types.map TypeObj.name ∧ tn ∈ m.types.map TypeObj.name) ∧
    (∀ x ∈ n.types.map TypeObj.name, x ∈ m.types.map TypeObj.name) ∧ ∀ x ∈ m.portNames, x ∈ n.portNames ∨ x = p.name := by
  unfold Node.addPortFromImported at h
  have hcd : n.checkDuplicate src side p = .ok none := by
    unfold Node.checkDuplicate
    rcases portNamed_cases n p.name with ⟨h1, _⟩ | ⟨s, r, h1, h2, h3⟩
    · rw [h1]
    · exact absurd (by rw [← h3]; exact portName_mem h2) hn
  simp only [hcd] at h
  cases hc : p.clone src.ids side with
  | error x => simp [hc] at h
  | ok c =>
    simp only [hc] at h
    have hcn : c.name = p.name := clone_name hc
    unfold Port.typeName
    cases he : p.elem with
    | refId _ => simp [he] at h
    | refName _ => simp [he] at h
    | prim _ _ _ _ =>
      simp only [he] at h
      obtain ⟨h1, h2⟩ := addPortM_ok h
      rw [h1]
      exact ⟨by simp, fun _ => id, fun x hx => by rw [← hcn]; exact h2 x hx⟩
    | record _ _ =>
      simp only [he] at h
      obtain ⟨h1, h2⟩ := addPortM_ok h
      rw [h1]
      exact ⟨by simp, fun _ => id, fun x hx => by rw [← hcn]; exact h2 x hx⟩
    | refType tn e =>
      simp only [he] at h
      cases ht : n.targetTypeImported src tn e with
      | mk k r =>
        cases r with
        | error x => simp [ht] at h
        | ok t =>
          simp only [ht] at h
          obtain ⟨h1, h2⟩ := addPortM_ok h
          obtain ⟨h3, h4, h5⟩ := targetTypeImported_ok ht
          rw [h1]
          refine ⟨?_, fun x hx => ?_, fun x hx => ?_⟩
          · intro tn' htn
            cases htn
            exact ⟨h3, h4⟩
          · obtain ⟨u, hu, rfl⟩ := List.mem_map.mp hx
            exact List.mem_map_of_mem (h5.types.subset hu)
          · have hpn : k.portNames = n.portNames := by simp [Node.portNames, h5.req, h5.prov]
            rw [← hpn, ← hcn]
            exact h2 x hx

theorem copyImported_types (l : List (Side × Port)) {n m src : Node} (h : n.copyImported src l = (m, .ok ()))
    (hl : (l.map fun x => x.2.name).Nodup) (hn : ∀ x ∈ l, x.2.name ∉ n.portNames) :
    (l.filterMap fun x => x.2.typeName).Nodup ∧ ∀ tn ∈ l.filterMap (fun x => x.2.typeName), tn ∉ n.types.map TypeObj.name := by
  induction l generalizing n with
  | nil => simp
  | cons x l ih =>
    unfold Node.copyImported at h
    cases hx : n.addPortFromImported src x.1 x.2 with
    | mk k r =>
      cases r with
      | error y => simp [hx] at h
      | ok q =>
        simp only [hx] at h
        obtain ⟨h1, h2, h3⟩ := copy_step hx (hn x (by simp))
        simp only [List.map_cons, List.nodup_cons] at hl
        obtain ⟨i1, i2⟩ := ih h hl.2 (by
          intro y hy hm
          rcases h3 _ hm with h4 | h4
          · exact hn y (by simp [hy]) h4
          · exact hl.1 (List.mem_map.mpr ⟨y, hy, h4⟩))
        cases ht : x.2.typeName with
        | none =>
          simp only [List.filterMap_cons, ht]
          exact ⟨i1, fun tn htn hm => i2 tn htn (h2 tn hm)⟩
        | some tn =>
          simp only [List.filterMap_cons, ht, List.nodup_cons, List.mem_cons, forall_eq_or_imp]
          exact ⟨⟨fun hm => i2 tn hm (h1 tn ht).2, i1⟩, (h1 tn ht).1, fun tn' htn hm => i2 tn' htn (h2 tn' hm)⟩

/-! ### Where it works -/

theorem addFieldsFrom_norefs {n src : Node} {fs : Fields} (h : fs.RefsIn []) : (n.addFieldsFrom src fs).1 = n := by
  match fs with
  | .nil => simp only [Node.addFieldsFrom]
  | .cons _ (.prim _ _ _ _) r => simp only [Node.addFieldsFrom]; exact addFieldsFrom_norefs h.2
  | .cons _ (.record _ _) r => simp only [Node.addFieldsFrom]; exact addFieldsFrom_norefs h.2
  | .cons _ (.refId _) r => exact h.1.elim
  | .cons _ (.refName _) r => exact h.1.elim
  | .cons _ (.refType m t) r => exact absurd h.1 (by simp [Elem.RefsIn])

theorem cloneType_names (n src : Node) (name : Str) (e : Elem) :
    ∀ x ∈ (n.cloneType src name e).1.types.map TypeObj.name, x ∈ n.types.map TypeObj.name ∨ x = name := by
  unfold Node.cloneType
  split
  · rename_i n' t h
    rw [bind_ok_iff] at h
    obtain ⟨s, h1, h⟩ := h
    rw [bind_ok_iff] at h
    obtain ⟨c, h2, h⟩ := h
    obtain ⟨f1, _⟩ := mkType_facts _ _ _ _ h2
    rcases addType_cases _ _ _ _ h with ⟨rfl, _⟩ | ⟨_, e', _, _, rfl, rfl⟩
    · exact fun x hx => .inl hx
    · intro x hx
      simp only [List.map_append, List.mem_append, List.map_cons, List.map_nil, List.mem_singleton] at hx
      rcases hx with hx | hx
      · exact .inl hx
      · exact .inr (hx.trans f1)
  · exact fun x hx => .inl hx

theorem addTypeFrom_names {n src : Node} {name : Str} {e : Elem} (h : e.RefsIn []) :
    ∀ x ∈ (n.addTypeFrom src name e).1.types.map TypeObj.name, x ∈ n.types.map TypeObj.name ∨ x = name := by
  match e with
  | .prim tc mn mx a => simp only [Node.addTypeFrom]; exact cloneType_names _ _ _ _
  | .record fs a =>
    have hf := addFieldsFrom_norefs (n := n) (src := src) (fs := fs) h
    simp only [Node.addTypeFrom]
    cases hr : n.addFieldsFrom src fs with
    | mk k r =>
      rw [hr] at hf
      simp only at hf
      subst hf
      cases r with
      | ok _ => exact cloneType_names _ _ _ _
      | error _ => exact fun x hx => .inl hx
  | .refId _ => exact fun x hx => .inl (by simpa only [Node.addTypeFrom] using hx)
  | .refName _ => exact fun x hx => .inl (by simpa only [Node.addTypeFrom] using hx)
  | .refType _ _ => exact fun x hx => .inl (by simpa only [Node.addTypeFrom] using hx)

theorem copy_step_types {n m src : Node} {side : Side} {p q : Port} (h : n.addPortFromImported src side p = (m, .ok q))
    {tn : Str} {e : Elem} (he : p.elem = .refType tn e) (hr : e.RefsIn []) :
    ∀ x ∈ m.types.map TypeObj.name, x ∈ n.types.map TypeObj.name ∨ x = tn := by
  unfold Node.addPortFromImported at h
  cases hd : n.checkDuplicate src side p with
  | error x => simp [hd] at h
  | ok o =>
    cases o with
    | some r =>
      simp only [hd, Prod.mk.injEq] at h
      rw [← h.1]; exact fun x hx => .inl hx
    | none =>
      simp only [hd] at h
      cases hc : p.clone src.ids side with
      | error x => simp [hc] at h
      | ok c =>
        simp only [hc, he] at h
        cases ht : n.targetTypeImported src tn e with
        | mk k r =>
          cases r with
          | error x => simp [ht] at h
          | ok t =>
            simp only [ht] at h
            rw [(addPortM_ok h).1]
            unfold Node.targetTypeImported at ht
            split at ht
            · have := addTypeFrom_names (n := n) (src := src) (name := tn) hr
              rw [ht] at this
              exact this
            · split at ht <;> simp at ht
            · split at ht <;> simp at ht

theorem find_none_of {n : Node} {name : Str} (h1 : name ∉ n.portNames) (h2 : name ∉ n.types.map TypeObj.name) :
    n.find name = none := by
  simp only [Node.portNames, List.mem_append, List.mem_map, not_or, not_exists, not_and] at h1 h2
  unfold Node.find
  rw [List.find?_eq_none.mpr fun t ht => by simpa using h2 t ht]
  simp only []
  rw [List.find?_eq_none.mpr fun t ht => by simpa using h1.1 t ht]
  simp only [Option.map_eq_none_iff]
  exact List.find?_eq_none.mpr fun t ht => by simpa using h1.2 t ht

/-- The ports of one side in a list of ports. -/
def sidePorts (side : Side) (l : List (Side × Port)) : List Port :=
  l.filterMap fun x => if x.1 = side then some x.2 else none

theorem copyImported_total {src : Node} (ht : ImportText src) (href : ∀ side, ∀ p ∈ src.ports side, ∃ tn e, p.elem = .refType tn e)
    (hd : ∀ t ∈ src.types, t.name ∉ src.portNames) (l : List (Side × Port)) (hl : ∀ x ∈ l, x.2 ∈ src.ports x.1)
    (hnd : (l.map fun x => x.2.name).Nodup) (hone : (l.filterMap fun x => x.2.typeName).Nodup) (n : Node)
    (hag : AgreeC n src.tabled) (hpn : ∀ x ∈ l, x.2.name ∉ n.portNames) (hpt : ∀ t ∈ src.types, t.name ∉ n.portNames)
    (hf : ∀ x ∈ l, ∀ tn, x.2.typeName = some tn → tn ∉ n.types.map TypeObj.name) :
    ∃ m, n.copyImported src l = (m, .ok ()) ∧
      (∀ side, ∃ qs, m.ports side = n.ports side ++ qs ∧ qs.map Port.content = (sidePorts side l).map Port.content) ∧
      n.types <+: m.types ∧ ∀ x ∈ l, ∃ tn e, x.2.elem = .refType tn e ∧ ⟨tn, e⟩ ∈ m.named := by
  induction l generalizing n with
  | nil => exact ⟨n, rfl, fun side => ⟨[], by simp [sidePorts]⟩, List.prefix_refl _, by simp⟩
  | cons x l ih =>
    obtain ⟨s, p⟩ := x
    have hp : p ∈ src.ports s := hl (s, p) (by simp)
    obtain ⟨tn, e, he⟩ := href s p hp
    obtain ⟨u, hu, rfl, rfl⟩ := import_own_type ht hp he
    have htn : p.typeName = some u.name := by simp [Port.typeName, he]
    obtain ⟨k, q, h1, h2, h3, h4, h5, h6, tn', e', h7, h8⟩ := import_copy ht hag s p hp ⟨_, _, he⟩ (hpn (s, p) (by simp)) hpt
      (fun tn e he' => by
        rw [he] at he'
        cases he'
        exact find_none_of (hpt u hu) (hf (s, p) (by simp) _ htn))
    have hqe : q.elem = p.elem := congrArg (fun c => c.2.1) h3
    rw [hqe, he] at h7
    cases h7
    have hns := copy_step h1 (hpn (s, p) (by simp))
    have hnt := copy_step_types h1 he (ht.norefs u hu [])
    simp only [List.map_cons, List.nodup_cons, List.mem_map, not_exists, not_and] at hnd
    simp only [List.filterMap_cons, htn, List.nodup_cons, List.mem_filterMap, not_exists, not_and] at hone
    obtain ⟨m, i1, i2, i3, i4⟩ := ih (fun x hx => hl x (by simp [hx])) hnd.2 hone.2 k
      (by
        intro t htm
        rcases h2 t htm with h9 | ⟨h9, v, hv, hc⟩
        · exact hag t h9
        · refine ⟨h9, fun w hw hwn => ?_⟩
          have : v.name = w.name := by
            rw [← hwn]; exact (congrArg NamedType.name (content_named hc)).symm
          have : v = w := by
            have h10 := typeNamed_of_mem ht.inv hv
            have h11 := typeNamed_of_mem ht.inv hw
            rw [this] at h10
            exact Option.some.inj (h10.symm.trans h11)
          rw [hc, this])
      (by
        intro x hx hm
        rcases hns.2.2 _ hm with h9 | h9
        · exact hpn x (by simp [hx]) h9
        · exact hnd.1 x hx h9)
      (by
        intro t htm hm
        rcases hns.2.2 _ hm with h9 | h9
        · exact hpt t htm h9
        · exact hd t htm (by rw [h9]; exact portName_mem hp))
      (by
        intro x hx tn hxt hm
        rcases hnt _ hm with h9 | h9
        · exact hf x (by simp [hx]) tn hxt h9
        · exact hone.1 x hx (by rw [hxt, h9]))
    refine ⟨m, by simp only [Node.copyImported, h1, i1], ?_, h6.trans i3, ?_⟩
    · intro side
      obtain ⟨qs, j1, j2⟩ := i2 side
      by_cases hs : s = side
      · subst hs
        exact ⟨q :: qs, by rw [j1, h4]; simp, by simp [sidePorts, h3, j2] ⟩
      · have : side = s.flip := by cases s <;> cases side <;> simp_all [Side.flip]
        subst this
        exact ⟨qs, by rw [j1, h5], by simp [sidePorts, hs, j2]⟩
    · intro x hx
      rcases List.mem_cons.mp hx with rfl | hx
      · refine ⟨_, _, he, ?_⟩
        obtain ⟨v, hv, hve⟩ := List.mem_map.mp h8
        exact List.mem_map.mpr ⟨v, i3.subset hv, hve⟩
      · exact i4 x hx

theorem sidePorts_all (n : Node) (side : Side) :
    sidePorts side (n.requires.map (Prod.mk .require) ++ n.provides.map (Prod.mk .provide)) = n.ports side := by
  cases side <;> simp [sidePorts, List.filterMap_append, List.filterMap_map, Function.comp_def, Node.ports]

/-- C84: if no two ports of an imported component have the same type, extending a node with it adds all its ports, those
of each direction behind the node's own in the order of the component, with type and init value, and the types. The node
must have nothing named like a type or port of the component, and no type of the component may be named like a port of it. -/
theorem C84_extend_partial (ceilLog : Nat → Nat) (hc : Accurate ceilLog) (ws : Workspace) (swc : AComponent)
    (name : Option Str) (h : Importable ws swc) (hl : Legible ws swc name) (src : Node)
    (hs : Node.fromSwc ceilLog ws swc name = .ok src) (hd : ∀ t ∈ src.types, t.name ∉ src.portNames)
    (hnd : src.portNames.Nodup) (hone : ((src.requires ++ src.provides).filterMap Port.typeName).Nodup)
    (n : Node) (hsh : ∀ t ∈ n.types, t.shortName = none) (hpn : ∀ x ∈ src.portNames, x ∉ n.portNames)
    (hf : ∀ t ∈ src.types, n.find t.name = none) :
    ∃ m, n.extendImported src = (m, .ok ()) ∧
      (∀ side, ∃ qs, m.ports side = n.ports side ++ qs ∧ qs.map Port.content = (src.ports side).map Port.content) ∧
      n.types <+: m.types ∧ ∀ side, ∀ p ∈ src.ports side, ∃ tn e, p.elem = .refType tn e ∧ ⟨tn, e⟩ ∈ m.named := by
  have ht := import_text hc h hl hs
  rw [extendImported_eq]
  have hmem : ∀ x ∈ src.requires.map (Prod.mk Side.require) ++ src.provides.map (Prod.mk Side.provide), x.2 ∈ src.ports x.1 := by
    intro x hx
    rcases List.mem_append.mp hx with hx | hx <;> obtain ⟨p, hp, rfl⟩ := List.mem_map.mp hx <;> exact hp
  obtain ⟨m, h1, h2, h3, h4⟩ := copyImported_total ht (import_port_ref (fromSwc_inv hs).1) hd _ hmem
    (by simpa [Node.portNames, Function.comp_def] using hnd)
    (by simpa [List.filterMap_append, List.filterMap_map, Function.comp_def] using hone) n (import_agree hsh hf)
    (fun x hx => hpn _ (portName_mem (hmem x hx))) (fun t htm => (find_none_names (hf t htm)).1)
    (fun x hx tn hxt => by
      obtain ⟨tn', e, he⟩ := import_port_ref (fromSwc_inv hs).1 _ _ (hmem x hx)
      simp only [Port.typeName, he, Option.some.injEq] at hxt
      obtain ⟨u, hu, h5, _⟩ := import_own_type ht (hmem x hx) he
      rw [← hxt, ← h5]
      exact (find_none_names (hf u hu)).2)
  refine ⟨m, h1, fun side => ?_, h3, fun side p hp => h4 (side, p) ?_⟩
  · obtain ⟨qs, h5, h6⟩ := h2 side
    exact ⟨qs, h5, by rw [h6, sidePorts_all]⟩
  · cases side with
    | require => exact List.mem_append_left _ (List.mem_map_of_mem hp)
    | provide => exact List.mem_append_right _ (List.mem_map_of_mem hp)

/-- C84 is violated by every imported component in which two ports have the same type: extending an empty node with it
raises. -/
theorem C84_shared_violated (src : Node) (hn : src.portNames.Nodup)
    (hs : ¬ ((src.requires ++ src.provides).filterMap Port.typeName).Nodup) (name : Str) (m : Node) :
    (Node.new name).extendImported src ≠ (m, .ok ()) := by
  intro h
  rw [extendImported_eq] at h
  apply hs
  have := (copyImported_types _ h (by
      simpa [Node.portNames, Function.comp_def] using hn) (by simp [Node.new, Node.portNames])).1
  simpa [List.filterMap_append, List.filterMap_map, Function.comp_def] using this

/-- What happens to the example component: the exception, and what was copied before it. -/
theorem C84_example_violated :
    (Node.fromSwc exactCeilLog imWs imSwc none).map (fun src =>
      (((Node.new "N".toList).extendImported src).2.toOption.isNone, ((Node.new "N".toList).extendImported src).1.portNames)) =
    .ok (true, ["VehSpeed".toList, "Lamp".toList]) := by
  decide +kernel

example : (Node.fromSwc exactCeilLog imWs imSwc none).map (fun src =>
    (src.portNames, (src.requires ++ src.provides).filterMap Port.typeName)) =
    .ok (["VehSpeed".toList, "Lamp".toList, "OutSpeed".toList], ["Speed".toList, "Status".toList, "Speed".toList]) := by
  decide +kernel

/-- A node with a type and a port of its own meets what `C84_port_partial` asks for together with the component
`imSwc` (see `imSwc_importable` and `imSwc_legible`), and the first port can be copied. -/
def icNode : Node :=
  ⟨"N".toList, false, [⟨"Own".toList, .prim .u8 none none none, none, none, none⟩],
    [⟨"own".toList, .refType "Own".toList (.prim .u8 none none none), none, none⟩], []⟩

set_option synthInstance.maxSize 2000 in
example : (Node.fromSwc exactCeilLog imWs imSwc none).map (fun src =>
    (src.portNames.all (fun x => !icNode.portNames.contains x), src.types.all (fun t => (icNode.find t.name).isNone),
      icNode.types.all (fun t => t.shortName.isNone),
      src.requires.map fun p => (icNode.addPortFromImported src .require p).1.portNames)) =
    .ok (true, true, true, [["own".toList, "VehSpeed".toList], ["own".toList, "Lamp".toList]]) := by
  decide +kernel

/-- A component with ports of different types only, of both directions. -/
def icSwc : AComponent :=
  ⟨"Swc".toList, [⟨"Lamp".toList, "/If/C".toList, [.dataElement (some "/Const/Status".toList)]⟩],
   [⟨"OutSpeed".toList, "/If/A".toList, []⟩]⟩

theorem icSwc_ports (side : Side) (p : APort) (hp : p ∈ icSwc.ports side) : p ∈ imSwc.ports side := by
  cases side <;> simp only [icSwc, imSwc, AComponent.ports, List.mem_cons, List.not_mem_nil, or_false] at hp ⊢ <;> simp [hp]

/-- It meets what `C84_extend_partial` asks for, with `icNode`. -/
example : Importable imWs icSwc ∧ Legible imWs icSwc none :=
  ⟨⟨fun s p hp => imSwc_importable.types s p (icSwc_ports s p hp),
    fun s s' p p' name t t' hp hp' => imSwc_importable.consistent s s' p p' name t t' (icSwc_ports _ _ hp) (icSwc_ports _ _ hp'),
    fun s p hp => imSwc_importable.inits s p (icSwc_ports s p hp)⟩,
   ⟨imSwc_legible.name, fun s p hp => imSwc_legible.ports s p (icSwc_ports s p hp),
    fun s p hp => imSwc_legible.types s p (icSwc_ports s p hp), fun s p hp => imSwc_legible.tables s p (icSwc_ports s p hp),
    fun s p hp => imSwc_legible.inits s p (icSwc_ports s p hp)⟩⟩

set_option synthInstance.maxSize 2000 in
example : (Node.fromSwc exactCeilLog imWs icSwc none).map (fun src =>
    (decide (src.types.all fun t => !src.portNames.contains t.name), decide src.portNames.Nodup,
      decide ((src.requires ++ src.provides).filterMap Port.typeName).Nodup,
      src.portNames.all (fun x => !icNode.portNames.contains x), src.types.all (fun t => (icNode.find t.name).isNone),
      (icNode.extendImported src).1.portNames, (icNode.extendImported src).1.types.map TypeObj.name)) =
    .ok (true, true, true, true, true, ["own".toList, "Lamp".toList, "OutSpeed".toList],
      ["Own".toList, "Status".toList, "Speed".toList]) := by
  decide +kernel

end Apx
