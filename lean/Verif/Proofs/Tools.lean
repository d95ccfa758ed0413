import Verif.Spec.Tools
import Verif.Props.Copy
import Verif.Props.RoundTrip

/-! Copying ports into a node succeeds if the names mean the same in both (for C76, C77). -/

namespace Apx

/-! ### Texts -/

mutual
theorem Elem.toStr_asWritten (a b c : Str → Option Int) (e : Elem) :
    (e.asWritten a true).toStr b true = e.toStr c true := by
  match e with
  | .prim tc mn mx x => simp [Elem.asWritten, Elem.toStr]
  | .refId i => simp [Elem.asWritten, Elem.toStr]
  | .refName m => simp [Elem.asWritten, Elem.toStr]
  | .refType m t => simp [Elem.asWritten, Elem.toStr]
  | .record fs x => simp only [Elem.asWritten, Elem.toStr]; rw [Fields.toStr_asWritten a b c fs]
theorem Fields.toStr_asWritten (a b c : Str → Option Int) (fs : Fields) :
    (fs.asWritten a true).toStr b true = fs.toStr c true := by
  match fs with
  | .nil => simp [Fields.asWritten, Fields.toStr]
  | .cons m e r =>
    simp only [Fields.asWritten, Fields.toStr]
    rw [Elem.toStr_asWritten a b c e, Fields.toStr_asWritten a b c r]
end

mutual
theorem Elem.toStr_ids (b c : Str → Option Int) (e : Elem) : e.toStr b true = e.toStr c true := by
  match e with
  | .prim tc mn mx x => simp [Elem.toStr]
  | .refId i => simp [Elem.toStr]
  | .refName m => simp [Elem.toStr]
  | .refType m t => simp [Elem.toStr]
  | .record fs x => simp only [Elem.toStr]; rw [Fields.toStr_ids b c fs]
theorem Fields.toStr_ids (b c : Str → Option Int) (fs : Fields) : fs.toStr b true = fs.toStr c true := by
  match fs with
  | .nil => simp [Fields.toStr]
  | .cons m e r =>
    simp only [Fields.toStr]
    rw [Elem.toStr_ids b c e, Fields.toStr_ids b c r]
end

theorem verifyEqual_same (a : Py Str) (s : Str) (h : a = .ok s) : verifyEqual a a = .ok () := by
  subst h
  simp [verifyEqual]

/-! ### Types -/

/-- Same names, same types, with attributes; and no short names. -/
def AgreeC (n src : Node) : Prop :=
  ∀ t ∈ n.types, t.shortName = none ∧ ∀ u ∈ src.types, t.name = u.name → t.content = u.content

/-- Types added to a node come from another one. -/
def Adds (src n n' : Node) : Prop :=
  ∀ v ∈ n'.types, v ∈ n.types ∨ v.shortName = none ∧ ∃ u ∈ src.types, v.content = u.content

theorem Adds.refl (src n : Node) : Adds src n n := fun _ h => .inl h

theorem Adds.trans {src a b c : Node} (h : Adds src a b) (h' : Adds src b c) : Adds src a c := by
  intro v hv
  rcases h' v hv with hv | hv
  · exact h v hv
  · exact .inr hv

theorem content_name {t u : TypeObj} (h : t.content = u.content) : t.name = u.name := congrArg (·.1) h

theorem content_named {t u : TypeObj} (h : t.content = u.content) : t.named = u.named := by
  simp only [TypeObj.content, Prod.mk.injEq] at h
  simp [TypeObj.named, h.1, h.2.1]

theorem map_nodup_inj {α β : Type} {f : α → β} {l : List α} (h : (l.map f).Nodup) {a b : α} (ha : a ∈ l) (hb : b ∈ l)
    (he : f a = f b) : a = b := by
  induction l with
  | nil => cases ha
  | cons x l ih =>
    simp only [List.map_cons, List.nodup_cons, List.mem_map, not_exists, not_and] at h
    rcases List.mem_cons.mp ha with h1 | h1 <;> rcases List.mem_cons.mp hb with h2 | h2
    · rw [h1, h2]
    · rw [h1] at he; exact absurd he.symm (h.1 b h2)
    · rw [h2] at he; exact absurd he (h.1 a h1)
    · exact ih h.2 h1 h2

theorem unique_types {n : Node} (hi : NodeInv n) {t u : TypeObj} (ht : t ∈ n.types) (hu : u ∈ n.types)
    (h : t.name = u.name) : t = u := map_nodup_inj hi.names ht hu h

theorem Adds.agree {src n n' : Node} (hs : NodeInv src) (hag : AgreeC n src) (h : Adds src n n') : AgreeC n' src := by
  intro v hv
  rcases h v hv with hv | ⟨h1, u, hu, he⟩
  · exact hag v hv
  · refine ⟨h1, fun w hw hn => ?_⟩
    rw [he, unique_types hs hu hw ((content_name he).symm.trans hn)]

theorem AgreeC.types {n src : Node} (h : AgreeC n src) : TypesAgree n.named src.named := by
  intro a ha b hb hn
  obtain ⟨t, ht, rfl⟩ := List.mem_map.mp ha
  obtain ⟨u, hu, rfl⟩ := List.mem_map.mp hb
  exact content_named ((h t ht).2 u hu hn)

theorem typeNamed_of_mem {n : Node} (hi : NodeInv n) {t : TypeObj} (ht : t ∈ n.types) : n.typeNamed t.name = some t := by
  cases h : n.typeNamed t.name with
  | none => exact absurd (List.mem_map.mpr ⟨t, ht, rfl⟩) (typeNamed_none _ _ h)
  | some u =>
    obtain ⟨h1, h2⟩ := typeNamed_some _ _ _ h
    rw [unique_types hi h1 ht h2]

mutual
theorem Elem.resolve_written {N : List NamedType} (ids : Str → Option Int) (e : Elem) (h : e.RefsIn N) :
    ∃ e', (e.asWritten ids true).resolveType N = .ok e' := by
  match e with
  | .prim tc mn mx a => exact ⟨_, rfl⟩
  | .refId _ => exact h.elim
  | .refName _ => exact h.elim
  | .refType m t =>
    simp only [Elem.asWritten, Elem.resolveType]
    split
    · exact ⟨_, rfl⟩
    · rename_i hf
      unfold findType at hf
      rw [List.find?_eq_none] at hf
      exact absurd (hf _ h) (by simp)
  | .record fs a =>
    obtain ⟨fs', h'⟩ := Fields.resolve_written ids fs h
    exact ⟨_, by simp only [Elem.asWritten, Elem.resolveType, h', ok_bind]; rfl⟩
theorem Fields.resolve_written {N : List NamedType} (ids : Str → Option Int) (fs : Fields) (h : fs.RefsIn N) :
    ∃ fs', (fs.asWritten ids true).resolveType N = .ok fs' := by
  match fs with
  | .nil => exact ⟨_, rfl⟩
  | .cons m e r =>
    obtain ⟨e', h1⟩ := Elem.resolve_written ids e h.1
    obtain ⟨r', h2⟩ := Fields.resolve_written ids r h.2
    exact ⟨_, by simp only [Fields.asWritten, Fields.resolveType, h1, h2, ok_bind]; rfl⟩
end

/-- A source of copies. -/
structure SrcOk (src : Node) : Prop extends CopySrc src where
  copy : ∀ t ∈ src.types, t.elem.Copyable
  short : ∀ t ∈ src.types, t.shortName = none

theorem cloneType_total {n src : Node} (hs : SrcOk src) (hag : AgreeC n src) (u : TypeObj) (hu : u ∈ src.types)
    (hr : u.elem.RefsIn n.named) :
    ∃ n' t, n.cloneType src u.name u.elem = (n', .ok t) ∧ Adds src n n' ∧ t.content = u.content ∧ t ∈ n'.types := by
  obtain ⟨s, h1, h2⟩ := Elem.parse_toStr_data src.ids true u.elem (hs.wf u hu)
  have ha : optArg typeAttribute (((src.typeNamed u.name).bind TypeObj.attr).map TypeAttr.str) = .ok u.attr := by
    rw [typeNamed_of_mem hs.inv hu]
    cases hpa : u.attr with
    | none => simp [hpa, optArg]
    | some a => simp [hpa, optArg, hs.inv.tattr u hu a hpa]
  have hmk : mkType u.name s (((src.typeNamed u.name).bind TypeObj.attr).map TypeAttr.str)
      = .ok ⟨u.name, u.elem.asWritten src.ids true, u.attr, none, none⟩ := by
    simp only [mkType, h2, ok_bind, ha]
  unfold Node.cloneType
  simp only [h1, hmk, ok_bind]
  cases ht : n.typeNamed u.name with
  | none =>
    obtain ⟨e', he'⟩ := Elem.resolve_written (N := n.named) src.ids u.elem hr
    have heq := Elem.resolve_back hag.types src.ids u.elem e' (hs.inv.refs u hu) he'
    subst heq
    obtain ⟨d, hd⟩ := hs.inv.data u hu
    have : resolveDsg n.named (u.elem.asWritten src.ids true) = .ok u.elem := by
      simp [resolveDsg, he', hd]
    simp only [Node.addType, ht, this, ok_bind]
    refine ⟨_, _, rfl, ?_, rfl, by simp⟩
    intro v hv
    simp only [List.mem_append, List.mem_singleton] at hv
    rcases hv with hv | rfl
    · exact .inl hv
    · exact .inr ⟨rfl, u, hu, rfl⟩
  | some t =>
    obtain ⟨k1, k2⟩ := typeNamed_some _ _ _ ht
    have hc := (hag t k1).2 u hu k2
    have hsh := (hag t k1).1
    have he : t.elem = u.elem := congrArg (fun c => c.2.1) hc
    have hat : t.attr = u.attr := congrArg (fun c => c.2.2) hc
    have hx : t.toStr n.ids true = .ok (lineText 'T' u.name s (u.attr.map TypeAttr.str)) := by
      simp [TypeObj.toStr, he, hat, hsh, k2, Elem.toStr_ids n.ids src.ids u.elem, h1]
    have hy : (⟨u.name, u.elem.asWritten src.ids true, u.attr, none, none⟩ : TypeObj).toStr n.ids true
        = .ok (lineText 'T' u.name s (u.attr.map TypeAttr.str)) := by
      simp [TypeObj.toStr, Elem.toStr_asWritten src.ids n.ids src.ids u.elem, h1]
    simp only [Node.addType, ht, hx, hy, verifyEqual_same _ _ rfl, ok_bind]
    exact ⟨n, t, rfl, .refl _ _, hc, k1⟩

theorem mem_named {n : Node} {a : Str} {e : Elem} (h : ⟨a, e⟩ ∈ n.named) : ∃ t ∈ n.types, t.name = a ∧ t.elem = e := by
  obtain ⟨t, ht, he⟩ := List.mem_map.mp h
  simp only [TypeObj.named, NamedType.mk.injEq] at he
  exact ⟨t, ht, he⟩

mutual
theorem Elem.RefsIn.mono {A B : List NamedType} (h : ∀ t ∈ A, t ∈ B) (e : Elem) (he : e.RefsIn A) : e.RefsIn B := by
  match e with
  | .prim _ _ _ _ => trivial
  | .refId _ => exact he.elim
  | .refName _ => exact he.elim
  | .refType m t => exact h _ he
  | .record fs _ => exact Fields.RefsIn.mono h fs he
theorem Fields.RefsIn.mono {A B : List NamedType} (h : ∀ t ∈ A, t ∈ B) (fs : Fields) (he : fs.RefsIn A) : fs.RefsIn B := by
  match fs with
  | .nil => trivial
  | .cons _ e r => exact ⟨Elem.RefsIn.mono h e he.1, Fields.RefsIn.mono h r he.2⟩
end

mutual
theorem addTypeFrom_total {n src : Node} (hs : SrcOk src) (hag : AgreeC n src) (name : Str) (e : Elem)
    (hm : ⟨name, e⟩ ∈ src.named) :
    ∃ n' t, n.addTypeFrom src name e = (n', .ok t) ∧ Adds src n n' ∧ t.named = ⟨name, e⟩ ∧ t ∈ n'.types := by
  obtain ⟨u, hu, rfl, he⟩ := mem_named hm
  have hcp := hs.copy u hu
  match e with
  | .prim tc mn mx a =>
    obtain ⟨n', t, h1, h2, h3, h4⟩ := cloneType_total hs hag u hu (by rw [he]; trivial)
    rw [he] at h1
    exact ⟨n', t, by simp only [Node.addTypeFrom, h1], h2, by rw [content_named h3]; simp [TypeObj.named, he], h4⟩
  | .record fs a =>
    rw [he] at hcp
    obtain ⟨m, k1, k2, k3⟩ := addFieldsFrom_total hs hag fs hcp (by have := hs.inv.refs u hu; rw [he] at this; exact this)
    have hag' := k2.agree hs.inv hag
    obtain ⟨n', t, h1, h2, h3, h4⟩ := cloneType_total hs hag' u hu (by rw [he]; exact k3)
    rw [he] at h1
    exact ⟨n', t, by simp only [Node.addTypeFrom, k1, h1], k2.trans h2,
      by rw [content_named h3]; simp [TypeObj.named, he], h4⟩
  | .refId _ => rw [he] at hcp; exact hcp.elim
  | .refName _ => rw [he] at hcp; exact hcp.elim
  | .refType _ _ => rw [he] at hcp; exact hcp.elim
theorem addFieldsFrom_total {n src : Node} (hs : SrcOk src) (hag : AgreeC n src) (fs : Fields) (hok : fs.AllOk)
    (hr : fs.RefsIn src.named) :
    ∃ n', n.addFieldsFrom src fs = (n', .ok ()) ∧ Adds src n n' ∧ fs.RefsIn n'.named := by
  match fs with
  | .nil => exact ⟨n, rfl, .refl _ _, trivial⟩
  | .cons _ (.refType m t) r =>
    obtain ⟨n1, u, h1, h2, h3, h4⟩ := addTypeFrom_total hs hag m t hr.1
    obtain ⟨n2, k1, k2, k3⟩ := addFieldsFrom_total hs (h2.agree hs.inv hag) r hok.2 hr.2
    have hg := (addFieldsFrom_grows n1 src r).1.named
    rw [k1] at hg
    refine ⟨n2, by simp only [Node.addFieldsFrom, h1, k1], h2.trans k2, ?_, k3⟩
    exact hg _ (List.mem_map.mpr ⟨u, h4, h3⟩)
  | .cons _ (.refId _) _ => exact hr.1.elim
  | .cons _ (.refName _) _ => exact hr.1.elim
  | .cons _ (.prim _ _ _ _) r =>
    obtain ⟨n2, k1, k2, k3⟩ := addFieldsFrom_total hs hag r hok.2 hr.2
    exact ⟨n2, by simp only [Node.addFieldsFrom, k1], k2, trivial, k3⟩
  | .cons _ (.record gs b) r =>
    obtain ⟨n2, k1, k2, k3⟩ := addFieldsFrom_total hs hag r hok.2 hr.2
    refine ⟨n2, by simp only [Node.addFieldsFrom, k1], k2, ?_, k3⟩
    exact Elem.RefsIn.mono (by simp) _ hok.1
end

/-! ### Ports -/

theorem find_type {n : Node} {name : Str} (h : name ∉ n.portNames) :
    (n.find name = none ∧ n.typeNamed name = none) ∨ ∃ t, n.find name = some (.type t) ∧ t ∈ n.types ∧ t.name = name := by
  unfold Node.find
  cases ht : n.types.find? (fun t => t.name = name) with
  | some t => exact .inr ⟨t, rfl, List.mem_of_find?_eq_some ht, by simpa using List.find?_some ht⟩
  | none =>
    refine .inl ⟨?_, ht⟩
    simp only [Node.portNames, List.mem_append, List.mem_map, not_or, not_exists, not_and] at h
    have h1 : n.requires.find? (fun p => p.name = name) = none := by
      rw [List.find?_eq_none]
      intro p hp
      simpa using h.1 p hp
    have h2 : n.provides.find? (fun p => p.name = name) = none := by
      rw [List.find?_eq_none]
      intro p hp
      simpa using h.2 p hp
    simp [h1, h2]

theorem targetType_total {n src : Node} (hs : SrcOk src) (hag : AgreeC n src) (name : Str) (e : Elem)
    (hm : ⟨name, e⟩ ∈ src.named) (hp : name ∉ n.portNames) :
    ∃ n' t, n.targetType src name e = (n', .ok t) ∧ Adds src n n' ∧ t.named = ⟨name, e⟩ ∧ t ∈ n'.types := by
  obtain ⟨u, hu, hun, hue⟩ := mem_named hm
  have hnm : src.typeNamed name = some u := by rw [← hun]; exact typeNamed_of_mem hs.inv hu
  unfold Node.targetType
  rcases find_type hp with ⟨h, -⟩ | ⟨t, h, ht, htn⟩
  · simp only [h]
    exact addTypeFrom_total hs hag name e hm
  · obtain ⟨s, h1, -⟩ := Elem.parse_toStr_data src.ids true u.elem (hs.wf u hu)
    have hc := (hag t ht).2 u hu (htn.trans hun.symm)
    have hx : t.toStr n.ids true = u.toStr src.ids true := by
      have he : t.elem = u.elem := congrArg (fun c => c.2.1) hc
      have hat : t.attr = u.attr := congrArg (fun c => c.2.2) hc
      simp only [TypeObj.toStr, he, hat, (hag t ht).1, hs.short u hu, content_name hc, Elem.toStr_ids n.ids src.ids u.elem]
    have hy : u.toStr src.ids true = .ok (lineText 'T' u.name s (u.attr.map TypeAttr.str)) := by
      simp [TypeObj.toStr, h1, hs.short u hu]
    simp only [h, hnm, Option.getD_some, hx, verifyEqual_same _ _ hy]
    exact ⟨n, t, rfl, .refl _ _, by rw [content_named hc]; simp [TypeObj.named, hun, hue], ht⟩

theorem pcontent_name {p q : Port} (h : p.content = q.content) : p.name = q.name := congrArg (·.1) h

theorem portText_content {a b : Str → Option Int} {p q : Port} (side : Side) (h : q.content = p.content) :
    q.toStr a true side = p.toStr b true side := by
  have he : q.elem = p.elem := congrArg (fun c => c.2.1) h
  have hat : q.attr = p.attr := congrArg (fun c => c.2.2) h
  simp only [Port.toStr, he, hat, pcontent_name h, Elem.toStr_ids a b p.elem]

theorem portNamed_cases (n : Node) (name : Str) :
    (n.portNamed name = none ∧ name ∉ n.portNames) ∨
      ∃ side q, n.portNamed name = some (side, q) ∧ q ∈ n.ports side ∧ q.name = name := by
  cases h : n.portNamed name with
  | some x =>
    obtain ⟨side, q⟩ := x
    exact .inr ⟨side, q, rfl, portNamed_some _ _ _ _ h⟩
  | none =>
    refine .inl ⟨rfl, ?_⟩
    unfold Node.portNamed at h
    split at h
    · cases h
    · rename_i h1
      rw [Option.map_eq_none_iff] at h
      rw [List.find?_eq_none] at h h1
      simp only [Node.portNames, List.mem_append, List.mem_map, not_or, not_exists, not_and]
      exact ⟨fun p hp => by simpa using h p hp, fun p hp => by simpa using h1 p hp⟩

/-- The ports after a copy. -/
def PortAdded (n n' : Node) (side : Side) (p : Port) : Prop :=
  n'.name = n.name ∧ n'.isFinalized = n.isFinalized ∧
  ((p.content ∈ n.contents side ∧ ∀ s, n'.ports s = n.ports s) ∨
   (p.name ∉ n.portNames ∧ ∃ q, q.content = p.content ∧ n'.ports side = n.ports side ++ [q] ∧
      n'.ports side.flip = n.ports side.flip))

theorem addPortM_total {m : Node} {side : Side} {c : Port}
    (h4 : ∀ k, resolvePort m.named { c with id := some k } = .ok { c with id := some k }) :
    m.addPortM side c = (m.setPorts side (m.ports side ++ [{ c with id := some (m.ports side).length }]),
      .ok { c with id := some (m.ports side).length }) := by
  unfold Node.addPortM Node.addPort
  rw [h4]
  rfl

theorem setPorts_facts (m : Node) (side : Side) (l : List Port) :
    (m.setPorts side l).name = m.name ∧ (m.setPorts side l).isFinalized = m.isFinalized ∧
      (m.setPorts side l).types = m.types ∧ (m.setPorts side l).ports side = l ∧
      (m.setPorts side l).ports side.flip = m.ports side.flip := by
  cases side <;> exact ⟨rfl, rfl, rfl, rfl, rfl⟩

theorem addPortFrom_total {n src : Node} (hs : SrcOk src) (hag : AgreeC n src) (side : Side) (p : Port)
    (hp : p ∈ src.ports side) (hwp : p.elem.WellFormed) (hpt : ∀ t ∈ src.types, t.name ∉ n.portNames)
    (hdup : ∀ side', ∀ q ∈ n.ports side', q.name = p.name → side' = side ∧ q.content = p.content) (ig : Bool) :
    ∃ n' q, n.addPortFrom src side p ig = (n', .ok q) ∧ Adds src n n' ∧ PortAdded n n' side p := by
  have hpi := hs.inv.ports side p hp
  unfold Node.addPortFrom
  rcases portNamed_cases n p.name with ⟨h, hpn⟩ | ⟨side', q, h, hq, hqn⟩
  · have hcd : n.checkDuplicate src side p = .ok none := by simp [Node.checkDuplicate, h]
    simp only [hcd]
    obtain ⟨s, c, k1, k2, k3, k4, k5, k6, -⟩ := reparse_port hs.inv p hpi hwp (side = .require)
    have hcl : p.clone src.ids side = .ok c := by
      simp only [Port.clone, Port.mirror, k1, ok_bind, k2]
    simp only [hcl]
    split
    · rename_i i he
      obtain ⟨m, t, e1, -⟩ := hpi.ref (by rw [he]; rfl)
      rw [he] at e1; cases e1
    · rename_i i he
      obtain ⟨m, t, e1, -⟩ := hpi.ref (by rw [he]; rfl)
      rw [he] at e1; cases e1
    · rename_i name e he
      obtain ⟨m, t, e1, e2, d, hd⟩ := hpi.ref (by rw [he]; rfl)
      rw [he] at e1
      cases e1
      obtain ⟨u, hu, hun, -⟩ := mem_named e2
      obtain ⟨n1, t, h1, h2, h3, h4⟩ := targetType_total hs hag name e e2 (hun ▸ hpt u hu)
      have hg := (targetType_grows n src name e).1
      rw [h1] at hg
      simp only [TypeObj.named, NamedType.mk.injEq] at h3
      have hres : ∀ k, resolvePort n1.named { { c with elem := .refType t.name t.elem } with id := some k }
          = .ok { { c with elem := .refType t.name t.elem } with id := some k } := by
        intro k
        rw [he] at hd
        simp only [Elem.resolveDataElement] at hd
        simp [resolvePort, Elem.isReference, resolveDsg, Elem.resolveType, h3.1, h3.2, hd, Elem.resolveDataElement]
      simp only [h1]
      rw [addPortM_total hres]
      obtain ⟨f1, f2, f3, f4, f5⟩ := setPorts_facts n1 side
        (n1.ports side ++ [{ { c with elem := .refType t.name t.elem } with id := some (n1.ports side).length }])
      refine ⟨_, _, rfl, ?_, f1.trans hg.name, f2.trans hg.fin, .inr ⟨hpn,
        { { c with elem := .refType t.name t.elem } with id := some (n1.ports side).length }, ?_, ?_, ?_⟩⟩
      · intro v hv
        rw [f3] at hv
        exact h2 v hv
      · simp [Port.content, k3, k4, he, h3.1, h3.2]
      · rw [f4, hg.ports]
      · rw [f5, hg.ports]
    · rename_i hx1 hx2 hx3
      have hr : p.elem.isReference = false := by
        cases he : p.elem with
        | refId i => exact (hx1 i he).elim
        | refName i => exact (hx2 i he).elim
        | refType i t => exact (hx3 i t he).elim
        | prim => rfl
        | record => rfl
      have hce : c.elem = p.elem := by
        rw [k6, Elem.asWritten_noResolved _ _ _ (Elem.raw_noResolved _ (hpi.raw hr))]
      have hres : ∀ k, resolvePort n.named { c with id := some k } = .ok { c with id := some k } := by
        intro k
        simp [resolvePort, hce, hr]
      rw [addPortM_total hres]
      obtain ⟨f1, f2, f3, f4, f5⟩ := setPorts_facts n side (n.ports side ++ [{ c with id := some (n.ports side).length }])
      refine ⟨_, _, rfl, ?_, f1, f2, .inr ⟨hpn, { c with id := some (n.ports side).length }, ?_, f4, f5⟩⟩
      · intro v hv
        rw [f3] at hv
        exact .inl hv
      · simp [Port.content, k3, k4, hce]
  · obtain ⟨rfl, hc⟩ := hdup side' q hq hqn
    obtain ⟨s, h1, -⟩ := Elem.parse_toStr_data src.ids true p.elem hwp
    have hy : p.toStr src.ids true side' = .ok (lineText side'.letter p.name s (p.attr.map PortAttr.str)) := by
      simp [Port.toStr, h1]
    have hcd : n.checkDuplicate src side' p = .ok (some q) := by
      simp [Node.checkDuplicate, h, portText_content (a := n.ids) (b := src.ids) side' hc, verifyEqual_same _ _ hy]
    simp only [hcd]
    exact ⟨n, q, rfl, .refl _ _, rfl, rfl, .inl ⟨List.mem_map.mpr ⟨q, hq, hc⟩, fun _ => rfl⟩⟩

end Apx
