import Verif.Proofs.Import
import Verif.Proofs.RoundTrip
import Verif.Props.RoundTrip

/-! Definition texts of imported components. -/

namespace Apx

mutual
theorem represented_clean {t : AType} {e : Elem} (h : t.RepresentedBy e) (ht : t.Tidy) : e.Clean := by
  match t with
  | .bool => rw [AType.RepresentedBy] at h; obtain ⟨_, _, _, rfl, _⟩ := h; trivial
  | .int a b => rw [AType.RepresentedBy] at h; obtain ⟨_, _, _, rfl, _⟩ := h; trivial
  | .array => simp [AType.RepresentedBy] at h
  | .string n => rw [AType.RepresentedBy] at h; obtain ⟨_, rfl, _⟩ := h; trivial
  | .record fs =>
    rw [AType.RepresentedBy] at h; obtain ⟨es, rfl, h⟩ := h
    rw [AType.Tidy] at ht
    rw [Elem.Clean]
    exact representedFields_clean h ht
  | .other => simp [AType.RepresentedBy] at h
theorem representedFields_clean {fs : AFields} {es : Fields} (h : fs.RepresentedBy es) (ht : fs.Tidy) : es.Clean := by
  match fs, es with
  | .nil, .nil => rw [Fields.Clean]; trivial
  | .nil, .cons _ _ _ => simp [AFields.RepresentedBy] at h
  | .dangling _ _, _ => simp [AFields.RepresentedBy] at h
  | .cons _ _ _, .nil => simp [AFields.RepresentedBy] at h
  | .cons name t r, .cons name' e es =>
    rw [AFields.RepresentedBy] at h
    rw [AFields.Tidy] at ht
    obtain ⟨⟨s, rfl, hs⟩, h1, h2⟩ := h
    rw [Fields.Clean]
    refine ⟨?_, represented_clean h1 ht.2.1, representedFields_clean h2 ht.2.2⟩
    intro s' hs'
    cases hs'
    rcases hs with rfl | rfl
    · have := ht.1
      simp only [List.mem_append, not_or] at this
      exact ⟨this.1.1, this.2.1.1, this.2.2.1⟩
    · exact ht.1
end

mutual
theorem represented_refs {t : AType} {e : Elem} (h : t.RepresentedBy e) (types : List NamedType) : e.RefsIn types := by
  match t with
  | .bool => rw [AType.RepresentedBy] at h; obtain ⟨_, _, _, rfl, _⟩ := h; trivial
  | .int a b => rw [AType.RepresentedBy] at h; obtain ⟨_, _, _, rfl, _⟩ := h; trivial
  | .array => simp [AType.RepresentedBy] at h
  | .string n => rw [AType.RepresentedBy] at h; obtain ⟨_, rfl, _⟩ := h; trivial
  | .record fs =>
    rw [AType.RepresentedBy] at h; obtain ⟨es, rfl, h⟩ := h
    rw [Elem.RefsIn]
    exact representedFields_refs h types
  | .other => simp [AType.RepresentedBy] at h
theorem representedFields_refs {fs : AFields} {es : Fields} (h : fs.RepresentedBy es) (types : List NamedType) :
    es.RefsIn types := by
  match fs, es with
  | .nil, .nil => rw [Fields.RefsIn]; trivial
  | .nil, .cons _ _ _ => simp [AFields.RepresentedBy] at h
  | .dangling _ _, _ => simp [AFields.RepresentedBy] at h
  | .cons _ _ _, .nil => simp [AFields.RepresentedBy] at h
  | .cons name t r, .cons name' e es =>
    rw [AFields.RepresentedBy] at h
    rw [Fields.RefsIn]
    exact ⟨represented_refs h.2.1 types, representedFields_refs h.2.2 types⟩
end

mutual
theorem represented_leaves {t : AType} {e : Elem} (h : t.RepresentedBy e) : ∃ ls, e.leaves = some ls := by
  match t with
  | .bool => rw [AType.RepresentedBy] at h; obtain ⟨_, _, _, rfl, _⟩ := h; simp only [Elem.leaves]; exact ⟨_, rfl⟩
  | .int a b => rw [AType.RepresentedBy] at h; obtain ⟨_, _, _, rfl, _⟩ := h; simp only [Elem.leaves]; exact ⟨_, rfl⟩
  | .array => simp [AType.RepresentedBy] at h
  | .string n => rw [AType.RepresentedBy] at h; obtain ⟨_, rfl, _⟩ := h; simp only [Elem.leaves]; exact ⟨_, rfl⟩
  | .record fs =>
    rw [AType.RepresentedBy] at h; obtain ⟨es, rfl, h⟩ := h
    rw [Elem.leaves]
    exact representedFields_leaves h
  | .other => simp [AType.RepresentedBy] at h
theorem representedFields_leaves {fs : AFields} {es : Fields} (h : fs.RepresentedBy es) : ∃ ls, es.leaves = some ls := by
  match fs, es with
  | .nil, .nil => exact ⟨[], by rw [Fields.leaves]⟩
  | .nil, .cons _ _ _ => simp [AFields.RepresentedBy] at h
  | .dangling _ _, _ => simp [AFields.RepresentedBy] at h
  | .cons _ _ _, .nil => simp [AFields.RepresentedBy] at h
  | .cons name t r, .cons name' e es =>
    rw [AFields.RepresentedBy] at h
    obtain ⟨a, ha⟩ := represented_leaves h.2.1
    obtain ⟨b, hb⟩ := representedFields_leaves h.2.2
    exact ⟨a ++ b, by rw [Fields.leaves, ha, hb]⟩
end

theorem hexStr_chars (n : Nat) : ∀ c ∈ hexStr n, 48 ≤ c.toNat := by
  have hd : ∀ d < 16, 48 ≤ (hexDigit d).toNat := by decide
  induction n using hexStr.induct with
  | case1 n h =>
    rw [hexStr, if_pos h]
    intro c hc
    simp only [List.mem_singleton] at hc
    subst hc; exact hd _ h
  | case2 n h ih =>
    rw [hexStr, if_neg h]
    intro c hc
    rcases List.mem_append.mp hc with hc | hc
    · exact ih c hc
    · simp only [List.mem_singleton] at hc
      subst hc; exact hd _ (by omega)

theorem intText_chars (i : Int) : ∀ c ∈ (InitVal.int i).derive, 45 ≤ c.toNat := by
  intro c hc
  rw [InitVal.derive] at hc
  split at hc
  · simp only [List.mem_cons] at hc
    rcases hc with rfl | rfl | hc
    · decide
    · decide
    · have := hexStr_chars _ c hc; omega
  · have := intStr_chars _ c hc; omega

mutual
theorem derive_tidy (w : InitVal) (h : w.Tidy) (c : Char) (hc : c = '#' ∨ c = '\n') : c ∉ w.derive := by
  match w with
  | .int i =>
    intro hm
    have := intText_chars i c hm
    rcases hc with rfl | rfl <;> revert this <;> decide
  | .str s =>
    rw [InitVal.Tidy] at h
    rw [InitVal.derive]
    rcases hc with rfl | rfl <;> simp [h]
  | .list l =>
    rw [InitVal.Tidy] at h
    rw [InitVal.derive]
    have := deriveList_tidy l h c hc
    rcases hc with rfl | rfl <;> simp [this]
  | .missing => rw [InitVal.derive]; simp
theorem deriveList_tidy (l : List InitVal) (h : InitVal.TidyList l) (c : Char) (hc : c = '#' ∨ c = '\n') : c ∉ deriveList l := by
  match l with
  | [] => rw [deriveList]; simp
  | [v] => rw [deriveList]; rw [InitVal.TidyList] at h; exact derive_tidy v h.1 c hc
  | v :: w :: l =>
    rw [deriveList]; rw [InitVal.TidyList] at h
    have h1 := derive_tidy v h.1 c hc
    have h2 := deriveList_tidy (w :: l) h.2 c hc
    simp only [List.mem_append, List.mem_cons, not_or]
    exact ⟨h1, by rcases hc with rfl | rfl <;> decide, h2⟩
end

theorem derive_attrOk (w : InitVal) (h : w.Tidy) (hp : w.Plain) : AttrOk w.attrText := by
  have h1 := derive_tidy w h '#' (.inl rfl)
  have h2 := derive_tidy w h '\n' (.inr rfl)
  unfold InitVal.attrText
  refine ⟨by simp [h1], by simp [h2], ?_, ?_⟩
  all_goals
    intro hl
    match w with
    | .missing => simp [InitVal.Plain] at hp
    | .int i =>
      have := List.mem_of_getLast? hl
      simp only [List.mem_cons] at this
      rcases this with h | h
      · exact absurd h (by decide)
      · exact absurd (intText_chars i _ h) (by decide)
    | .str s => rw [InitVal.derive] at hl; simp [List.getLast?_cons] at hl
    | .list s => rw [InitVal.derive] at hl; simp [List.getLast?_cons] at hl

theorem valueTable_attrOk (es : List CompuElem) (h : TidyTable es) : AttrOk (valueTableAttr es) := by
  have key : ∀ c : Char, (c = '#' ∨ c = '\n') → ∀ x ∈ es.flatMap CompuElem.values, c ∉ x := by
    intro c hc x hx
    obtain ⟨e, he, hx⟩ := List.mem_flatMap.mp hx
    have ht := (h.2 e he).2
    have ht : c ∉ e.text := by rcases hc with rfl | rfl <;> simp [ht]
    unfold CompuElem.values at hx
    split at hx
    · simp only [List.mem_singleton] at hx; subst hx; exact ht
    · obtain ⟨i, -, rfl⟩ := List.mem_map.mp hx
      intro hm
      rcases List.mem_append.mp hm with hm | hm
      · exact ht hm
      · have := natStr_chars _ c hm
        rcases hc with rfl | rfl <;> revert this <;> decide
  have hj : ∀ c : Char, (c = '#' ∨ c = '\n') → c ∉ joinComma ((es.flatMap CompuElem.values).map (fun x => '"' :: (x ++ ['"']))) := by
    intro c hc
    apply joinComma_not_mem c (by rcases hc with rfl | rfl <;> decide)
    intro x hx
    obtain ⟨y, hy, rfl⟩ := List.mem_map.mp hx
    have := key c hc y hy
    rcases hc with rfl | rfl <;> simp [this]
  have h1 := hj '#' (.inl rfl)
  have h2 := hj '\n' (.inr rfl)
  unfold valueTableAttr
  refine ⟨by simpa using h1, by simpa using h2, ?_, ?_⟩ <;> simp [List.getLast?_cons]

/-! ### The node with its value tables -/

/-- The type with its attribute as it is when loaded. -/
def TypeObj.tabled (t : TypeObj) : TypeObj :=
  { t with attr := t.attr.map fun a => (typeAttribute a.str).toOption.getD a }

/-- The node with its types' attributes as they are when loaded. -/
def Node.tabled (n : Node) : Node := { n with types := n.types.map TypeObj.tabled }

/-- The attributes of all types can be loaded. -/
def Node.Loadable (n : Node) : Prop :=
  ∀ t ∈ n.types, ∀ a, t.attr = some a → ∃ b, typeAttribute a.str = .ok b ∧ b.str = a.str

theorem tabled_named (n : Node) : n.tabled.named = n.named := by
  simp [Node.tabled, Node.named, TypeObj.tabled, TypeObj.named, Function.comp_def]

theorem tabled_ids (n : Node) : n.tabled.ids = n.ids := by
  funext x
  simp only [Node.ids, Node.typeNamed, Node.tabled, List.find?_map]
  have : ((fun t : TypeObj => decide (t.name = x)) ∘ TypeObj.tabled) = fun t => decide (t.name = x) := rfl
  rw [this]
  cases n.types.find? (fun t => decide (t.name = x)) <;> rfl

theorem tabled_attr {t : TypeObj} (h : ∀ a, t.attr = some a → ∃ b, typeAttribute a.str = .ok b ∧ b.str = a.str) :
    t.tabled.attr.map TypeAttr.str = t.attr.map TypeAttr.str := by
  unfold TypeObj.tabled
  cases ha : t.attr with
  | none => rfl
  | some a =>
    obtain ⟨b, h1, h2⟩ := h a ha
    simp [h1, Except.toOption, h2]

theorem mapPy_map {α β γ : Type} (f : β → Py γ) (g : α → β) (l : List α) : mapPy f (l.map g) = mapPy (fun x => f (g x)) l := by
  induction l with
  | nil => rfl
  | cons x l ih => simp only [List.map_cons, mapPy, ih]

theorem mapPy_congr_mem {α β : Type} (f g : α → Py β) (l : List α) (h : ∀ x ∈ l, f x = g x) : mapPy f l = mapPy g l := by
  induction l with
  | nil => rfl
  | cons x l ih => simp only [mapPy, h x (by simp), ih (fun y hy => h y (by simp [hy]))]

theorem tabled_lines (n : Node) (h : n.Loadable) (nm : Bool) : n.tabled.lines nm = n.lines nm := by
  have : mapPy (TypeObj.toStr n.ids false) (n.types.map TypeObj.tabled) = mapPy (TypeObj.toStr n.ids false) n.types := by
    rw [mapPy_map]
    apply mapPy_congr_mem
    intro t ht
    unfold TypeObj.toStr
    rw [tabled_attr (h t ht)]
    rfl
  unfold Node.lines
  rw [tabled_ids]
  simp only [Node.tabled, this]

theorem sortedByName_map {α β : Type} (name : α → Str) (name' : β → Str) (f : α → β) (h : ∀ x, name' (f x) = name x) (l : List α) :
    sortedByName name' (l.map f) = (sortedByName name l).map f := by
  have ins : ∀ (x : α) (l : List α), insertByName name' (f x) (l.map f) = (insertByName name x l).map f := by
    intro x l
    induction l with
    | nil => rfl
    | cons y l ih =>
      simp only [List.map_cons, insertByName, h]
      split
      · rfl
      · simp only [List.map_cons, ih]
  induction l with
  | nil => rfl
  | cons x l ih => simp only [List.map_cons, sortedByName, ih, ins]

theorem tabled_finalized (n : Node) (sort : Bool) : n.tabled.finalized sort false = (n.finalized sort false).tabled := by
  have ht : (n.tabled.finalized sort false).types = ((n.finalized sort false).tabled).types := by
    simp only [Node.tabled]
    rw [finalized_types, finalized_types]
    simp only
    rw [sortedByName_map TypeObj.name TypeObj.name TypeObj.tabled (fun _ => rfl)]
    apply List.ext_getElem?
    intro i
    simp [List.getElem?_mapIdx, List.getElem?_map, Option.map_map, Function.comp_def, TypeObj.tabled]
  have hrest : ∀ a b : Node, a.name = b.name → a.isFinalized = b.isFinalized → a.types = b.types → a.requires = b.requires →
      a.provides = b.provides → a = b := by
    intro a b h1 h2 h3 h4 h5; cases a; cases b; simp_all
  refine hrest _ _ ?_ ?_ ht ?_ ?_ <;> cases sort <;> rfl

/-! ### Imported nodes -/

theorem import_element {c : Nat → Nat} (hc : Accurate c) {t : AType} (hg : t.Good) {e : Elem} (he : t.element c = .ok e) :
    t.RepresentedBy e ∧ e.WellFormed := by
  obtain ⟨s, e', h1, h2, h3, h4, h5⟩ := AType.good_text c hc t hg
  obtain ⟨s', g1, g2⟩ := C22_same_element e' h3 h4 (fun _ => none) false
  rw [h5] at g1; cases g1
  unfold AType.element at he
  rw [h1] at he
  simp only [ok_bind] at he
  rw [g2] at he
  cases he
  exact ⟨h2, h3⟩

theorem plainly_self {e : Elem} (h : Plainly e) : e.resolveDataElement = .ok e := by
  cases h <;> rfl

/-- What is needed to write an imported node and load it. -/
structure ImportText (n : Node) : Prop where
  fin : n.isFinalized = false
  loadable : n.Loadable
  inv : NodeInv n.tabled
  writable : n.tabled.Writable
  norefs : ∀ t ∈ n.types, ∀ types, t.elem.RefsIn types

theorem inv_text {c : Nat → Nat} (hc : Accurate c) {ws : Workspace} {swc : AComponent} {name : Option Str} {n : Node}
    (h : Importable ws swc) (hl : Legible ws swc name) (hi : ImportInv c ws swc.requires swc.provides n)
    (hname : n.name = name.getD swc.name) : ImportText n := by
  have hfrom : ∀ t ∈ n.types, ∃ side, ∃ p ∈ swc.ports side, ∃ a, ws.typeOf p = some (t.name, a) ∧ a.RepresentedBy t.elem ∧
      t.elem.WellFormed ∧ t.attr = typeSemantics ws t.name ∧ t.shortName = none := by
    intro t ht
    obtain ⟨p, hp, a, h1, h2, h3, h4⟩ := hi.origin t ht
    obtain ⟨side, hs⟩ : ∃ side, p ∈ swc.ports side := by
      rcases List.mem_append.mp hp with hp | hp
      · exact ⟨.require, hp⟩
      · exact ⟨.provide, hp⟩
    obtain ⟨tn, a', h5, h6⟩ := h.types side p hs
    rw [h1] at h5
    simp only [Option.some.injEq, Prod.mk.injEq] at h5
    obtain ⟨_, rfl⟩ := h5
    obtain ⟨g1, g2⟩ := import_element hc h6 h2
    exact ⟨side, p, hs, a, h1, g1, g2, h3, h4⟩
  have htab : ∀ t ∈ n.types, ∀ a, t.attr = some a → ∃ b, typeAttribute a.str = .ok b ∧ b.str = a.str ∧ AttrOk a.str := by
    intro t ht a ha
    obtain ⟨side, p, hp, ty, h1, _, _, h2, _⟩ := hfrom t ht
    rw [h2] at ha
    unfold typeSemantics at ha
    split at ha
    · rename_i es hes
      cases ha
      have htt := hl.tables side p hp _ _ h1 es hes
      obtain ⟨b, g1, g2, _⟩ := valueTable_load es (fun e he => (htt.2 e he).1) htt.1
      exact ⟨b, g1, g2, valueTable_attrOk es htt⟩
    · cases ha
  have hload : n.Loadable := fun t ht a ha => by
    obtain ⟨b, h1, h2, _⟩ := htab t ht a ha
    exact ⟨b, h1, h2⟩
  have hport : ∀ side, ∀ q ∈ n.ports side, ∃ p ∈ swc.ports side, ∃ i, PortLink ws n.named p q i := by
    intro side q hq
    obtain ⟨i, hq⟩ := List.getElem?_of_mem hq
    have key : ∀ ps qs, PortLinks ws n.named ps qs → qs[i]? = some q → ∃ p ∈ ps, ∃ i, PortLink ws n.named p q i := by
      intro ps qs hk hq
      have hlt := (List.getElem?_eq_some_iff.mp hq).1
      rw [hk.1] at hlt
      have hg := List.getElem?_eq_getElem hlt
      exact ⟨_, (List.mem_filter.mp (List.getElem_mem hlt)).1, i, hk.2 i _ q hg hq⟩
    cases side with
    | require => exact key _ _ hi.req hq
    | provide => exact key _ _ hi.prov hq
  have hpattr : ∀ side, ∀ q ∈ n.ports side, ∀ a, q.attr = some a → portAttribute a.str = .ok a ∧ AttrOk a.str := by
    intro side q hq a ha
    obtain ⟨p, hp, i, hk⟩ := hport side q hq
    obtain ⟨s, h1, h2⟩ := hk.attr
    rcases attribute_ok (h.inits side p hp) with ⟨h3, h4⟩ | ⟨v, w, h3, h4, h5, h6⟩
    · rw [h4] at h1
      cases h1
      simp only [optArg, Except.ok.injEq] at h2
      rw [← h2] at ha; cases ha
    · rw [h6] at h1
      cases h1
      simp only [optArg, C51_roundtrip w h5, ok_bind, Except.ok.injEq] at h2
      rw [← h2] at ha
      cases ha
      exact ⟨C51_roundtrip w h5, derive_attrOk w (hl.inits side p hp v w h3 h4) h5⟩
  refine ⟨hi.fin, hload, ?_, ?_, ?_⟩
  · refine ⟨⟨?_, ?_, ?_, ?_, ?_, ?_⟩, ?_⟩
    · simpa [Node.tabled, TypeObj.tabled, Function.comp_def] using hi.names
    · intro t ht
      obtain ⟨u, hu, rfl⟩ := List.mem_map.mp ht
      obtain ⟨_, _, _, _, _, h2, _⟩ := hfrom u hu
      exact represented_refs h2 _
    · intro t ht
      obtain ⟨u, hu, rfl⟩ := List.mem_map.mp ht
      obtain ⟨_, _, _, _, _, h2, _⟩ := hfrom u hu
      exact represented_leaves h2
    · intro t ht
      obtain ⟨u, hu, rfl⟩ := List.mem_map.mp ht
      obtain ⟨_, _, _, _, _, h2, _⟩ := hfrom u hu
      exact ⟨_, plainly_self (representedBy_plainly h2)⟩
    · intro t ht a ha
      obtain ⟨u, hu, rfl⟩ := List.mem_map.mp ht
      simp only [TypeObj.tabled, Option.map_eq_some_iff] at ha
      obtain ⟨b, hb, ha⟩ := ha
      obtain ⟨d, h1, h2⟩ := hload u hu b hb
      rw [h1] at ha
      simp only [Except.toOption, Option.getD_some] at ha
      subst ha
      rw [h2]; exact h1
    · intro side q hq
      have hq : q ∈ n.ports side := by cases side <;> exact hq
      obtain ⟨p, hp, i, hk⟩ := hport side q hq
      obtain ⟨tn, a, e, h1, h2, h3, h4⟩ := hk.elem
      rw [tabled_named]
      refine ⟨fun _ => ⟨tn, e, h2, h3, h4⟩, fun hr => ?_, fun a ha => (hpattr side q hq a ha).1⟩
      rw [h2] at hr; cases hr
    · intro i t ht
      simp only [Node.tabled, List.getElem?_map, Option.map_eq_some_iff] at ht
      obtain ⟨u, hu, rfl⟩ := ht
      exact .inr (hi.ids i u hu)
  · refine ⟨?_, ?_, ?_⟩
    · show NameOk n.name
      rw [hname]; exact hl.name
    · intro t ht
      obtain ⟨u, hu, rfl⟩ := List.mem_map.mp ht
      obtain ⟨side, p, hp, ty, h1, h2, h3, h4, h5⟩ := hfrom u hu
      obtain ⟨g1, g2, g3, g4, g5⟩ := hl.types side p hp _ _ h1
      refine ⟨g1, h3, represented_clean h2 g5, h5, ?_⟩
      intro a ha
      simp only [TypeObj.tabled, Option.map_eq_some_iff] at ha
      obtain ⟨b, hb, ha⟩ := ha
      obtain ⟨d, k1, k2, k3⟩ := htab u hu b hb
      rw [k1] at ha
      simp only [Except.toOption, Option.getD_some] at ha
      subst ha
      rw [k2]; exact k3
    · intro side q hq
      have hq : q ∈ n.ports side := by cases side <;> exact hq
      obtain ⟨p, hp, i, hk⟩ := hport side q hq
      obtain ⟨tn, a, e, h1, h2, _, _⟩ := hk.elem
      obtain ⟨g1, g2, g3, g4, g5⟩ := hl.types side p hp _ _ h1
      refine ⟨by rw [hk.name]; exact hl.ports side p hp, ?_, ?_, fun a ha => (hpattr side q hq a ha).2⟩
      · rw [h2, Elem.WellFormed]; exact ⟨g1.1, g2, g3⟩
      · rw [h2, Elem.Clean]; exact ⟨g4, g1.2.1, g1.2.2⟩
  · intro t ht types
    obtain ⟨_, _, _, _, _, h2, _⟩ := hfrom t ht
    exact represented_refs h2 types

theorem import_text {c : Nat → Nat} (hc : Accurate c) {ws : Workspace} {swc : AComponent} {name : Option Str} {n : Node}
    (h : Importable ws swc) (hl : Legible ws swc name) (hn : Node.fromSwc c ws swc name = .ok n) : ImportText n :=
  inv_text hc h hl (fromSwc_inv hn).1 (fromSwc_inv hn).2

end Apx
