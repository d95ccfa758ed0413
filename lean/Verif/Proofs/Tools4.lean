import Verif.Proofs.Tools3

/-! The text a tool writes depends on the definition only (for C79). -/

namespace Apx

theorem mapPy_congr {α β γ : Type} (f : α → Py β) (g : α → γ) (hf : ∀ a b, g a = g b → f a = f b) {l m : List α}
    (h : l.map g = m.map g) : mapPy f l = mapPy f m := by
  induction l generalizing m with
  | nil =>
    cases m with
    | nil => rfl
    | cons b m => simp at h
  | cons a l ih =>
    cases m with
    | nil => simp at h
    | cons b m =>
      simp only [List.map_cons, List.cons.injEq] at h
      simp only [mapPy, hf a b h.1, ih h.2]

theorem port_toStr_congr (ids : Str → Option Int) (nm : Bool) (side : Side) (p q : Port) (h : p.content = q.content) :
    p.toStr ids nm side = q.toStr ids nm side := by
  simp only [Port.content, Prod.mk.injEq] at h
  simp only [Port.toStr, h.1, h.2.1, h.2.2]

theorem lines_congr {n m : Node} (h1 : n.name = m.name) (h2 : n.types = m.types)
    (h3 : ∀ side, n.contents side = m.contents side) (nm : Bool) : n.lines nm = m.lines nm := by
  have hids : n.ids = m.ids := by
    funext x
    simp only [Node.ids, Node.typeNamed, h2]
  have hp := mapPy_congr _ Port.content (port_toStr_congr m.ids nm .provide) (h3 .provide)
  have hr := mapPy_congr _ Port.content (port_toStr_congr m.ids nm .require) (h3 .require)
  simp only [Node.ports] at hp hr
  simp only [Node.lines, h1, h2, hids, hp, hr]

/-- Definitions with the same sorted form. -/
structure SameSorted (n m : Node) : Prop where
  name : n.name = m.name
  types : (sortedByName TypeObj.name n.types).map TypeObj.content = (sortedByName TypeObj.name m.types).map TypeObj.content
  ports : ∀ side, (sortedByName Port.name (n.ports side)).map Port.content = (sortedByName Port.name (m.ports side)).map Port.content

/-- No type has a short name. -/
def Node.NoShort (n : Node) : Prop := ∀ t ∈ n.types, t.shortName = none

theorem finalized_types_eq {n m : Node} (h : SameSorted n m) (hn : n.NoShort) (hm : m.NoShort) :
    (n.finalized true false).types = (m.finalized true false).types := by
  rw [finalized_types, finalized_types]
  apply List.ext_getElem?
  intro i
  have hi := congrArg (·[i]?) h.types
  simp only [List.getElem?_map] at hi
  simp only [List.getElem?_mapIdx]
  cases hx : (sortedByName TypeObj.name n.types)[i]? with
  | none =>
    rw [hx] at hi
    cases hy : (sortedByName TypeObj.name m.types)[i]? with
    | none => rfl
    | some u => rw [hy] at hi; cases hi
  | some t =>
    rw [hx] at hi
    cases hy : (sortedByName TypeObj.name m.types)[i]? with
    | none => rw [hy] at hi; cases hi
    | some u =>
      rw [hy] at hi
      simp only [Option.map_some, Option.some.injEq, TypeObj.content, Prod.mk.injEq] at hi
      have h1 := hn t ((sortedByName_perm _ _).mem_iff.mp (List.mem_of_getElem? hx))
      have h2 := hm u ((sortedByName_perm _ _).mem_iff.mp (List.mem_of_getElem? hy))
      cases t; cases u
      simp only at hi h1 h2
      obtain ⟨rfl, rfl, rfl⟩ := hi
      subst h1; subst h2
      rfl

theorem finalized_lines_eq {n m : Node} (h : SameSorted n m) (hn : n.NoShort) (hm : m.NoShort) (nm : Bool) :
    (n.finalized true false).lines nm = (m.finalized true false).lines nm := by
  refine lines_congr (by rw [finalized_name, finalized_name, h.name]) (finalized_types_eq h hn hm) ?_ nm
  intro side
  simp only [Node.contents, finalized_ports, if_true]
  exact h.ports side

/-- The order by name is that of the content. -/
theorem sorted_of_content {α β : Type} (name : α → Str) (c : α → β) (key : β → Str) (hk : ∀ a, key (c a) = name a) {l m : List α}
    (h : l.map c = m.map c) (hm : SortedByName name m) : SortedByName name l := by
  have hn : l.map name = m.map name := by
    have := congrArg (List.map key) h
    simpa [Function.comp_def, hk] using this
  unfold SortedByName at hm ⊢
  rw [← List.pairwise_map (f := name) (R := fun a b => a ≤ b)] at hm ⊢
  rw [hn]
  exact hm

theorem insertByName_content {a b : Port} {l m : List Port} (hab : a.content = b.content)
    (h : l.map Port.content = m.map Port.content) :
    (insertByName Port.name a l).map Port.content = (insertByName Port.name b m).map Port.content := by
  have hn : ∀ {p q : Port}, p.content = q.content → p.name = q.name := fun h => congrArg (·.1) h
  induction l generalizing m with
  | nil =>
    cases m with
    | nil => simp [insertByName, hab]
    | cons y m => simp at h
  | cons x l ih =>
    cases m with
    | nil => simp at h
    | cons y m =>
      simp only [List.map_cons, List.cons.injEq] at h
      simp only [insertByName, hn hab, hn h.1]
      split
      · simp [hab, h.1, h.2]
      · simp [h.1, ih h.2]

/-- Sorting ports does not depend on their ids. -/
theorem sortedByName_content {l m : List Port} (h : l.map Port.content = m.map Port.content) :
    (sortedByName Port.name l).map Port.content = (sortedByName Port.name m).map Port.content := by
  induction l generalizing m with
  | nil =>
    cases m with
    | nil => rfl
    | cons y m => simp at h
  | cons x l ih =>
    cases m with
    | nil => simp at h
    | cons y m =>
      simp only [List.map_cons, List.cons.injEq] at h
      exact insertByName_content h.1 (ih h.2)

/-- What is loaded from the text of the finalized node. -/
structure Reload (m r : Node) : Prop where
  built : r.Built
  unfinal : r.isFinalized = false
  short : r.NoShort
  name : r.name = m.name
  types : r.types.map TypeObj.content = (sortedByName TypeObj.name m.types).map TypeObj.content
  ports : ∀ side, r.contents side = (sortedByName Port.name (m.ports side)).map Port.content

theorem Reload.same {m r : Node} (h : Reload m r) : SameSorted r m where
  name := h.name
  types := by
    rw [sortedByName_of_sorted TypeObj.name r.types
      (sorted_of_content TypeObj.name TypeObj.content (·.1) (fun _ => rfl) h.types (sortedByName_sorted _ _)), h.types]
  ports := by
    intro side
    rw [sortedByName_of_sorted Port.name (r.ports side)
      (sorted_of_content Port.name Port.content (·.1) (fun _ => rfl) (h.ports side) (sortedByName_sorted _ _))]
    exact h.ports side

theorem Reload.tidy {m r : Node} (h : Reload m r) (ht : m.Tidy) : r.Tidy := by
  have hty : ∀ t ∈ r.types, ∃ u ∈ m.types, u.content = t.content := by
    intro t hx
    have : t.content ∈ r.types.map TypeObj.content := List.mem_map.mpr ⟨t, hx, rfl⟩
    rw [h.types] at this
    obtain ⟨u, hu, he⟩ := List.mem_map.mp this
    exact ⟨u, (sortedByName_perm _ _).mem_iff.mp hu, he⟩
  refine ⟨⟨by rw [h.name]; exact ht.writable.name, ?_, ?_⟩, ?_⟩
  · intro t hx
    obtain ⟨u, hu, he⟩ := hty t hx
    obtain ⟨a, b, c, -, e⟩ := ht.writable.types u hu
    simp only [TypeObj.content, Prod.mk.injEq] at he
    rw [← he.1, ← he.2.1, ← he.2.2]
    exact ⟨a, b, c, h.short t hx, e⟩
  · intro side p hp
    have : p.content ∈ r.contents side := List.mem_map.mpr ⟨p, hp, rfl⟩
    rw [h.ports] at this
    obtain ⟨q, hq, he⟩ := List.mem_map.mp this
    have := ht.writable.ports side q ((sortedByName_perm _ _).mem_iff.mp hq)
    simp only [Port.content, Prod.mk.injEq] at he
    rw [← he.1, ← he.2.1, ← he.2.2]
    exact this
  · intro t hx
    obtain ⟨u, hu, he⟩ := hty t hx
    simp only [TypeObj.content, Prod.mk.injEq] at he
    rw [← he.1, ← he.2.1]
    exact ht.below u hu

/-- The text of the finalized node. -/
theorem output_text {m : Node} (hi : NodeInv m) (ht : m.Tidy) (nm : Bool) :
    ∃ text r, (∀ file, (m.finalized true false).emit file nm = ⟨[(destOf file, text)], .ok ()⟩) ∧ parseFile text = .ok r ∧
      Reload m r ∧
      ∀ m', m'.NoShort → SameSorted m' m → ∀ file, (m'.finalized true false).emit file nm = ⟨[(destOf file, text)], .ok ()⟩ := by
  have hi' := finalized_inv m true false hi.toNodeInv0
  have hb' : ∀ t ∈ (m.finalized true false).types, t.elem.RefsBelow t.name := by
    intro t hx
    have h1 : t.content ∈ (m.finalized true false).types.map TypeObj.content := List.mem_map.mpr ⟨t, hx, rfl⟩
    rw [finalized_content] at h1
    obtain ⟨u, hu, he⟩ := List.mem_map.mp h1
    have := ht.below u ((sortedByName_perm _ _).mem_iff.mp hu)
    simp only [TypeObj.content, Prod.mk.injEq] at he
    rw [← he.1, ← he.2.1]
    exact this
  obtain ⟨ls, h1, h2⟩ := tool_text_reload hi' (ordered_of_sorted hi' (finalized_sorted m true false) hb')
    (finalized_writable ht.writable true) nm
  obtain ⟨e1, e2, e3⟩ := reloaded_same (m.finalized true false)
  have hn : m.NoShort := fun t hx => (ht.writable.types t hx).2.2.2.1
  refine ⟨_, _, fun file => emit_ok _ rfl file nm ls h1, h2, ⟨(parseFile_built h2).1, rfl, ?_, e1.trans (finalized_name _ _ _), ?_, ?_⟩, ?_⟩
  · intro t hx
    obtain ⟨u, hu, rfl⟩ := List.mem_map.mp hx
    exact ((finalized_writable ht.writable true).types u hu).2.2.2.1
  · rw [e2, finalized_content]
  · intro side
    have := e3 side
    rw [finalized_ports] at this
    exact this
  · intro m' hm' hs file
    exact emit_ok _ rfl file nm ls (by rw [finalized_lines_eq hs hm' hn, h1])

end Apx
