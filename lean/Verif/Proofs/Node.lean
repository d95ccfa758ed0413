import Verif.Spec.Node
import Verif.Proofs.Signature

namespace Apx

/-! ### Sorting -/

section Sorting
variable {α : Type} (name : α → Str)

theorem insertByName_perm (x : α) (l : List α) : (insertByName name x l).Perm (x :: l) := by
  induction l with
  | nil => exact .refl _
  | cons y l ih =>
    simp only [insertByName]
    split
    · exact .refl _
    · exact (ih.cons y).trans (.swap x y l)

theorem sortedByName_perm (l : List α) : (sortedByName name l).Perm l := by
  induction l with
  | nil => exact .refl _
  | cons x l ih => exact (insertByName_perm name x _).trans (ih.cons x)

theorem insertByName_sorted (x : α) (l : List α) (h : SortedByName name l) :
    SortedByName name (insertByName name x l) := by
  induction l with
  | nil => simp [insertByName, SortedByName]
  | cons y l ih =>
    unfold SortedByName at h ⊢
    rw [List.pairwise_cons] at h
    simp only [insertByName]
    split
    · rename_i hle
      rw [List.pairwise_cons, List.pairwise_cons]
      refine ⟨?_, h⟩
      intro z hz
      rcases List.mem_cons.mp hz with rfl | hz
      · exact hle
      · exact List.le_trans hle (h.1 z hz)
    · rename_i hle
      rw [List.pairwise_cons]
      refine ⟨?_, ih h.2⟩
      intro z hz
      rw [(insertByName_perm name x l).mem_iff] at hz
      rcases List.mem_cons.mp hz with rfl | hz
      · rcases List.le_total (name z) (name y) with h' | h'
        · exact absurd h' hle
        · exact h'
      · exact h.1 z hz

theorem sortedByName_sorted (l : List α) : SortedByName name (sortedByName name l) := by
  induction l with
  | nil => simp [sortedByName, SortedByName]
  | cons x l ih => exact insertByName_sorted name x _ ih

theorem sortedByName_of_sorted (l : List α) (h : SortedByName name l) : sortedByName name l = l := by
  induction l with
  | nil => rfl
  | cons x l ih =>
    unfold SortedByName at h
    rw [List.pairwise_cons] at h
    simp only [sortedByName, ih h.2]
    cases l with
    | nil => rfl
    | cons y l => simp only [insertByName]; rw [if_pos (h.1 y (by simp))]

/-- Stability: elements with the same name keep their order. -/
theorem insertByName_filter (x : α) (l : List α) (m : Str) :
    (insertByName name x l).filter (fun a => name a = m) = (x :: l).filter (fun a => name a = m) := by
  induction l with
  | nil => rfl
  | cons y l ih =>
    simp only [insertByName]
    split
    · rfl
    · rename_i hle
      rw [List.filter_cons, ih]
      by_cases hx : name x = m <;> by_cases hy : name y = m <;> simp [hx, hy]
      exfalso; apply hle; rw [hx, hy]; exact List.le_refl m

theorem sortedByName_stable (l : List α) (m : Str) :
    (sortedByName name l).filter (fun a => name a = m) = l.filter (fun a => name a = m) := by
  induction l with
  | nil => rfl
  | cons x l ih =>
    simp only [sortedByName]
    rw [insertByName_filter, List.filter_cons, List.filter_cons, ih]

end Sorting

/-! ### Lists of results -/

theorem mapPy_ok_iff {α β : Type} (f : α → Py β) (l : List α) (r : List β) :
    mapPy f l = .ok r ↔ l.map f = r.map .ok := by
  induction l generalizing r with
  | nil => cases r <;> simp [mapPy]
  | cons x l ih =>
    simp only [mapPy, bind_ok_iff]
    constructor
    · rintro ⟨y, h1, r', h2, h3⟩
      simp only [Except.ok.injEq] at h3
      subst h3
      simp [h1, (ih r').mp h2]
    · intro h
      cases r with
      | nil => simp at h
      | cons y r =>
        simp only [List.map_cons, List.cons.injEq] at h
        exact ⟨y, h.1, r, (ih r).mpr h.2, rfl⟩

theorem mapPy_id {α : Type} (f : α → Py α) (l : List α) (h : ∀ x ∈ l, f x = .ok x) : mapPy f l = .ok l := by
  induction l with
  | nil => rfl
  | cons x l ih =>
    simp only [mapPy, h x (by simp), ok_bind, ih (fun y hy => h y (by simp [hy]))]

/-! ### Elements that come from the parser -/

mutual
/-- Elements as the parser makes them: no resolved references, records are not arrays. -/
def Elem.Raw : Elem → Prop
  | .prim _ _ _ _ => True
  | .record fs a => a = none ∧ fs.Raw
  | .refType _ _ => False
  | .refId _ => True
  | .refName _ => True
/-- See `Elem.Raw`. -/
def Fields.Raw : Fields → Prop
  | .nil => True
  | .cons _ e r => e.Raw ∧ r.Raw
end

theorem parseRef_raw (s : Str) (r : Elem × Str) (h : parseRef s = .ok r) : r.1.Raw := by
  unfold parseRef at h
  split at h
  · simp at h
  · split at h
    · split at h
      · simp only [Except.ok.injEq] at h; subst h; trivial
      · simp at h
    · rw [bind_ok_iff] at h
      obtain ⟨i, _, h⟩ := h
      simp only [Except.ok.injEq] at h; subst h; trivial

theorem parsePrim_raw (tc : TypeCode) (s : Str) (r : Elem × Str) (h : parsePrim tc s = .ok r) : r.1.Raw := by
  unfold parsePrim at h
  rw [bind_ok_iff] at h
  obtain ⟨⟨mn, mx, rem⟩, _, h⟩ := h
  rw [bind_ok_iff] at h
  obtain ⟨⟨a, rem'⟩, _, h⟩ := h
  simp only [Except.ok.injEq] at h; subst h; trivial

theorem parse_raw (n : Nat) :
    (∀ s e r, parseSigF n s = .ok (some e, r) → e.Raw) ∧
    (∀ s fs r, parseRecF n s = .ok (fs, r) → fs.Raw) := by
  induction n with
  | zero => simp [parseSigF, parseRecF]
  | succ n ih =>
    constructor
    · intro s e r h
      cases s with
      | nil => simp [parseSigF] at h
      | cons c s =>
        simp only [parseSigF] at h
        split at h
        · rw [bind_ok_iff] at h
          obtain ⟨⟨fs, r'⟩, h1, h⟩ := h
          simp only [Except.ok.injEq, Prod.mk.injEq, Option.some.injEq] at h
          obtain ⟨rfl, rfl⟩ := h
          exact ⟨rfl, ih.2 _ _ _ h1⟩
        · split at h
          · rw [bind_ok_iff] at h
            obtain ⟨⟨fs, r'⟩, h1, h⟩ := h
            simp only [Except.ok.injEq, Prod.mk.injEq, Option.some.injEq] at h
            obtain ⟨rfl, rfl⟩ := h
            exact parseRef_raw _ _ h1
          · split at h
            · simp at h
            · rw [bind_ok_iff] at h
              obtain ⟨⟨fs, r'⟩, h1, h⟩ := h
              simp only [Except.ok.injEq, Prod.mk.injEq, Option.some.injEq] at h
              obtain ⟨rfl, rfl⟩ := h
              exact parsePrim_raw _ _ _ h1
    · intro s fs r h
      simp only [parseRecF] at h
      split at h
      · simp at h
      · split at h
        · simp at h
        · rw [bind_ok_iff] at h
          obtain ⟨⟨ce, r1⟩, h1, h⟩ := h
          cases ce with
          | none =>
            simp only [] at h
            split at h
            · simp only [Except.ok.injEq, Prod.mk.injEq] at h
              obtain ⟨rfl, rfl⟩ := h
              trivial
            · simp at h
          | some e =>
            simp only [] at h
            rw [bind_ok_iff] at h
            obtain ⟨⟨fs', r2⟩, h2, h⟩ := h
            simp only [Except.ok.injEq, Prod.mk.injEq] at h
            obtain ⟨rfl, rfl⟩ := h
            exact ⟨ih.1 _ _ _ h1, ih.2 _ _ _ h2⟩

theorem dataSignature_raw (s : Str) (e : Elem) (h : dataSignature s = .ok e) : e.Raw := by
  unfold dataSignature at h
  rw [bind_ok_iff] at h
  obtain ⟨⟨e', r⟩, h1, h⟩ := h
  simp only [] at h
  split at h
  · simp at h
  · cases e' with
    | none => simp at h
    | some e' =>
      simp only [Except.ok.injEq] at h
      subst h
      exact (parse_raw _).1 _ _ _ h1

/-- Printing a well-formed element and parsing the text. -/
theorem Elem.parse_toStr_data (ids : Str → Option Int) (normalized : Bool) (e : Elem) (h : e.WellFormed) :
    ∃ s, e.toStr ids normalized = .ok s ∧ dataSignature s = .ok (e.asWritten ids normalized) := by
  obtain ⟨s, hs, _, _, hp⟩ := Elem.parse_toStr ids normalized e h
  refine ⟨s, hs, ?_⟩
  have := hp [] (2 * s.length + 2) (by simp [Stops]) (by simp)
  simp only [List.append_nil] at this
  unfold dataSignature parseSig
  rw [this]
  simp

/-! ### Resolution -/

theorem pyIndex_mem {α : Type} (l : List α) (i : Int) (x : α) (h : pyIndex l i = .ok x) : x ∈ l := by
  unfold pyIndex at h
  split at h
  · rename_i y hy
    simp only [Except.ok.injEq] at h
    subst h
    split at hy
    · split at hy
      · exact List.mem_of_getElem? hy
      · simp at hy
    · exact List.mem_of_getElem? hy
  · simp at h

theorem findType_mem (types : List NamedType) (n : Str) (t : NamedType) (h : findType types n = some t) :
    t ∈ types ∧ t.name = n := by
  unfold findType at h
  exact ⟨List.mem_of_find?_eq_some h, by simpa using List.find?_some h⟩

mutual
theorem Elem.resolve_refsIn (types : List NamedType) (e e' : Elem) (hr : e.Raw)
    (h : e.resolveType types = .ok e') : e'.RefsIn types := by
  match e with
  | .prim _ _ _ _ => simp only [Elem.resolveType, Except.ok.injEq] at h; subst h; trivial
  | .record fs a =>
    simp only [Elem.resolveType] at h
    rw [bind_ok_iff] at h
    obtain ⟨fs', h1, h⟩ := h
    simp only [Except.ok.injEq] at h
    subst h
    exact Fields.resolve_refsIn types fs fs' hr.2 h1
  | .refType _ _ => exact hr.elim
  | .refId i =>
    simp only [Elem.resolveType] at h
    rw [bind_ok_iff] at h
    obtain ⟨t, h1, h⟩ := h
    simp only [Except.ok.injEq] at h
    subst h
    exact pyIndex_mem _ _ _ h1
  | .refName n =>
    simp only [Elem.resolveType] at h
    split at h
    · rename_i t ht
      simp only [Except.ok.injEq] at h
      subst h
      exact (findType_mem _ _ _ ht).1
    · simp at h

theorem Fields.resolve_refsIn (types : List NamedType) (fs fs' : Fields) (hr : fs.Raw)
    (h : fs.resolveType types = .ok fs') : fs'.RefsIn types := by
  match fs with
  | .nil => simp only [Fields.resolveType, Except.ok.injEq] at h; subst h; trivial
  | .cons n e r =>
    simp only [Fields.resolveType] at h
    rw [bind_ok_iff] at h
    obtain ⟨e', h1, h⟩ := h
    rw [bind_ok_iff] at h
    obtain ⟨r', h2, h⟩ := h
    simp only [Except.ok.injEq] at h
    subst h
    exact ⟨Elem.resolve_refsIn types e e' hr.1 h1, Fields.resolve_refsIn types r r' hr.2 h2⟩
end

mutual
/-- An element whose references go to types of known size has a known size. -/
theorem Elem.resolve_leaves (types : List NamedType) (ht : ∀ t ∈ types, ∃ ls, t.elem.leaves = some ls)
    (e e' : Elem) (hr : e.Raw) (h : e.resolveType types = .ok e') : ∃ ls, e'.leaves = some ls := by
  match e with
  | .prim _ _ _ _ => simp only [Elem.resolveType, Except.ok.injEq] at h; subst h; exact ⟨_, rfl⟩
  | .record fs a =>
    simp only [Elem.resolveType] at h
    rw [bind_ok_iff] at h
    obtain ⟨fs', h1, h⟩ := h
    simp only [Except.ok.injEq] at h
    subst h
    obtain ⟨rfl, hr⟩ := hr
    obtain ⟨ls, hl⟩ := Fields.resolve_leaves types ht fs fs' hr h1
    exact ⟨ls, by simpa [Elem.leaves] using hl⟩
  | .refType _ _ => exact hr.elim
  | .refId i =>
    simp only [Elem.resolveType] at h
    rw [bind_ok_iff] at h
    obtain ⟨t, h1, h⟩ := h
    simp only [Except.ok.injEq] at h
    subst h
    obtain ⟨ls, hl⟩ := ht t (pyIndex_mem _ _ _ h1)
    exact ⟨ls, by simpa [Elem.leaves] using hl⟩
  | .refName n =>
    simp only [Elem.resolveType] at h
    split at h
    · rename_i t ht'
      simp only [Except.ok.injEq] at h
      subst h
      obtain ⟨ls, hl⟩ := ht t (findType_mem _ _ _ ht').1
      exact ⟨ls, by simpa [Elem.leaves] using hl⟩
    · simp at h

theorem Fields.resolve_leaves (types : List NamedType) (ht : ∀ t ∈ types, ∃ ls, t.elem.leaves = some ls)
    (fs fs' : Fields) (hr : fs.Raw) (h : fs.resolveType types = .ok fs') : ∃ ls, fs'.leaves = some ls := by
  match fs with
  | .nil => simp only [Fields.resolveType, Except.ok.injEq] at h; subst h; exact ⟨_, rfl⟩
  | .cons n e r =>
    simp only [Fields.resolveType] at h
    rw [bind_ok_iff] at h
    obtain ⟨e', h1, h⟩ := h
    rw [bind_ok_iff] at h
    obtain ⟨r', h2, h⟩ := h
    simp only [Except.ok.injEq] at h
    subst h
    obtain ⟨l1, e1⟩ := Elem.resolve_leaves types ht e e' hr.1 h1
    obtain ⟨l2, e2⟩ := Fields.resolve_leaves types ht r r' hr.2 h2
    exact ⟨l1 ++ l2, by simp [Fields.leaves, e1, e2]⟩
end

mutual
theorem Elem.refsIn_mono {types types' : List NamedType} (h : ∀ t ∈ types, t ∈ types') (e : Elem)
    (he : e.RefsIn types) : e.RefsIn types' := by
  match e with
  | .prim _ _ _ _ => trivial
  | .record fs a => exact Fields.refsIn_mono h fs he
  | .refType _ _ => exact h _ he
  | .refId _ => exact he
  | .refName _ => exact he
theorem Fields.refsIn_mono {types types' : List NamedType} (h : ∀ t ∈ types, t ∈ types') (fs : Fields)
    (he : fs.RefsIn types) : fs.RefsIn types' := by
  match fs with
  | .nil => trivial
  | .cons _ e r => exact ⟨Elem.refsIn_mono h e he.1, Fields.refsIn_mono h r he.2⟩
end

mutual
/-- Resolving an element that is already resolved changes nothing. -/
theorem Elem.resolve_refsIn_id (types types' : List NamedType) (e : Elem) (he : e.RefsIn types') :
    e.resolveType types = .ok e := by
  match e with
  | .prim _ _ _ _ => rfl
  | .record fs a => simp [Elem.resolveType, Fields.resolve_refsIn_id types types' fs he]
  | .refType _ _ => rfl
  | .refId _ => exact he.elim
  | .refName _ => exact he.elim
theorem Fields.resolve_refsIn_id (types types' : List NamedType) (fs : Fields) (he : fs.RefsIn types') :
    fs.resolveType types = .ok fs := by
  match fs with
  | .nil => rfl
  | .cons _ e r =>
    simp [Fields.resolveType, Elem.resolve_refsIn_id types types' e he.1, Fields.resolve_refsIn_id types types' r he.2]
end

mutual
theorem Elem.resolve_unknown (types : List NamedType) (r : Elem) (hu : Unknown types r) (e : Elem)
    (hm : Elem.Mentions r e) : ∃ x, e.resolveType types = .error x := by
  match e with
  | .prim _ _ _ _ => simp only [Elem.Mentions] at hm; subst hm; exact hu.elim
  | .record fs a =>
    obtain ⟨x, hx⟩ := Fields.resolve_unknown types r hu fs hm
    exact ⟨x, by simp [Elem.resolveType, hx]⟩
  | .refType _ _ => simp only [Elem.Mentions] at hm; subst hm; exact hu.elim
  | .refId i =>
    simp only [Elem.Mentions] at hm
    subst hm
    simp only [Unknown] at hu
    refine ⟨.indexError, ?_⟩
    simp only [Elem.resolveType]
    have : pyIndex types i = .error .indexError := by
      unfold pyIndex
      rcases hu with hu | hu
      · rw [if_pos (by omega), if_neg (by omega)]
      · rw [if_neg (by omega), List.getElem?_eq_none (by omega)]
    rw [this]; rfl
  | .refName n =>
    simp only [Elem.Mentions] at hm
    subst hm
    refine ⟨.apxTypeError, ?_⟩
    simp only [Elem.resolveType]
    have : findType types n = none := by
      unfold findType
      rw [List.find?_eq_none]
      intro t ht
      simpa using hu t ht
    rw [this]

theorem Fields.resolve_unknown (types : List NamedType) (r : Elem) (hu : Unknown types r) (fs : Fields)
    (hm : Fields.Mentions r fs) : ∃ x, fs.resolveType types = .error x := by
  match fs with
  | .nil => exact hm.elim
  | .cons n e rest =>
    simp only [Fields.resolveType]
    rcases hm with hm | hm
    · obtain ⟨x, hx⟩ := Elem.resolve_unknown types r hu e hm
      exact ⟨x, by simp [hx]⟩
    · obtain ⟨x, hx⟩ := Fields.resolve_unknown types r hu rest hm
      cases he : e.resolveType types with
      | error y => exact ⟨y, by simp⟩
      | ok e' => exact ⟨x, by simp [hx]⟩
end

/-! ### The invariant of nodes built through the API -/

/-- What holds of every port of a node with these types. -/
structure PortInv (types : List NamedType) (p : Port) : Prop where
  ref : p.elem.isReference = true → ∃ m t, p.elem = .refType m t ∧ ⟨m, t⟩ ∈ types ∧
    ∃ d, p.elem.resolveDataElement = .ok d
  raw : p.elem.isReference = false → p.elem.Raw
  attr : ∀ a, p.attr = some a → portAttribute a.str = .ok a

/-- What holds of every node built through the API, apart from the type numbers. -/
structure NodeInv0 (n : Node) : Prop where
  names : (n.types.map TypeObj.name).Nodup
  refs : ∀ t ∈ n.types, t.elem.RefsIn n.named
  leaves : ∀ t ∈ n.types, ∃ ls, t.elem.leaves = some ls
  data : ∀ t ∈ n.types, ∃ d, t.elem.resolveDataElement = .ok d
  tattr : ∀ t ∈ n.types, ∀ a, t.attr = some a → typeAttribute a.str = .ok a
  ports : ∀ side, ∀ p ∈ n.ports side, PortInv n.named p

/-- Type numbers are positions. -/
def IdsOk (n : Node) : Prop := ∀ (i : Nat) (t : TypeObj), n.types[i]? = some t → t.id = none ∨ t.id = some i

/-- The invariant. -/
structure NodeInv (n : Node) : Prop extends NodeInv0 n where
  ids : IdsOk n

theorem PortInv.mono {types types' : List NamedType} (h : ∀ t ∈ types, t ∈ types') {p : Port}
    (hp : PortInv types p) : PortInv types' p := by
  refine ⟨fun hr => ?_, hp.raw, hp.attr⟩
  obtain ⟨m, t, h1, h2, h3⟩ := hp.ref hr
  exact ⟨m, t, h1, h _ h2, h3⟩

theorem nodeInv_new (name : Str) : NodeInv (Node.new name) := by
  constructor
  · constructor <;> simp [Node.new, Node.ports]
    intro side
    cases side <;> simp
  · simp [IdsOk, Node.new]

/-- Every reference in a type goes to a type before it. -/
def Earlier (n : Node) : Prop :=
  ∀ (i : Nat) (t : TypeObj), n.types[i]? = some t → t.elem.RefsIn ((n.types.take i).map TypeObj.named)

/-- The types of a node grew, everything else is as before. -/
structure Grows (n m : Node) : Prop where
  name : m.name = n.name
  fin : m.isFinalized = n.isFinalized
  req : m.requires = n.requires
  prov : m.provides = n.provides
  types : n.types <+: m.types
  earlier : Earlier n → Earlier m

theorem Grows.refl (n : Node) : Grows n n := ⟨rfl, rfl, rfl, rfl, List.prefix_refl _, id⟩

theorem Grows.trans {a b c : Node} (h : Grows a b) (h' : Grows b c) : Grows a c :=
  ⟨h'.name.trans h.name, h'.fin.trans h.fin, h'.req.trans h.req, h'.prov.trans h.prov, h.types.trans h'.types,
    fun he => h'.earlier (h.earlier he)⟩

theorem Grows.ports {n m : Node} (h : Grows n m) (side : Side) : m.ports side = n.ports side := by
  cases side
  · exact h.req
  · exact h.prov

theorem Grows.named {n m : Node} (h : Grows n m) : ∀ t ∈ n.named, t ∈ m.named := by
  intro t ht
  obtain ⟨r, hr⟩ := h.types
  unfold Node.named at ht ⊢
  rw [← hr, List.map_append]
  exact List.mem_append_left _ ht

theorem typeNamed_none (n : Node) (name : Str) (h : n.typeNamed name = none) :
    name ∉ n.types.map TypeObj.name := by
  unfold Node.typeNamed at h
  rw [List.find?_eq_none] at h
  intro hm
  obtain ⟨t, ht, rfl⟩ := List.mem_map.mp hm
  simpa using h t ht

theorem typeNamed_some (n : Node) (name : Str) (t : TypeObj) (h : n.typeNamed name = some t) :
    t ∈ n.types ∧ t.name = name := by
  unfold Node.typeNamed at h
  exact ⟨List.mem_of_find?_eq_some h, by simpa using List.find?_some h⟩

/-- What `add_type` does. -/
theorem addType_cases (n n' : Node) (t t' : TypeObj) (h : n.addType t = .ok (n', t')) :
    (n' = n ∧ t' ∈ n.types ∧ t'.name = t.name) ∨
    (n.typeNamed t.name = none ∧ ∃ e, t.elem.resolveType n.named = .ok e ∧ (∃ d, e.resolveDataElement = .ok d) ∧
      t' = { t with elem := e } ∧ n' = { n with types := n.types ++ [t'] }) := by
  unfold Node.addType at h
  split at h
  · rename_i hn
    rw [bind_ok_iff] at h
    obtain ⟨e, h1, h⟩ := h
    unfold resolveDsg at h1
    rw [bind_ok_iff] at h1
    obtain ⟨e', h2, h1⟩ := h1
    rw [bind_ok_iff] at h1
    obtain ⟨d, h3, h1⟩ := h1
    simp only [Except.ok.injEq] at h1
    subst h1
    simp only [Except.ok.injEq, Prod.mk.injEq] at h
    obtain ⟨rfl, rfl⟩ := h
    exact Or.inr ⟨hn, e', h2, ⟨d, h3⟩, rfl, rfl⟩
  · rename_i ex hn
    rw [bind_ok_iff] at h
    obtain ⟨_, _, h⟩ := h
    simp only [Except.ok.injEq, Prod.mk.injEq] at h
    obtain ⟨rfl, rfl⟩ := h
    have := typeNamed_some _ _ _ hn
    exact Or.inl ⟨rfl, this.1, this.2⟩

theorem addType_grows (n n' : Node) (t t' : TypeObj) (h : n.addType t = .ok (n', t')) (hr : t.elem.Raw) :
    Grows n n' ∧ t' ∈ n'.types ∧ t'.name = t.name := by
  rcases addType_cases n n' t t' h with ⟨rfl, h1, h2⟩ | ⟨_, e, h1, _, rfl, rfl⟩
  · exact ⟨.refl _, h1, h2⟩
  · refine ⟨⟨rfl, rfl, rfl, rfl, List.prefix_append _ _, ?_⟩, by simp, rfl⟩
    intro he i u hu
    simp only at hu ⊢
    rw [List.getElem?_append] at hu
    split at hu
    · rename_i hlt
      rw [List.take_append_of_le_length (by omega)]
      exact he i u hu
    · rename_i hge
      have hi : i = n.types.length := by
        have := (List.getElem?_eq_some_iff.mp hu).1
        simp at this; omega
      subst hi
      simp only [Nat.sub_self, List.getElem?_cons_zero, Option.some.injEq] at hu
      subst hu
      rw [List.take_left']
      · exact Elem.resolve_refsIn _ _ _ hr h1
      · rfl

theorem addType_inv (n n' : Node) (t t' : TypeObj) (h : n.addType t = .ok (n', t')) (hi : NodeInv n)
    (hr : t.elem.Raw) (hid : t.id = none) (ha : ∀ a, t.attr = some a → typeAttribute a.str = .ok a) :
    NodeInv n' := by
  rcases addType_cases n n' t t' h with ⟨rfl, h1, h2⟩ | ⟨hn, e, h1, hdata, rfl, rfl⟩
  · exact hi
  · have hl : ∀ u ∈ n.named, ∃ ls, u.elem.leaves = some ls := by
      intro u hu
      obtain ⟨v, hv, rfl⟩ := List.mem_map.mp hu
      exact hi.leaves v hv
    have hmono : ∀ u ∈ n.named, u ∈ (Node.named { n with types := n.types ++ [{ t with elem := e }] }) := by
      intro u hu
      simp only [Node.named, List.map_append]
      exact List.mem_append_left _ hu
    constructor
    · constructor
      · simp only [List.map_append, List.map_cons, List.map_nil]
        rw [List.nodup_append]
        refine ⟨hi.names, by simp, ?_⟩
        intro a ha b hb
        simp only [List.mem_singleton] at hb
        subst hb
        rintro rfl
        exact typeNamed_none _ _ hn ha
      · intro u hu
        apply Elem.refsIn_mono hmono
        rcases List.mem_append.mp hu with hu | hu
        · exact hi.refs u hu
        · rw [List.mem_singleton.mp hu]
          exact Elem.resolve_refsIn _ _ _ hr h1
      · intro u hu
        rcases List.mem_append.mp hu with hu | hu
        · exact hi.leaves u hu
        · rw [List.mem_singleton.mp hu]
          exact Elem.resolve_leaves _ hl _ _ hr h1
      · intro u hu
        rcases List.mem_append.mp hu with hu | hu
        · exact hi.data u hu
        · rw [List.mem_singleton.mp hu]
          exact hdata
      · intro u hu
        rcases List.mem_append.mp hu with hu | hu
        · exact hi.tattr u hu
        · rw [List.mem_singleton.mp hu]
          exact ha
      · intro side p hp
        refine PortInv.mono hmono (hi.ports side p ?_)
        cases side <;> exact hp
    · intro i u hu
      simp only [List.getElem?_append] at hu
      split at hu
      · exact hi.ids i u hu
      · have := List.mem_of_getElem? hu
        simp only [List.mem_singleton] at this
        subst this
        exact Or.inl hid

theorem optArg_attr {α β : Type} (f : α → Py β) (x : Option α) (y : Option β) (h : optArg f x = .ok y) :
    (x = none ∧ y = none) ∨ ∃ a b, x = some a ∧ y = some b ∧ f a = .ok b := by
  cases x with
  | none => simp [optArg] at h; subst h; exact Or.inl ⟨rfl, rfl⟩
  | some a =>
    simp only [optArg, bind_ok_iff] at h
    obtain ⟨b, h1, h⟩ := h
    simp only [Except.ok.injEq] at h
    exact Or.inr ⟨a, b, rfl, h.symm, h1⟩

theorem typeAttrLoop_str (n : Nat) (a b : TypeAttr) (s : Str) (h : typeAttrLoop n a s = .ok b) : b.str = a.str := by
  induction n generalizing a s with
  | zero => simp [typeAttrLoop] at h
  | succ n ih =>
    simp only [typeAttrLoop] at h
    split at h
    · simp only [Except.ok.injEq] at h; rw [h]
    · split at h
      · split at h
        · simp at h
        · have := ih _ _ h; exact this
      · simp at h

theorem typeAttribute_str (s : Str) (a : TypeAttr) (h : typeAttribute s = .ok a) : a.str = s :=
  typeAttrLoop_str _ _ _ _ h

theorem attrLoop_str (n : Nat) (a b : PortAttr) (s : Str) (h : attrLoop n a s = .ok b) : b.str = a.str := by
  induction n generalizing a s with
  | zero => simp [attrLoop] at h
  | succ n ih =>
    simp only [attrLoop] at h
    split at h
    · simp only [Except.ok.injEq] at h; rw [h]
    · split at h
      · rw [bind_ok_iff] at h
        obtain ⟨_, _, h⟩ := h
        have := ih _ _ h; exact this
      · simp only [Except.ok.injEq] at h; rw [← h]
      · have := ih _ _ h; exact this
      · simp at h

theorem portAttribute_str (s : Str) (a : PortAttr) (h : portAttribute s = .ok a) : a.str = s :=
  attrLoop_str _ _ _ _ h

theorem mkType_facts (name dsg : Str) (attr : Option Str) (t : TypeObj) (h : mkType name dsg attr = .ok t) :
    t.name = name ∧ t.elem.Raw ∧ t.id = none ∧ t.shortName = none ∧ dataSignature dsg = .ok t.elem ∧
      t.attr.map TypeAttr.str = attr ∧ ∀ a, t.attr = some a → typeAttribute a.str = .ok a := by
  unfold mkType at h
  rw [bind_ok_iff] at h
  obtain ⟨e, h1, h⟩ := h
  rw [bind_ok_iff] at h
  obtain ⟨a, h2, h⟩ := h
  simp only [Except.ok.injEq] at h
  subst h
  refine ⟨rfl, dataSignature_raw _ _ h1, rfl, rfl, h1, ?_, ?_⟩
  · rcases optArg_attr _ _ _ h2 with ⟨rfl, rfl⟩ | ⟨x, y, rfl, rfl, h3⟩
    · rfl
    · simp [typeAttribute_str _ _ h3]
  · intro b hb
    simp only at hb
    subst hb
    rcases optArg_attr _ _ _ h2 with ⟨_, h3⟩ | ⟨x, y, _, h3, h4⟩
    · simp at h3
    · simp only [Option.some.injEq] at h3
      subst h3
      rw [typeAttribute_str _ _ h4]
      exact h4

theorem mkPort_facts (name dsg : Str) (attr : Option Str) (p : Port) (h : mkPort name dsg attr = .ok p) :
    p.name = name ∧ p.elem.Raw ∧ p.id = none ∧ dataSignature dsg = .ok p.elem ∧
      p.attr.map PortAttr.str = attr ∧ ∀ a, p.attr = some a → portAttribute a.str = .ok a := by
  unfold mkPort at h
  rw [bind_ok_iff] at h
  obtain ⟨e, h1, h⟩ := h
  rw [bind_ok_iff] at h
  obtain ⟨a, h2, h⟩ := h
  simp only [Except.ok.injEq] at h
  subst h
  refine ⟨rfl, dataSignature_raw _ _ h1, rfl, h1, ?_, ?_⟩
  · rcases optArg_attr _ _ _ h2 with ⟨rfl, rfl⟩ | ⟨x, y, rfl, rfl, h3⟩
    · rfl
    · simp [portAttribute_str _ _ h3]
  · intro b hb
    simp only at hb
    subst hb
    rcases optArg_attr _ _ _ h2 with ⟨_, h3⟩ | ⟨x, y, _, h3, h4⟩
    · simp at h3
    · simp only [Option.some.injEq] at h3
      subst h3
      rw [portAttribute_str _ _ h4]
      exact h4

/-- Elements a port may have before it is added. -/
def PortElem (types : List NamedType) (e : Elem) : Prop := e.Raw ∨ ∃ m t, e = .refType m t ∧ ⟨m, t⟩ ∈ types

theorem resolvePort_inv (types : List NamedType) (p q : Port) (h : resolvePort types p = .ok q)
    (he : PortElem types p.elem) (ha : ∀ a, p.attr = some a → portAttribute a.str = .ok a) :
    PortInv types q ∧ q.name = p.name ∧ q.id = p.id ∧ q.attr = p.attr ∧
      (p.elem.isReference = false → q = p) ∧ (∀ m t, p.elem = .refType m t → q = p) := by
  unfold resolvePort at h
  split at h
  · rename_i hr
    rw [bind_ok_iff] at h
    obtain ⟨e, h1, h⟩ := h
    unfold resolveDsg at h1
    rw [bind_ok_iff] at h1
    obtain ⟨e', h2, h1⟩ := h1
    rw [bind_ok_iff] at h1
    obtain ⟨d, h3, h1⟩ := h1
    simp only [Except.ok.injEq] at h1
    subst h1
    simp only [Except.ok.injEq] at h
    subst h
    have hex : ∃ m t, e' = .refType m t ∧ ⟨m, t⟩ ∈ types := by
      rcases he with he | ⟨m, t, he, hm⟩
      · have hin := Elem.resolve_refsIn types p.elem e' he h2
        cases hp : p.elem with
        | prim => rw [hp] at hr; simp [Elem.isReference] at hr
        | record => rw [hp] at hr; simp [Elem.isReference] at hr
        | refType => rw [hp] at he; exact he.elim
        | refId i =>
          rw [hp] at h2
          simp only [Elem.resolveType, bind_ok_iff] at h2
          obtain ⟨t, h4, h5⟩ := h2
          simp only [Except.ok.injEq] at h5
          subst h5
          exact ⟨_, _, rfl, hin⟩
        | refName m =>
          rw [hp] at h2
          simp only [Elem.resolveType] at h2
          split at h2
          · simp only [Except.ok.injEq] at h2
            subst h2
            exact ⟨_, _, rfl, hin⟩
          · simp at h2
      · rw [he] at h2
        simp only [Elem.resolveType, Except.ok.injEq] at h2
        subst h2
        exact ⟨m, t, rfl, hm⟩
    obtain ⟨m, t, rfl, hm⟩ := hex
    refine ⟨⟨fun _ => ⟨m, t, rfl, hm, d, h3⟩, fun h => by simp [Elem.isReference] at h, ha⟩, rfl, rfl, rfl,
      fun h => by rw [hr] at h; simp at h, ?_⟩
    intro m' t' he'
    rw [he'] at h2
    simp only [Elem.resolveType, Except.ok.injEq] at h2
    rw [← h2, ← he']
  · rename_i hr
    simp only [Except.ok.injEq] at h
    subst h
    refine ⟨⟨fun h => absurd h hr, fun _ => ?_, ha⟩, rfl, rfl, rfl, fun _ => rfl, fun _ _ _ => rfl⟩
    rcases he with he | ⟨m, t, he, _⟩
    · exact he
    · rw [he] at hr; simp [Elem.isReference] at hr

theorem ports_setPorts (n : Node) (side side' : Side) (l : List Port) :
    (n.setPorts side l).ports side' = if side' = side then l else n.ports side' := by
  cases side <;> cases side' <;> simp [Node.setPorts, Node.ports]

/-- What `add_require_port` and `add_provide_port` do. -/
theorem addPort_cases (n n' : Node) (side : Side) (p q : Port) (h : n.addPort side p = .ok (n', q)) :
    resolvePort n.named { p with id := some (n.ports side).length } = .ok q ∧
      n' = n.setPorts side (n.ports side ++ [q]) := by
  unfold Node.addPort at h
  rw [bind_ok_iff] at h
  obtain ⟨q', h1, h⟩ := h
  simp only [Except.ok.injEq, Prod.mk.injEq] at h
  obtain ⟨rfl, rfl⟩ := h
  exact ⟨h1, rfl⟩

theorem setPorts_types (n : Node) (side : Side) (l : List Port) : (n.setPorts side l).types = n.types := by
  cases side <;> rfl

theorem setPorts_named (n : Node) (side : Side) (l : List Port) : (n.setPorts side l).named = n.named := by
  cases side <;> rfl

theorem addPort_inv (n n' : Node) (side : Side) (p q : Port) (h : n.addPort side p = .ok (n', q))
    (hi : NodeInv n) (he : PortElem n.named p.elem) (ha : ∀ a, p.attr = some a → portAttribute a.str = .ok a) :
    NodeInv n' := by
  obtain ⟨h1, rfl⟩ := addPort_cases n n' side p q h
  have hq := (resolvePort_inv _ _ _ h1 he ha).1
  constructor
  · constructor
    · rw [setPorts_types]; exact hi.names
    · rw [setPorts_types, setPorts_named]; exact hi.refs
    · rw [setPorts_types]; exact hi.leaves
    · rw [setPorts_types]; exact hi.data
    · rw [setPorts_types]; exact hi.tattr
    · intro side' r hr
      rw [ports_setPorts] at hr
      rw [setPorts_named]
      split at hr
      · rename_i hs
        subst hs
        rcases List.mem_append.mp hr with hr | hr
        · exact hi.ports side' r hr
        · rw [List.mem_singleton.mp hr]; exact hq
      · exact hi.ports side' r hr
  · intro i t ht
    rw [setPorts_types] at ht
    exact hi.ids i t ht

/-! ### Copying from another node -/

theorem cloneType_grows (n src : Node) (name : Str) (e : Elem) :
    Grows n (n.cloneType src name e).1 ∧ (NodeInv n → NodeInv (n.cloneType src name e).1) ∧
      ∀ t, (n.cloneType src name e).2 = .ok t → t ∈ (n.cloneType src name e).1.types ∧ t.name = name := by
  unfold Node.cloneType
  split
  · rename_i n' t h
    rw [bind_ok_iff] at h
    obtain ⟨s, h1, h⟩ := h
    rw [bind_ok_iff] at h
    obtain ⟨c, h2, h⟩ := h
    obtain ⟨f1, f2, f3, _, _, _, f4⟩ := mkType_facts _ _ _ _ h2
    have hg := addType_grows _ _ _ _ h f2
    refine ⟨hg.1, fun hi => addType_inv _ _ _ _ h hi f2 f3 f4, ?_⟩
    intro t' ht'
    simp only [Except.ok.injEq] at ht'
    subst ht'
    exact ⟨hg.2.1, hg.2.2.trans f1⟩
  · exact ⟨.refl _, fun hi => hi, fun t ht => by simp at ht⟩

mutual
theorem addTypeFrom_grows (n src : Node) (name : Str) (e : Elem) :
    Grows n (n.addTypeFrom src name e).1 ∧ (NodeInv n → NodeInv (n.addTypeFrom src name e).1) ∧
      ∀ t, (n.addTypeFrom src name e).2 = .ok t → t ∈ (n.addTypeFrom src name e).1.types ∧ t.name = name := by
  match e with
  | .prim tc mn mx a => simp only [Node.addTypeFrom]; exact cloneType_grows _ _ _ _
  | .record fs a =>
    have hf := addFieldsFrom_grows n src fs
    simp only [Node.addTypeFrom]
    split
    · rename_i n' he
      rw [he] at hf
      have hc := cloneType_grows n' src name (.record fs a)
      exact ⟨hf.1.trans hc.1, fun hi => hc.2.1 (hf.2 hi), hc.2.2⟩
    · rename_i n' x he
      rw [he] at hf
      exact ⟨hf.1, hf.2, fun t ht => by simp at ht⟩
  | .refId _ => exact ⟨.refl _, fun hi => hi, fun t ht => by simp [Node.addTypeFrom] at ht⟩
  | .refName _ => exact ⟨.refl _, fun hi => hi, fun t ht => by simp [Node.addTypeFrom] at ht⟩
  | .refType _ _ => exact ⟨.refl _, fun hi => hi, fun t ht => by simp [Node.addTypeFrom] at ht⟩

theorem addFieldsFrom_grows (n src : Node) (fs : Fields) :
    Grows n (n.addFieldsFrom src fs).1 ∧ (NodeInv n → NodeInv (n.addFieldsFrom src fs).1) := by
  match fs with
  | .nil => exact ⟨.refl _, fun hi => hi⟩
  | .cons _ (.refType m t) r =>
    have ht := addTypeFrom_grows n src m t
    simp only [Node.addFieldsFrom]
    split
    · rename_i n' u he
      rw [he] at ht
      have hr := addFieldsFrom_grows n' src r
      exact ⟨ht.1.trans hr.1, fun hi => hr.2 (ht.2.1 hi)⟩
    · rename_i n' x he
      rw [he] at ht
      exact ⟨ht.1, ht.2.1⟩
  | .cons _ (.refId _) _ => exact ⟨.refl _, fun hi => hi⟩
  | .cons _ (.refName _) _ => exact ⟨.refl _, fun hi => hi⟩
  | .cons _ (.prim _ _ _ _) r => simp only [Node.addFieldsFrom]; exact addFieldsFrom_grows n src r
  | .cons _ (.record _ _) r => simp only [Node.addFieldsFrom]; exact addFieldsFrom_grows n src r
end

theorem targetType_grows (n src : Node) (name : Str) (e : Elem) :
    Grows n (n.targetType src name e).1 ∧ (NodeInv n → NodeInv (n.targetType src name e).1) ∧
      ∀ t, (n.targetType src name e).2 = .ok t → t ∈ (n.targetType src name e).1.types ∧ t.name = name := by
  unfold Node.targetType
  simp only
  split
  · exact addTypeFrom_grows n src name e
  · rename_i t he
    split
    · refine ⟨.refl _, fun hi => hi, fun t' ht' => ?_⟩
      simp only [Except.ok.injEq] at ht'
      subst ht'
      unfold Node.find at he
      split at he
      · rename_i t' hf
        simp only [Option.some.injEq, Found.type.injEq] at he
        subst he
        exact ⟨List.mem_of_find?_eq_some hf, by simpa using List.find?_some hf⟩
      · split at he
        · simp at he
        · rw [Option.map_eq_some_iff] at he
          obtain ⟨_, _, he⟩ := he
          simp at he
    · exact ⟨.refl _, fun hi => hi, fun t' ht' => by simp at ht'⟩
  · split
    · exact ⟨.refl _, fun hi => hi, fun t' ht' => by simp at ht'⟩
    · exact ⟨.refl _, fun hi => hi, fun t' ht' => by simp at ht'⟩

/-- What `add_port_from_node` can do: return a port already there, fail, or add one port. -/
inductive CopyResult (n src : Node) (side : Side) (p : Port) : NodeM Port → Prop
  | existing (q : Port) : n.portNamed p.name = some (side, q) →
      verifyEqual (q.toStr n.ids true side) (p.toStr src.ids true side) = .ok () →
      CopyResult n src side p (n, .ok q)
  | failed (m : Node) (x : PyErr) : Grows n m → (NodeInv n → NodeInv m) → CopyResult n src side p (m, .error x)
  | added (m m' : Node) (c q : Port) : n.portNamed p.name = none → Grows n m → (NodeInv n → NodeInv m) →
      c.name = p.name → PortElem m.named c.elem → (∀ a, c.attr = some a → portAttribute a.str = .ok a) →
      m.addPort side c = .ok (m', q) → CopyResult n src side p (m', .ok q)

theorem addPortM_result (n m src : Node) (side : Side) (p c : Port) (hn : n.portNamed p.name = none)
    (hg : Grows n m) (hi : NodeInv n → NodeInv m) (hc : c.name = p.name) (he : PortElem m.named c.elem)
    (ha : ∀ a, c.attr = some a → portAttribute a.str = .ok a) :
    CopyResult n src side p (m.addPortM side c) := by
  unfold Node.addPortM
  split
  · rename_i m' q h
    exact .added m m' c q hn hg hi hc he ha h
  · exact .failed m _ hg hi

theorem addPortFrom_result (n src : Node) (side : Side) (p : Port) (ig : Bool) :
    CopyResult n src side p (n.addPortFrom src side p ig) := by
  unfold Node.addPortFrom
  split
  · exact .failed n _ (.refl _) id
  · rename_i q hd
    unfold Node.checkDuplicate at hd
    split at hd
    · simp at hd
    · rename_i side' q' hq
      split at hd
      · simp at hd
      · rename_i hs
        rw [bind_ok_iff] at hd
        obtain ⟨_, h1, hd⟩ := hd
        simp only [Except.ok.injEq, Option.some.injEq] at hd
        subst hd
        simp only [ne_eq, Decidable.not_not] at hs
        subst hs
        exact .existing _ hq h1
  · rename_i hd
    have hn : n.portNamed p.name = none := by
      unfold Node.checkDuplicate at hd
      split at hd
      · assumption
      · split at hd
        · simp at hd
        · rw [bind_ok_iff] at hd
          obtain ⟨_, _, hd⟩ := hd
          simp at hd
    split
    · exact .failed n _ (.refl _) id
    · rename_i c hc
      unfold Port.clone Port.mirror at hc
      rw [bind_ok_iff] at hc
      obtain ⟨s, _, hc⟩ := hc
      obtain ⟨f1, f2, _, _, _, f3⟩ := mkPort_facts _ _ _ _ hc
      split
      · exact .failed n _ (.refl _) id
      · exact .failed n _ (.refl _) id
      · rename_i name e _
        have ht := targetType_grows n src name e
        split
        · rename_i m x he
          rw [he] at ht
          exact .failed m _ ht.1 ht.2.1
        · rename_i m t he
          rw [he] at ht
          have hm := (ht.2.2 t rfl).1
          exact addPortM_result n m src side p _ hn ht.1 ht.2.1 f1
            (Or.inr ⟨_, _, rfl, List.mem_map.mpr ⟨t, hm, rfl⟩⟩) f3
      · exact addPortM_result n n src side p _ hn (.refl _) id f1 (Or.inl f2) f3

theorem addPortFrom_inv (n src : Node) (side : Side) (p : Port) (ig : Bool) (hi : NodeInv n) :
    NodeInv (n.addPortFrom src side p ig).1 := by
  have h := addPortFrom_result n src side p ig
  cases h' : n.addPortFrom src side p ig with
  | mk m r =>
    rw [h'] at h
    cases h with
    | existing q => exact hi
    | failed _ x hg hm => exact hm hi
    | added m m' c q _ _ hm _ he ha hadd => exact addPort_inv _ _ _ _ _ hadd (hm hi) he ha

/-- Induction principle: a property of nodes kept by every copy is kept by `extend`. -/
theorem extendWith_ind (P : Node → Prop) (src : Node) (side : Side)
    (hstep : ∀ n p, P n → P (n.addPortFrom src side p false).1) (ps : List Port) (n : Node) (h : P n) :
    P (n.extendWith src side ps).1 := by
  induction ps generalizing n with
  | nil => exact h
  | cons p ps ih =>
    simp only [Node.extendWith]
    have := hstep n p h
    split
    · rename_i n' q he
      rw [he] at this
      exact ih n' this
    · rename_i n' x he
      rw [he] at this
      exact this

theorem extend_ind (P : Node → Prop) (src : Node)
    (hstep : ∀ n side p, P n → P (n.addPortFrom src side p false).1) (n : Node) (h : P n) :
    P (n.extend src).1 := by
  unfold Node.extend
  have h1 := extendWith_ind P src .require (fun n p => hstep n .require p) src.requires n h
  split
  · rename_i n' he
    rw [he] at h1
    exact extendWith_ind P src .provide (fun n p => hstep n .provide p) src.provides n' h1
  · rename_i n' x he
    rw [he] at h1
    exact h1

/-! ### Finalizing -/

theorem resolvePort_id (types : List NamedType) (p : Port) {types' : List NamedType} (h : PortInv types' p) :
    resolvePort types p = .ok p := by
  unfold resolvePort
  split
  · rename_i hr
    obtain ⟨m, t, he, _, d, hd⟩ := h.ref hr
    rw [he] at hd ⊢
    simp only [resolveDsg, Elem.resolveType, ok_bind, hd]
    rw [← he]
  · rfl

theorem resolveTypes_id (n : Node) (types : List NamedType)
    (h : ∀ side, ∀ p ∈ n.ports side, PortInv types p) : n.resolveTypes = .ok n := by
  unfold Node.resolveTypes
  rw [mapPy_id (resolvePort n.named) n.requires (fun p hp => resolvePort_id _ p (h .require p hp)),
    mapPy_id (resolvePort n.named) n.provides (fun p hp => resolvePort_id _ p (h .provide p hp))]
  rfl

/-- The result of finalizing a node built through the API. -/
def Node.finalized (n : Node) (sort compact : Bool) : Node :=
  let n := n.sortElements sort
  let n := if compact then n.compactTypes else n
  { n.setTypeIds with isFinalized := true }

theorem sortElements_types (n : Node) (s : Bool) : (n.sortElements s).types = sortedByName TypeObj.name n.types := by
  unfold Node.sortElements; cases s <;> rfl

theorem sortElements_ports (n : Node) (s : Bool) (side : Side) :
    (n.sortElements s).ports side = if s then sortedByName Port.name (n.ports side) else n.ports side := by
  unfold Node.sortElements; cases s <;> cases side <;> rfl

theorem finalize_eq (n : Node) (sort compact : Bool) (hi : NodeInv0 n) (hf : n.isFinalized = false) :
    n.finalize sort compact = .ok (n.finalized sort compact) := by
  unfold Node.finalize
  rw [if_neg (by simp [hf]), resolveTypes_id _ n.named]
  · rfl
  · intro side p hp
    rw [sortElements_ports] at hp
    apply hi.ports side
    split at hp
    · exact (sortedByName_perm _ _).mem_iff.mp hp
    · exact hp

/-- The types of a finalized node, as a function of position. -/
theorem finalized_types (n : Node) (sort compact : Bool) :
    (n.finalized sort compact).types = (sortedByName TypeObj.name n.types).mapIdx fun i t =>
      { t with id := some i, shortName := if compact then some ('T' :: intStr i) else t.shortName } := by
  unfold Node.finalized
  cases compact
  · simp [Node.setTypeIds, sortElements_types]
  · simp only [Node.setTypeIds, Node.compactTypes, if_true, sortElements_types, List.mapIdx_mapIdx]
    rfl

theorem finalized_ports (n : Node) (sort compact : Bool) (side : Side) :
    (n.finalized sort compact).ports side =
      if sort then sortedByName Port.name (n.ports side) else n.ports side := by
  rw [← sortElements_ports]
  unfold Node.finalized
  cases compact <;> cases side <;> rfl

theorem finalized_content (n : Node) (sort compact : Bool) :
    (n.finalized sort compact).types.map TypeObj.content
      = (sortedByName TypeObj.name n.types).map TypeObj.content := by
  rw [finalized_types]
  apply List.ext_getElem?
  intro i
  simp [List.getElem?_mapIdx, TypeObj.content, Function.comp_def]
  rfl

theorem named_of_content (l l' : List TypeObj) (h : l.map TypeObj.content = l'.map TypeObj.content) :
    l.map TypeObj.named = l'.map TypeObj.named := by
  have := congrArg (List.map (fun (c : Str × Elem × Option TypeAttr) => (⟨c.1, c.2.1⟩ : NamedType))) h
  simp only [List.map_map] at this
  exact this

theorem names_of_content (l l' : List TypeObj) (h : l.map TypeObj.content = l'.map TypeObj.content) :
    l.map TypeObj.name = l'.map TypeObj.name := by
  have := congrArg (List.map (fun (c : Str × Elem × Option TypeAttr) => c.1)) h
  simpa [TypeObj.content, Function.comp_def, List.map_map] using this

theorem content_mem {l l' : List TypeObj} (h : l.map TypeObj.content = l'.map TypeObj.content) {t : TypeObj}
    (ht : t ∈ l) : ∃ u ∈ l', u.content = t.content := by
  have : t.content ∈ l'.map TypeObj.content := by
    rw [← h]; exact List.mem_map.mpr ⟨t, ht, rfl⟩
  obtain ⟨u, hu, he⟩ := List.mem_map.mp this
  exact ⟨u, hu, he⟩

theorem finalized_inv (n : Node) (sort compact : Bool) (hi : NodeInv0 n) : NodeInv (n.finalized sort compact) := by
  have hc := finalized_content n sort compact
  have hperm := sortedByName_perm TypeObj.name n.types
  have hnamed : ∀ t, t ∈ (n.finalized sort compact).named ↔ t ∈ n.named := by
    intro t
    unfold Node.named
    rw [named_of_content _ _ hc]
    exact (hperm.map _).mem_iff
  have hback : ∀ t ∈ (n.finalized sort compact).types, ∃ u ∈ n.types, u.content = t.content := by
    intro t ht
    obtain ⟨u, hu, he⟩ := content_mem hc ht
    exact ⟨u, hperm.mem_iff.mp hu, he⟩
  constructor
  · constructor
    · rw [names_of_content _ _ hc]
      exact (hperm.map _).nodup_iff.mpr hi.names
    · intro t ht
      obtain ⟨u, hu, he⟩ := hback t ht
      simp only [TypeObj.content, Prod.mk.injEq] at he
      rw [← he.2.1]
      exact Elem.refsIn_mono (fun t ht => (hnamed t).mpr ht) _ (hi.refs u hu)
    · intro t ht
      obtain ⟨u, hu, he⟩ := hback t ht
      simp only [TypeObj.content, Prod.mk.injEq] at he
      rw [← he.2.1]
      exact hi.leaves u hu
    · intro t ht
      obtain ⟨u, hu, he⟩ := hback t ht
      simp only [TypeObj.content, Prod.mk.injEq] at he
      rw [← he.2.1]
      exact hi.data u hu
    · intro t ht
      obtain ⟨u, hu, he⟩ := hback t ht
      simp only [TypeObj.content, Prod.mk.injEq] at he
      rw [← he.2.2]
      exact hi.tattr u hu
    · intro side p hp
      refine PortInv.mono (fun t ht => (hnamed t).mpr ht) (hi.ports side p ?_)
      rw [finalized_ports] at hp
      split at hp
      · exact (sortedByName_perm _ _).mem_iff.mp hp
      · exact hp
  · intro i t ht
    rw [finalized_types, List.getElem?_mapIdx, Option.map_eq_some_iff] at ht
    obtain ⟨u, _, rfl⟩ := ht
    exact Or.inr rfl

theorem finalize_inv (n n' : Node) (sort compact : Bool) (hi : NodeInv n) (h : n.finalize sort compact = .ok n') :
    NodeInv n' := by
  cases hf : n.isFinalized with
  | true =>
    unfold Node.finalize at h
    rw [if_pos hf] at h
    simp only [Except.ok.injEq] at h
    subst h; exact hi
  | false =>
    rw [finalize_eq n sort compact hi.toNodeInv0 hf] at h
    simp only [Except.ok.injEq] at h
    subst h
    exact finalized_inv n sort compact hi.toNodeInv0

/-! ### Histories -/

theorem appendText_cases (n n' : Node) (text : Str) (q : Port) (h : n.appendText text = .ok (n', q)) :
    ∃ side name dsg attr p, mkPort name dsg attr = .ok p ∧ n.addPort side p = .ok (n', q) := by
  unfold Node.appendText at h
  split at h
  · simp at h
  · simp at h
  · simp at h
  · split at h
    · rw [bind_ok_iff] at h
      obtain ⟨p, h1, h2⟩ := h
      exact ⟨_, _, _, _, p, h1, h2⟩
    · split at h
      · rw [bind_ok_iff] at h
        obtain ⟨p, h1, h2⟩ := h
        exact ⟨_, _, _, _, p, h1, h2⟩
      · simp at h

theorem resolveTypes_ok (n n' : Node) (h : n.resolveTypes = .ok n') :
    n'.name = n.name ∧ n'.isFinalized = n.isFinalized ∧ n'.types = n.types ∧
      ∀ side, (n.ports side).map (resolvePort n.named) = (n'.ports side).map .ok := by
  unfold Node.resolveTypes at h
  rw [bind_ok_iff] at h
  obtain ⟨r, h1, h⟩ := h
  rw [bind_ok_iff] at h
  obtain ⟨p, h2, h⟩ := h
  simp only [Except.ok.injEq] at h
  subst h
  rw [mapPy_ok_iff] at h1 h2
  refine ⟨rfl, rfl, rfl, ?_⟩
  intro side
  cases side
  · exact h1
  · exact h2

theorem map_ok_mem {α β : Type} {f : α → Py β} {l : List α} {r : List β} (h : l.map f = r.map .ok) {y : β}
    (hy : y ∈ r) : ∃ x ∈ l, f x = .ok y := by
  have : (Except.ok y : Py β) ∈ l.map f := by rw [h]; exact List.mem_map.mpr ⟨y, hy, rfl⟩
  obtain ⟨x, hx, he⟩ := List.mem_map.mp this
  exact ⟨x, hx, he⟩

theorem map_ok_map {α β γ : Type} {f : α → Py β} {l : List α} {r : List β} (h : l.map f = r.map .ok)
    (g : α → γ) (g' : β → γ) (hg : ∀ x y, f x = .ok y → g' y = g x) : r.map g' = l.map g := by
  induction l generalizing r with
  | nil => cases r with
    | nil => rfl
    | cons y r => simp at h
  | cons x l ih => cases r with
    | nil => simp at h
    | cons y r =>
      simp only [List.map_cons, List.cons.injEq] at h
      simp [ih h.2, hg x y h.1]

/-- The other direction. -/
def Side.other : Side → Side
  | .require => .provide
  | .provide => .require

/-- What a successful `mirror` does, port by port. -/
theorem mirror_ok (n m : Node) (name : Option Str) (h : n.mirror name = .ok m) :
    m.name = name.getD n.name ∧ m.isFinalized = false ∧ m.types = n.types ∧
      ∀ side, ∃ l : List Port, (n.ports side.other).map (Port.mirror n.ids side.other) = l.map .ok ∧
        l.map (resolvePort n.named) = (m.ports side).map .ok := by
  unfold Node.mirror at h
  rw [bind_ok_iff] at h
  obtain ⟨r, h1, h⟩ := h
  rw [bind_ok_iff] at h
  obtain ⟨p, h2, h⟩ := h
  rw [mapPy_ok_iff] at h1 h2
  obtain ⟨e1, e2, e3, e4⟩ := resolveTypes_ok _ _ h
  refine ⟨e1, e2, e3, ?_⟩
  intro side
  cases side
  · exact ⟨r, h1, e4 .require⟩
  · exact ⟨p, h2, e4 .provide⟩

theorem mirror_inv (n m : Node) (name : Option Str) (hi : NodeInv n) (h : n.mirror name = .ok m) : NodeInv m := by
  obtain ⟨_, _, ht, hp⟩ := mirror_ok n m name h
  have hnamed : m.named = n.named := by unfold Node.named; rw [ht]
  constructor
  · constructor
    · rw [ht]; exact hi.names
    · rw [ht, hnamed]; exact hi.refs
    · rw [ht]; exact hi.leaves
    · rw [ht]; exact hi.data
    · rw [ht]; exact hi.tattr
    · intro side q hq
      obtain ⟨l, h1, h2⟩ := hp side
      obtain ⟨c, hc, hcq⟩ := map_ok_mem h2 hq
      obtain ⟨o, ho, hoc⟩ := map_ok_mem h1 hc
      unfold Port.mirror at hoc
      rw [bind_ok_iff] at hoc
      obtain ⟨s, _, hoc⟩ := hoc
      obtain ⟨_, f2, _, _, _, f3⟩ := mkPort_facts _ _ _ _ hoc
      rw [hnamed]
      exact (resolvePort_inv _ _ _ hcq (Or.inl f2) f3).1
  · intro i t hit
    rw [ht] at hit
    exact hi.ids i t hit

theorem step_inv (n : Node) (op : NodeOp) (hi : NodeInv n) : NodeInv (n.step op) := by
  cases op with
  | addType name dsg attr =>
    simp only [Node.step]
    split
    · rename_i n' t h
      rw [bind_ok_iff] at h
      obtain ⟨c, h1, h2⟩ := h
      obtain ⟨f1, f2, f3, _, _, _, f4⟩ := mkType_facts _ _ _ _ h1
      exact addType_inv _ _ _ _ h2 hi f2 f3 f4
    · exact hi
  | addPort side name dsg attr =>
    simp only [Node.step]
    split
    · rename_i n' t h
      rw [bind_ok_iff] at h
      obtain ⟨c, h1, h2⟩ := h
      obtain ⟨f1, f2, _, _, _, f4⟩ := mkPort_facts _ _ _ _ h1
      exact addPort_inv _ _ _ _ _ h2 hi (Or.inl f2) f4
    · exact hi
  | append text =>
    simp only [Node.step]
    split
    · rename_i n' q h
      obtain ⟨side, name, dsg, attr, p, h1, h2⟩ := appendText_cases _ _ _ _ h
      obtain ⟨f1, f2, _, _, _, f4⟩ := mkPort_facts _ _ _ _ h1
      exact addPort_inv _ _ _ _ _ h2 hi (Or.inl f2) f4
    · exact hi
  | addPortFrom src side p ig => exact addPortFrom_inv n src side p ig hi
  | extend src => exact extend_ind NodeInv src (fun n side p h => addPortFrom_inv n src side p false h) n hi
  | finalize sort compact =>
    simp only [Node.step]
    split
    · rename_i n' h
      exact finalize_inv n n' sort compact hi h
    · exact hi
  | mirror name =>
    simp only [Node.step]
    split
    · rename_i n' h
      exact mirror_inv n n' name hi h
    · exact hi

theorem run_inv (ops : List NodeOp) (n : Node) (hi : NodeInv n) : NodeInv (n.run ops) := by
  unfold Node.run
  induction ops generalizing n with
  | nil => exact hi
  | cons op ops ih => exact ih _ (step_inv n op hi)

theorem Node.Built.inv {n : Node} (h : n.Built) : NodeInv n := by
  obtain ⟨name, ops, rfl⟩ := h
  exact run_inv ops _ (nodeInv_new name)

end Apx
