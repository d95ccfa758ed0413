import Verif.Model.FromText
import Verif.Proofs.RoundTrip
import Verif.Props.Definition

/-! Lemmas for C86: the node after its node data has been made. -/

namespace Apx

/-! ### Elements -/

mutual
theorem Elem.resolve_again (types : List NamedType) (e e' : Elem) (h : e.resolveType types = .ok e') :
    e'.resolveType types = .ok e' := by
  match e with
  | .prim _ _ _ _ => simp only [Elem.resolveType, Except.ok.injEq] at h; subst h; rfl
  | .record fs a =>
    simp only [Elem.resolveType, bind_ok_iff, Except.ok.injEq] at h
    obtain ⟨gs, hg, rfl⟩ := h
    simp [Elem.resolveType, Fields.resolve_again types fs gs hg]
  | .refType _ _ => simp only [Elem.resolveType, Except.ok.injEq] at h; subst h; rfl
  | .refId i =>
    simp only [Elem.resolveType, bind_ok_iff, Except.ok.injEq] at h
    obtain ⟨t, _, rfl⟩ := h
    rfl
  | .refName m =>
    simp only [Elem.resolveType] at h
    split at h
    · simp only [Except.ok.injEq] at h; subst h; rfl
    · cases h
theorem Fields.resolve_again (types : List NamedType) (fs gs : Fields) (h : fs.resolveType types = .ok gs) :
    gs.resolveType types = .ok gs := by
  match fs with
  | .nil => simp only [Fields.resolveType, Except.ok.injEq] at h; subst h; rfl
  | .cons n e r =>
    simp only [Fields.resolveType, bind_ok_iff, Except.ok.injEq] at h
    obtain ⟨e', he, r', hr, rfl⟩ := h
    simp [Fields.resolveType, Elem.resolve_again types e e' he, Fields.resolve_again types r r' hr]
end

theorem findType_name {types : List NamedType} {m : Str} {t : NamedType} (h : findType types m = some t) :
    t ∈ types ∧ t.name = m := by
  unfold findType at h
  have h1 := List.mem_of_find?_eq_some h
  have h2 := List.find?_some h
  exact ⟨h1, by simpa using h2⟩

/-- The text of a reference, however it is resolved. -/
theorem ref_text (ids : Str → Option Int) (nm : Bool) (m : Str) (t : Elem) :
    ∃ s, (Elem.refType m t).toStr ids nm = .ok s ∧ ∀ c ∈ s, c ∈ m ∨ c.toNat < 128 := by
  have hq : ∀ c, c ∈ 'T' :: '[' :: '"' :: (m ++ ['"', ']']) → c ∈ m ∨ c.toNat < 128 := by
    intro c hc
    simp only [List.mem_cons, List.mem_append, List.not_mem_nil, or_false] at hc
    rcases hc with rfl | rfl | rfl | hc | rfl | rfl
    · right; decide
    · right; decide
    · right; decide
    · exact Or.inl hc
    · right; decide
    · right; decide
  simp only [Elem.toStr]
  split
  · rename_i i _
    refine ⟨_, rfl, ?_⟩
    intro c hc
    simp only [List.mem_cons, List.mem_append, List.not_mem_nil, or_false] at hc
    rcases hc with rfl | rfl | hc | rfl
    · right; decide
    · right; decide
    · right; have := intStr_chars i c hc; omega
    · right; decide
  · exact ⟨_, rfl, hq⟩

mutual
/-- A text that can be written can be written after the references have been resolved, and has no new characters outside
ASCII. -/
theorem Elem.resolved_toStr (types : List NamedType) (ids : Str → Option Int) (nm : Bool) (e e' : Elem) (s : Str)
    (h : e.resolveType types = .ok e') (hs : e.toStr ids nm = .ok s) :
    ∃ s', e'.toStr ids nm = .ok s' ∧ ∀ c ∈ s', c ∈ s ∨ c.toNat < 128 := by
  match e with
  | .prim _ _ _ _ =>
    simp only [Elem.resolveType, Except.ok.injEq] at h
    subst h
    exact ⟨s, hs, fun c hc => Or.inl hc⟩
  | .refType _ _ =>
    simp only [Elem.resolveType, Except.ok.injEq] at h
    subst h
    exact ⟨s, hs, fun c hc => Or.inl hc⟩
  | .refId _ => simp [Elem.toStr] at hs
  | .refName m =>
    simp only [Elem.resolveType] at h
    split at h
    · rename_i t ht
      simp only [Except.ok.injEq] at h
      subst h
      simp only [Elem.toStr, Except.ok.injEq] at hs
      obtain ⟨s', h1, h2⟩ := ref_text ids nm t.name t.elem
      refine ⟨s', h1, ?_⟩
      intro c hc
      rcases h2 c hc with h | h
      · left
        rw [(findType_name ht).2] at h
        rw [← hs]
        simp [h]
      · exact Or.inr h
    · cases h
  | .record fs a =>
    simp only [Elem.resolveType, bind_ok_iff, Except.ok.injEq] at h
    obtain ⟨gs, hg, rfl⟩ := h
    simp only [Elem.toStr, bind_ok_iff, Except.ok.injEq] at hs
    obtain ⟨u, hu, rfl⟩ := hs
    obtain ⟨u', h1, h2⟩ := Fields.resolved_toStr types ids nm fs gs u hg hu
    refine ⟨'{' :: (u' ++ ('}' :: arrayStr a)), by simp only [Elem.toStr, h1, ok_bind], ?_⟩
    intro c hc
    simp only [List.mem_cons, List.mem_append] at hc ⊢
    rcases hc with h | h | h | h
    · exact Or.inl (Or.inl h)
    · rcases h2 c h with h | h
      · exact Or.inl (Or.inr (Or.inl h))
      · exact Or.inr h
    · exact Or.inl (Or.inr (Or.inr (Or.inl h)))
    · exact Or.inl (Or.inr (Or.inr (Or.inr h)))
theorem Fields.resolved_toStr (types : List NamedType) (ids : Str → Option Int) (nm : Bool) (fs gs : Fields) (s : Str)
    (h : fs.resolveType types = .ok gs) (hs : fs.toStr ids nm = .ok s) :
    ∃ s', gs.toStr ids nm = .ok s' ∧ ∀ c ∈ s', c ∈ s ∨ c.toNat < 128 := by
  match fs with
  | .nil =>
    simp only [Fields.resolveType, Except.ok.injEq] at h
    subst h
    exact ⟨s, hs, fun c hc => Or.inl hc⟩
  | .cons n e r =>
    simp only [Fields.resolveType, bind_ok_iff, Except.ok.injEq] at h
    obtain ⟨e', he, r', hr, rfl⟩ := h
    simp only [Fields.toStr, bind_ok_iff, Except.ok.injEq] at hs
    obtain ⟨u, hu, v, hv, rfl⟩ := hs
    obtain ⟨u', h1, h2⟩ := Elem.resolved_toStr types ids nm e e' u he hu
    obtain ⟨v', h3, h4⟩ := Fields.resolved_toStr types ids nm r r' v hr hv
    refine ⟨'"' :: (nameStr n ++ ('"' :: (u' ++ v'))), by simp only [Fields.toStr, h1, h3, ok_bind], ?_⟩
    intro c hc
    simp only [List.mem_cons, List.mem_append] at hc ⊢
    rcases hc with h | h | h | h | h
    · exact Or.inl (Or.inl h)
    · exact Or.inl (Or.inr (Or.inl h))
    · exact Or.inl (Or.inr (Or.inr (Or.inl h)))
    · rcases h2 c h with h | h
      · exact Or.inl (Or.inr (Or.inr (Or.inr (Or.inl h))))
      · exact Or.inr h
    · rcases h4 c h with h | h
      · exact Or.inl (Or.inr (Or.inr (Or.inr (Or.inr h))))
      · exact Or.inr h
end

/-! ### Ports -/

theorem resolveInPlace_ok {types : List NamedType} {p q : Port} (h : resolveInPlace types p = .ok q) :
    ∃ e, p.elem.resolveType types = .ok e ∧ q = { p with elem := e } ∧ resolveInPlace types q = .ok q := by
  simp only [resolveInPlace, bind_ok_iff, Except.ok.injEq] at h
  obtain ⟨e, he, rfl⟩ := h
  refine ⟨e, he, rfl, ?_⟩
  simp [resolveInPlace, Elem.resolve_again types _ _ he]

/-- Laying out ports resolves them, and laying out the resolved ports gives the same. -/
theorem addPorts_again {d : Dir} {types : List NamedType} (ps : List Port) (s s' : PortLayout)
    (h : addPorts d types s (ps.map Port.toNPort) = .ok s') :
    ∃ qs, mapPy (resolveInPlace types) ps = .ok qs ∧ mapPy (resolveInPlace types) qs = .ok qs ∧
      addPorts d types s (qs.map Port.toNPort) = .ok s' ∧
      (qs.map Port.toNPort).map outPortValue = (ps.map Port.toNPort).map outPortValue := by
  induction ps generalizing s with
  | nil => exact ⟨[], rfl, rfl, h, rfl⟩
  | cons p ps ih =>
    simp only [List.map_cons, addPorts, bind_ok_iff] at h
    obtain ⟨s1, h1, h2⟩ := h
    obtain ⟨qs, a1, a2, a3, a4⟩ := ih s1 h2
    have he : ∃ e, p.elem.resolveType types = .ok e := by
      unfold addPort at h1
      simp only [bind_ok_iff] at h1
      obtain ⟨_, _, e, he, _⟩ := h1
      exact ⟨e, he⟩
    obtain ⟨e, he⟩ := he
    have hq : addPort d types s (Port.toNPort { p with elem := e }) = addPort d types s p.toNPort := by
      unfold addPort
      simp only [Port.toNPort, he, Elem.resolve_again types _ _ he]
    refine ⟨{ p with elem := e } :: qs, ?_, ?_, ?_, ?_⟩
    · simp [mapPy, resolveInPlace, he, a1]
    · simp [mapPy, resolveInPlace, Elem.resolve_again types _ _ he, a2]
    · simp only [List.map_cons, addPorts, hq, h1, ok_bind, a3]
    · simp only [List.map_cons, a4]
      rfl

theorem port_texts_again {types : List NamedType} (ids : Str → Option Int) (nm : Bool) (side : Side) (ps qs : List Port)
    (h : mapPy (resolveInPlace types) ps = .ok qs) (ls : List Str) (hl : mapPy (Port.toStr ids nm side) ps = .ok ls) :
    ∃ ls', mapPy (Port.toStr ids nm side) qs = .ok ls' ∧ ∀ l ∈ ls', ∀ c ∈ l, (∃ k ∈ ls, c ∈ k) ∨ c.toNat < 128 := by
  induction ps generalizing qs ls with
  | nil =>
    simp only [mapPy, Except.ok.injEq] at h hl
    subst h hl
    exact ⟨[], rfl, by simp⟩
  | cons p ps ih =>
    simp only [mapPy, bind_ok_iff, Except.ok.injEq] at h hl
    obtain ⟨q, hq, qr, hqr, rfl⟩ := h
    obtain ⟨l, hp, lr, hlr, rfl⟩ := hl
    obtain ⟨lr', h1, h2⟩ := ih qr hqr lr hlr
    obtain ⟨e, he, rfl, _⟩ := resolveInPlace_ok hq
    simp only [Port.toStr, bind_ok_iff, Except.ok.injEq] at hp
    obtain ⟨s, hs, rfl⟩ := hp
    obtain ⟨s', h3, h4⟩ := Elem.resolved_toStr types ids nm p.elem e s he hs
    refine ⟨lineText side.letter p.name s' (p.attr.map PortAttr.str) :: lr', ?_, ?_⟩
    · simp [mapPy, Port.toStr, h3, h1]
    · intro x hx c hc
      rcases List.mem_cons.mp hx with rfl | hx
      · have key : ∀ t : Str, ∀ c, c ∈ lineText side.letter p.name t (p.attr.map PortAttr.str) →
            c ∈ t ∨ ∀ u, c ∈ lineText side.letter p.name u (p.attr.map PortAttr.str) := by
          intro t c hc
          generalize p.attr.map PortAttr.str = a at hc ⊢
          cases a with
          | none =>
            simp only [lineText, List.mem_cons, List.mem_append] at hc ⊢
            rcases hc with h | h | h | h | h
            · exact Or.inr fun _ => Or.inl h
            · exact Or.inr fun _ => Or.inr (Or.inl h)
            · exact Or.inr fun _ => Or.inr (Or.inr (Or.inl h))
            · exact Or.inr fun _ => Or.inr (Or.inr (Or.inr (Or.inl h)))
            · exact Or.inl h
          | some a =>
            simp only [lineText, List.mem_cons, List.mem_append] at hc ⊢
            rcases hc with h | h | h | h | h | h | h
            · exact Or.inr fun _ => Or.inl h
            · exact Or.inr fun _ => Or.inr (Or.inl h)
            · exact Or.inr fun _ => Or.inr (Or.inr (Or.inl h))
            · exact Or.inr fun _ => Or.inr (Or.inr (Or.inr (Or.inl h)))
            · exact Or.inl h
            · exact Or.inr fun _ => Or.inr (Or.inr (Or.inr (Or.inr (Or.inr (Or.inl h)))))
            · exact Or.inr fun _ => Or.inr (Or.inr (Or.inr (Or.inr (Or.inr (Or.inr h)))))
        rcases key s' c hc with h | h
        · rcases h4 c h with h | h
          · left
            refine ⟨_, List.mem_cons_self, ?_⟩
            generalize p.attr.map PortAttr.str = a
            cases a <;> simp [lineText, h]
          · exact Or.inr h
        · exact Or.inl ⟨_, List.mem_cons_self, h s⟩
      · rcases h2 x hx c hc with ⟨k, hk, h⟩ | h
        · exact Or.inl ⟨k, List.mem_cons_of_mem _ hk, h⟩
        · exact Or.inr h

/-! ### Texts -/

theorem joinLines_chars (ls : List Str) (c : Char) : c ∈ joinLines ls → (∃ l ∈ ls, c ∈ l) ∨ c = '\n' := by
  match ls with
  | [] => simp [joinLines]
  | [l] => intro h; exact Or.inl ⟨l, by simp, h⟩
  | l :: m :: r =>
    intro h
    simp only [joinLines, List.mem_append, List.mem_cons] at h
    rcases h with h | h | h
    · exact Or.inl ⟨l, by simp, h⟩
    · exact Or.inr h
    · rcases joinLines_chars (m :: r) c h with ⟨k, hk, hc⟩ | h
      · exact Or.inl ⟨k, List.mem_cons_of_mem _ hk, hc⟩
      · exact Or.inr h

theorem mem_joined (ls : List Str) (l : Str) (hl : l ∈ ls) (c : Char) (hc : c ∈ l) : c ∈ joinLines ls := by
  match ls with
  | [] => cases hl
  | [k] => simp only [List.mem_singleton] at hl; subst hl; exact hc
  | k :: m :: r =>
    simp only [joinLines, List.mem_append, List.mem_cons]
    rcases List.mem_cons.mp hl with rfl | hl
    · exact Or.inl hc
    · exact Or.inr (Or.inr (mem_joined (m :: r) l hl c hc))

theorem asciiEncode_all (s : Str) (h : ∀ c ∈ s, c.toNat < 128) : ∃ b, asciiEncode s = .ok b := by
  induction s with
  | nil => exact ⟨[], rfl⟩
  | cons c s ih =>
    obtain ⟨b, hb⟩ := ih (fun x hx => h x (by simp [hx]))
    exact ⟨_, by simp only [asciiEncode]; rw [if_pos (h c (by simp)), hb]; rfl⟩

theorem createDefinitionFile_all (text : Str) (h : ∀ c ∈ text, c.toNat < 128) : ∃ f, createDefinitionFile text = .ok f := by
  obtain ⟨b, hb⟩ := asciiEncode_all text h
  refine ⟨((FileData.mk (List.replicate text.length 0)).write 0 b).1, ?_⟩
  unfold createDefinitionFile FileData.create
  rw [if_neg (by omega), hb]
  rfl

theorem definitionText_again {n : Node} {text : Str} (ht : n.definitionText false = .ok text) (ha : ∀ c ∈ text, c.toNat < 128)
    (r p : List Port) (hr : mapPy (resolveInPlace n.named) n.requires = .ok r)
    (hp : mapPy (resolveInPlace n.named) n.provides = .ok p) :
    ∃ text', ({ n with requires := r, provides := p } : Node).definitionText false = .ok text' ∧ ∀ c ∈ text', c.toNat < 128 := by
  simp only [Node.definitionText, Node.lines, bind_ok_iff, Except.ok.injEq] at ht
  obtain ⟨_, ⟨tl, h1, pl, h2, rl, h3, rfl⟩, rfl⟩ := ht
  obtain ⟨pl', g2, k2⟩ := port_texts_again n.ids false .provide n.provides p hp pl h2
  obtain ⟨rl', g3, k3⟩ := port_texts_again n.ids false .require n.requires r hr rl h3
  have hids : ({ n with requires := r, provides := p } : Node).ids = n.ids := rfl
  have hall : ∀ l, (l = headerText ∨ l = 'N' :: '"' :: (n.name ++ ['"']) ∨ l ∈ tl ∨ l ∈ pl ∨ l ∈ rl) → ∀ c ∈ l, c.toNat < 128 := by
    intro l hl c hc
    apply ha
    apply List.mem_append_left
    apply mem_joined _ l _ c hc
    rcases hl with rfl | rfl | h | h | h <;> simp [*]
  refine ⟨joinLines (headerText :: (('N' :: '"' :: (n.name ++ ['"'])) :: (tl ++ pl' ++ rl'))) ++ ['\n'],
    by simp only [Node.definitionText, Node.lines, hids, h1, g2, g3, ok_bind], ?_⟩
  intro c hc
  rcases List.mem_append.mp hc with hc | hc
  · rcases joinLines_chars _ c hc with ⟨l, hl, hcl⟩ | rfl
    · simp only [List.mem_cons, List.mem_append] at hl
      rcases hl with h | h | (h | h) | h
      · exact hall l (Or.inl h) c hcl
      · exact hall l (Or.inr (Or.inl h)) c hcl
      · exact hall l (Or.inr (Or.inr (Or.inl h))) c hcl
      · rcases k2 l h c hcl with ⟨k, hk, hck⟩ | h
        · exact hall k (Or.inr (Or.inr (Or.inr (Or.inl hk)))) c hck
        · exact h
      · rcases k3 l h c hcl with ⟨k, hk, hck⟩ | h
        · exact hall k (Or.inr (Or.inr (Or.inr (Or.inr hk)))) c hck
        · exact h
    · decide
  · simp only [List.mem_singleton] at hc
    subst hc
    decide

end Apx
