import Verif.Props.Parser

/-! Printing a node and loading the text (C47). -/

namespace Apx

/-! ### Printed signatures -/

/-- A character that cuts a line. -/
def IsCut (c : Char) : Prop := c = ':' ∨ c = '#' ∨ c = '\n'

theorem intStr_no_cut (v : Int) (c : Char) (h : IsCut c) : c ∉ intStr v := by
  apply intStr_not_mem
  rcases h with rfl | rfl | rfl <;> decide

theorem rangeStr_no_cut (a b : Option Int) (c : Char) (h : IsCut c) : c ∉ rangeStr a b := by
  have hi := fun v => intStr_no_cut v c h
  cases a <;> cases b <;> simp only [rangeStr] <;> try simp
  rcases h with rfl | rfl | rfl <;> simp [hi]

theorem arrayStr_no_cut (a : Option Nat) (c : Char) (h : IsCut c) : c ∉ arrayStr a := by
  have hi := fun v => intStr_no_cut v c h
  cases a <;> simp only [arrayStr] <;> try simp
  rcases h with rfl | rfl | rfl <;> simp [hi]

theorem clean_no_cut {n : Str} (h : ':' ∉ n ∧ '#' ∉ n ∧ '\n' ∉ n) (c : Char) (hc : IsCut c) : c ∉ n := by
  rcases hc with rfl | rfl | rfl
  · exact h.1
  · exact h.2.1
  · exact h.2.2

mutual
theorem Elem.toStr_no_cut (ids : Str → Option Int) (nm : Bool) (e : Elem) (hc : e.Clean) (hw : e.WellFormed) (s : Str)
    (h : e.toStr ids nm = .ok s) (c : Char) (hcut : IsCut c) : c ∉ s := by
  have hi := fun v => intStr_no_cut v c hcut
  match e with
  | .prim tc mn mx a =>
    simp only [Elem.toStr, Except.ok.injEq] at h
    subst h
    have h1 := rangeStr_no_cut mn mx c hcut
    have h2 := arrayStr_no_cut a c hcut
    have h3 : c ≠ tc.letter := by rcases hcut with rfl | rfl | rfl <;> cases tc <;> decide
    simp [h1, h2, h3]
  | .record fs a =>
    simp only [Elem.toStr, bind_ok_iff, Except.ok.injEq] at h
    obtain ⟨t, h1, rfl⟩ := h
    have := Fields.toStr_no_cut ids nm fs hc hw.2 t h1 c hcut
    have h2 := arrayStr_no_cut a c hcut
    rcases hcut with rfl | rfl | rfl <;> simp [this, h2]
  | .refId _ => simp [Elem.toStr] at h
  | .refName n =>
    have hn := clean_no_cut hc c hcut
    simp only [Elem.toStr, Except.ok.injEq] at h
    subst h
    rcases hcut with rfl | rfl | rfl <;> simp [hn]
  | .refType n t =>
    have hn := clean_no_cut hc c hcut
    simp only [Elem.toStr] at h
    split at h <;> simp only [Except.ok.injEq] at h <;> subst h <;> rcases hcut with rfl | rfl | rfl <;> simp [hn, hi]
theorem Fields.toStr_no_cut (ids : Str → Option Int) (nm : Bool) (fs : Fields) (hc : fs.Clean) (hw : fs.WellFormed)
    (s : Str) (h : fs.toStr ids nm = .ok s) (c : Char) (hcut : IsCut c) : c ∉ s := by
  match fs with
  | .nil => simp only [Fields.toStr, Except.ok.injEq] at h; subst h; simp
  | .cons n e r =>
    simp only [Fields.toStr, bind_ok_iff, Except.ok.injEq] at h
    obtain ⟨t, h1, u, h2, rfl⟩ := h
    have i1 := Elem.toStr_no_cut ids nm e hc.2.1 hw.2.1 t h1 c hcut
    have i2 := Fields.toStr_no_cut ids nm r hc.2.2 hw.2.2 u h2 c hcut
    obtain ⟨m, rfl, _⟩ := hw.1
    have hn := clean_no_cut (hc.1 m rfl) c hcut
    have hq : c ≠ '"' := by rcases hcut with rfl | rfl | rfl <;> decide
    simp [nameStr, i1, i2, hn, hq]
end

/-- The last character is not a blank. -/
def EndsWell (s : Str) : Prop := ∃ a x, s = a ++ [x] ∧ isTrail x = false

theorem EndsWell.append {a b : Str} (h : EndsWell b) : EndsWell (a ++ b) := by
  obtain ⟨c, x, rfl, hx⟩ := h
  exact ⟨a ++ c, x, by simp, hx⟩

theorem EndsWell.cons {c : Char} {b : Str} (h : EndsWell b) : EndsWell (c :: b) := EndsWell.append (a := [c]) h

theorem endsWell_one (x : Char) (h : isTrail x = false) : EndsWell [x] := ⟨[], x, rfl, h⟩

theorem arrayStr_ends (a : Option Nat) : arrayStr a = [] ∨ EndsWell (arrayStr a) := by
  cases a with
  | none => left; rfl
  | some n => right; exact (EndsWell.append (endsWell_one ']' (by decide))).cons

theorem rangeStr_ends (a b : Option Int) : rangeStr a b = [] ∨ EndsWell (rangeStr a b) := by
  cases a <;> cases b <;> first
    | exact Or.inl rfl
    | exact Or.inr (EndsWell.append (EndsWell.append (endsWell_one ')' (by decide))).cons).cons

theorem Elem.toStr_ends (ids : Str → Option Int) (nm : Bool) (e : Elem) (s : Str)
    (h : e.toStr ids nm = .ok s) : EndsWell s := by
  cases e with
  | prim tc mn mx a =>
    simp only [Elem.toStr, Except.ok.injEq] at h
    subst h
    rcases arrayStr_ends a with ha | ha
    · rw [ha, List.append_nil]
      rcases rangeStr_ends mn mx with hr | hr
      · rw [hr]; exact endsWell_one _ (by cases tc <;> decide)
      · exact hr.cons
    · exact ha.append.cons
  | record fs a =>
    simp only [Elem.toStr, bind_ok_iff, Except.ok.injEq] at h
    obtain ⟨t, _, rfl⟩ := h
    rcases arrayStr_ends a with ha | ha
    · rw [ha]; exact (EndsWell.append (endsWell_one '}' (by decide))).cons
    · exact ha.cons.append.cons
  | refId _ => simp [Elem.toStr] at h
  | refName n =>
    simp only [Elem.toStr, Except.ok.injEq] at h
    subst h
    exact (EndsWell.append (EndsWell.cons (endsWell_one ']' (by decide)))).cons.cons.cons
  | refType n t =>
    simp only [Elem.toStr] at h
    split at h <;> simp only [Except.ok.injEq] at h <;> subst h
    · exact (EndsWell.append (endsWell_one ']' (by decide))).cons.cons
    · exact (EndsWell.append (EndsWell.cons (endsWell_one ']' (by decide)))).cons.cons.cons

theorem attr_ends {a : Str} (h : AttrOk a) : EndsWell (':' :: a) := by
  rcases List.eq_nil_or_concat a with rfl | ⟨b, x, rfl⟩
  · exact endsWell_one _ (by decide)
  · rw [List.concat_eq_append] at h ⊢
    refine (EndsWell.append (endsWell_one x ?_)).cons
    obtain ⟨_, h2, h3, h4⟩ := h
    have h2 : x ≠ '\n' := by rintro rfl; simp at h2
    simp only [List.getLast?_append, List.getLast?_singleton, Option.some_or, ne_eq, Option.some.injEq] at h3 h4
    simp [isTrail, h2, h3, h4]

/-! ### Printed lines -/

theorem rstrip_endsWell {s : Str} (h : EndsWell s) : rstripP isTrail s = s := by
  obtain ⟨a, x, rfl, hx⟩ := h
  exact rstripP_inside isTrail a [] x hx

theorem splitLine_printed (s : Str) (h1 : '\n' ∉ s) (h2 : '#' ∉ s) (h3 : EndsWell s) :
    splitLine s = splitMeaning s := by
  unfold splitLine
  rw [stripComment_line s h1, takeWhile_append_nil s h2, rstrip_endsWell h3]
  rfl
where
  takeWhile_append_nil (s : Str) (h : '#' ∉ s) : s.takeWhile (· != '#') = s := by
    have := takeWhile_append_all (· != '#') s [] (by intro x hx; simp; rintro rfl; exact h hx)
    simpa using this

theorem splitRest_printed (k : Str) (name s : Str) (attr : Option Str) (hn : '"' ∉ name) (hs : s ≠ []) (hc : ':' ∉ s) :
    splitRest k ('"' :: (name ++ '"' :: (s ++ (attr.elim [] (':' :: ·))))) = .full k (some name) s attr := by
  have hm : ∀ t, parseStr ('"' :: (name ++ '"' :: t)) = (some name, t) := fun t => matchPair_simple '"' '"' name t hn hn
  unfold splitRest
  rw [hm]
  simp only
  have hlen : (s ++ (attr.elim [] (':' :: ·))).length > 0 := by
    cases s with
    | nil => exact absurd rfl hs
    | cons c s => simp
  rw [if_pos hlen]
  have hp : ∀ x ∈ s, (x != ':') = true := by intro x hx; simp; rintro rfl; exact hc hx
  cases attr with
  | none =>
    simp only [Option.elim_none, List.append_nil]
    have h1 := takeWhile_append_all (· != ':') s [] hp
    simp only [List.append_nil, List.takeWhile_nil] at h1
    have h2 : s.dropWhile (· != ':') = [] := by
      simpa using List.dropWhile_append_of_pos (l₂ := []) hp
    rw [h1, h2]
  | some a =>
    simp only [Option.elim_some]
    rw [takeWhile_append_all _ _ _ hp, List.dropWhile_append_of_pos hp]
    simp

theorem splitLine_lineText (k : Char) (name s : Str) (attr : Option Str) (hk : isLineType k = true) (hk' : k ≠ '#' ∧ k ≠ '\n')
    (hn : NameOk name)
    (hs : EndsWell s) (hc : ∀ c, IsCut c → c ∉ s) (ha : ∀ a, attr = some a → AttrOk a) :
    splitLine (lineText k name s attr) = .full [k] (some name) s attr ∧ '\n' ∉ lineText k name s attr := by
  have he : lineText k name s attr = k :: ('"' :: (name ++ '"' :: (s ++ (attr.elim [] (':' :: ·))))) := by
    cases attr <;> simp [lineText]
  have hne : s ≠ [] := by obtain ⟨a, x, rfl, _⟩ := hs; simp
  have hmem : ∀ c, (c = '#' ∨ c = '\n') → c ∉ lineText k name s attr := by
    intro c hcc
    have h1 := hc c (Or.inr hcc)
    have h2 : c ∉ name := by
      rcases hcc with rfl | rfl
      · exact hn.2.1
      · exact hn.2.2
    have h3 : c ≠ k := by
      rcases hcc with rfl | rfl
      · exact hk'.1.symm
      · exact hk'.2.symm
    have h4 : c ≠ '"' ∧ c ≠ ':' := by rcases hcc with rfl | rfl <;> decide
    rw [he]
    cases attr with
    | none => simp [h1, h2, h3, h4]
    | some a =>
      have h5 : c ∉ a := by
        rcases hcc with rfl | rfl
        · exact (ha a rfl).1
        · exact (ha a rfl).2.1
      simp [h1, h2, h3, h4, h5]
  have hends : EndsWell (lineText k name s attr) := by
    rw [he]
    refine EndsWell.cons (EndsWell.cons (EndsWell.append (EndsWell.cons ?_)))
    cases attr with
    | none => simpa using hs
    | some a => exact (attr_ends (ha a rfl)).append
  refine ⟨?_, hmem _ (Or.inr rfl)⟩
  rw [splitLine_printed _ (hmem _ (Or.inr rfl)) (hmem _ (Or.inl rfl)) hends, he]
  unfold splitMeaning
  have hq : isLineType '"' = false := by decide
  simp only [List.length_cons, Nat.add_one_ne_zero, if_false, List.takeWhile_cons, hk, if_true, hq, List.dropWhile_cons,
    List.isEmpty_cons, Bool.false_eq_true]
  exact splitRest_printed [k] name s attr hn.1 hne (hc ':' (Or.inl rfl))

theorem splitLine_node (name : Str) (hn : NameOk name) :
    splitLine ('N' :: '"' :: (name ++ ['"'])) = .short ['N'] (some name) ∧ '\n' ∉ ('N' :: '"' :: (name ++ ['"'])) := by
  have h1 : '\n' ∉ ('N' :: '"' :: (name ++ ['"'])) := by simp [hn.2.2]
  have h2 : '#' ∉ ('N' :: '"' :: (name ++ ['"'])) := by simp [hn.2.1]
  refine ⟨?_, h1⟩
  rw [splitLine_printed _ h1 h2 (EndsWell.append (endsWell_one '"' (by decide))).cons.cons]
  unfold splitMeaning
  have hq : isLineType '"' = false := by decide
  have hN : isLineType 'N' = true := by decide
  simp only [List.length_cons, Nat.add_one_ne_zero, if_false, List.takeWhile_cons, hN, if_true, hq, List.dropWhile_cons,
    List.isEmpty_cons, Bool.false_eq_true]
  unfold splitRest
  have := matchPair_simple '"' '"' name [] hn.1 hn.1
  unfold parseStr
  rw [this]
  simp

/-! ### Types -/

theorem nodup_index {l : List Str} (h : l.Nodup) {i j : Nat} {x : Str} (hi : l[i]? = some x) (hj : l[j]? = some x) : i = j :=
  (List.getElem?_inj (List.getElem?_eq_some_iff.mp hi).1 h).mp (hi.trans hj.symm)

/-- In the types before a given one, references are found by name and by number. -/
theorem resolvedIn_prefix {n : Node} (hi : NodeInv n) (pre post : List TypeObj) (ht : n.types = pre ++ post)
    (m : Str) (t : Elem) (h : (⟨m, t⟩ : NamedType) ∈ pre.map TypeObj.named) :
    (Elem.refType m t).ResolvedIn (pre.map TypeObj.named) n.ids := by
  have hsub : ∀ x ∈ pre.map TypeObj.named, x ∈ n.named := by
    intro x hx
    unfold Node.named
    rw [ht, List.map_append]
    exact List.mem_append_left _ hx
  obtain ⟨h1, _, h3⟩ := nodeInv_resolvedIn hi m t (hsub _ h)
  refine ⟨fun u hu => h1 u (hsub u hu), h, ?_⟩
  intro i hid
  obtain ⟨h0, hg⟩ := h3 i hid
  refine ⟨h0, ?_⟩
  obtain ⟨j, hj⟩ := List.getElem?_of_mem h
  have hjl := (List.getElem?_eq_some_iff.mp hj).1
  have hnm : n.types.map TypeObj.name = n.named.map NamedType.name := by
    unfold Node.named; rw [List.map_map]; rfl
  have hj' : n.named[j]? = some ⟨m, t⟩ := by
    unfold Node.named
    rw [ht, List.map_append, List.getElem?_append_left hjl, hj]
  have : i.toNat = j := nodup_index (x := m) hi.names (by rw [hnm]; simp [hg]) (by rw [hnm]; simp [hj'])
  rw [this, hj]

mutual
theorem Elem.resolvedIn_of (types : List NamedType) (ids : Str → Option Int)
    (h : ∀ m t, (⟨m, t⟩ : NamedType) ∈ types → (Elem.refType m t).ResolvedIn types ids) (e : Elem)
    (he : e.RefsIn types) : e.ResolvedIn types ids := by
  match e with
  | .prim _ _ _ _ => trivial
  | .record fs _ => exact Fields.resolvedIn_of types ids h fs he
  | .refId _ => exact he.elim
  | .refName _ => exact he.elim
  | .refType m t => exact h m t he
theorem Fields.resolvedIn_of (types : List NamedType) (ids : Str → Option Int)
    (h : ∀ m t, (⟨m, t⟩ : NamedType) ∈ types → (Elem.refType m t).ResolvedIn types ids) (fs : Fields)
    (he : fs.RefsIn types) : fs.ResolvedIn types ids := by
  match fs with
  | .nil => trivial
  | .cons _ e r => exact ⟨Elem.resolvedIn_of types ids h e he.1, Fields.resolvedIn_of types ids h r he.2⟩
end

/-- A type as it is loaded: without number. -/
def TypeObj.fresh (t : TypeObj) : TypeObj := { t with id := none }

theorem fresh_named (l : List TypeObj) : (l.map TypeObj.fresh).map TypeObj.named = l.map TypeObj.named := by
  rw [List.map_map]; rfl

theorem fresh_name (l : List TypeObj) : (l.map TypeObj.fresh).map TypeObj.name = l.map TypeObj.name := by
  rw [List.map_map]; rfl

/-- What is asked of a type to be written. -/
def TypeObj.Writable (t : TypeObj) : Prop :=
  NameOk t.name ∧ t.elem.WellFormed ∧ t.elem.Clean ∧ t.shortName = none ∧ ∀ a, t.attr = some a → AttrOk a.str

theorem type_line {n : Node} (hi : NodeInv n) (pre post : List TypeObj) (t : TypeObj) (ht : n.types = pre ++ t :: post)
    (ho : t.elem.RefsIn (pre.map TypeObj.named)) (hw : t.Writable) (nm : Bool) :
    ∃ l, t.toStr n.ids nm = .ok l ∧ '\n' ∉ l ∧ ∀ m cs, m.types = pre.map TypeObj.fresh → (cs = .node ∨ cs = .type) →
      Parser.processLine ⟨some m, cs⟩ l = (⟨some { m with types := (pre ++ [t]).map TypeObj.fresh }, .type⟩, .ok ()) := by
  obtain ⟨hw1, hw2, hw3, hw4, hw5⟩ := hw
  have htm : t ∈ n.types := by rw [ht]; simp
  obtain ⟨s, h1, h2⟩ := Elem.parse_toStr_data n.ids nm t.elem hw2
  obtain ⟨hl, hnl⟩ := splitLine_lineText 'T' t.name s (t.attr.map TypeAttr.str) (by decide) (by decide) hw1
    (Elem.toStr_ends _ _ _ _ h1) (fun c hc => Elem.toStr_no_cut n.ids nm t.elem hw3 hw2 s h1 c hc)
    (by
      intro a ha
      rw [Option.map_eq_some_iff] at ha
      obtain ⟨b, hb, rfl⟩ := ha
      exact hw5 b hb)
  refine ⟨lineText 'T' t.name s (t.attr.map TypeAttr.str), ?_, hnl, ?_⟩
  · simp [TypeObj.toStr, h1, hw4]
  intro m cs hm hcs
  have ha : optArg typeAttribute (t.attr.map TypeAttr.str) = .ok t.attr := by
    cases hpa : t.attr with
    | none => rfl
    | some a => simp [optArg, hi.tattr t htm a hpa]
  have hmk : mkType t.name s (t.attr.map TypeAttr.str) = .ok ⟨t.name, t.elem.asWritten n.ids nm, t.attr, none, none⟩ := by
    simp [mkType, h2, ha]
  have hmn : m.named = pre.map TypeObj.named := by unfold Node.named; rw [hm, fresh_named]
  have hnone : m.typeNamed t.name = none := by
    unfold Node.typeNamed
    rw [List.find?_eq_none]
    intro u hu
    simp only [decide_eq_true_eq]
    intro heq
    have hmem : t.name ∈ pre.map TypeObj.name := by
      rw [← heq, ← fresh_name, ← hm]
      exact List.mem_map.mpr ⟨u, hu, rfl⟩
    have hnd := hi.names
    rw [ht, List.map_append, List.map_cons] at hnd
    rw [List.nodup_append] at hnd
    exact hnd.2.2 _ hmem _ (by simp) rfl
  obtain ⟨d, hd⟩ := hi.data t htm
  have hres := Elem.resolve_asWritten (pre.map TypeObj.named) n.ids nm t.elem
    (Elem.resolvedIn_of _ _ (fun x y hxy => resolvedIn_prefix hi pre (t :: post) ht x y hxy) _ ho)
  have hadd : m.addType ⟨t.name, t.elem.asWritten n.ids nm, t.attr, none, none⟩ =
      .ok ({ m with types := (pre ++ [t]).map TypeObj.fresh }, t.fresh) := by
    unfold Node.addType
    simp only [hnone, resolveDsg, hmn, hres, ok_bind, hd]
    simp [TypeObj.fresh, hm, hw4]
  unfold Parser.processLine
  rw [hl]
  have key : ∀ cs', Parser.typeLine ⟨some m, cs'⟩ (.full ['T'] (some t.name) s (t.attr.map TypeAttr.str)) =
      (⟨some { m with types := (pre ++ [t]).map TypeObj.fresh }, cs'⟩, .ok ()) := by
    intro cs'
    unfold Parser.typeLine
    simp only [Line.args, lineName, Option.getD_some, ok_bind, hmk, hadd]
  unfold Parser.processParts
  rw [if_neg (by simp)]
  rcases hcs with rfl | rfl
  · simp only [Line.kind, if_true, key]
  · simp only [Line.kind, if_true, key]

theorem type_lines {n : Node} (hi : NodeInv n) (ho : n.Ordered) (hw : ∀ t ∈ n.types, t.Writable) (nm : Bool)
    (todo pre : List TypeObj) (ht : n.types = pre ++ todo) :
    ∃ ls, mapPy (TypeObj.toStr n.ids nm) todo = .ok ls ∧ OneLiners ls ∧
      ∀ m cs, m.types = pre.map TypeObj.fresh → (cs = .node ∨ cs = .type) →
        ∃ cs', (cs' = .node ∨ cs' = .type) ∧
          Parser.processLines ⟨some m, cs⟩ ls = (⟨some { m with types := n.types.map TypeObj.fresh }, cs'⟩, .ok ()) := by
  induction todo generalizing pre with
  | nil =>
    refine ⟨[], rfl, by intro l hl; simp at hl, ?_⟩
    intro m cs hm hcs
    refine ⟨cs, hcs, ?_⟩
    rw [List.append_nil] at ht
    rw [ht, ← hm]; rfl
  | cons t todo ih =>
    obtain ⟨ls, h1, h2, h3⟩ := ih (pre ++ [t]) (by rw [ht]; simp)
    have hro : t.elem.RefsIn (pre.map TypeObj.named) := by
      have := ho pre.length t (by rw [ht]; simp)
      rw [ht] at this
      simpa using this
    obtain ⟨l, h4, h5, h6⟩ := type_line hi pre todo t ht hro (hw t (by rw [ht]; simp)) nm
    refine ⟨l :: ls, by simp [mapPy, h4, h1], ?_, ?_⟩
    · intro x hx
      rcases List.mem_cons.mp hx with rfl | hx
      · exact h5
      · exact h2 x hx
    · intro m cs hm hcs
      simp only [Parser.processLines, h6 m cs hm hcs]
      exact h3 { m with types := (pre ++ [t]).map TypeObj.fresh } .type rfl (Or.inr rfl)

/-! ### Ports -/

/-- The section of a port line. -/
def Side.section : Side → Section
  | .require => .require
  | .provide => .provide

/-- What is asked of a port to be written. -/
def Port.Writable (p : Port) : Prop :=
  NameOk p.name ∧ p.elem.WellFormed ∧ p.elem.Clean ∧ ∀ a, p.attr = some a → AttrOk a.str

theorem port_line {n : Node} (hi : NodeInv n) (p : Port) (hp : PortInv n.named p) (hw : p.Writable) (nm : Bool) (side : Side) :
    ∃ l, p.toStr n.ids nm side = .ok l ∧ '\n' ∉ l ∧ ∀ m cs, m.named = n.named → cs ≠ .start →
      Parser.processLine ⟨some m, cs⟩ l =
        (⟨some (m.setPorts side (m.ports side ++ [{ p with id := some (m.ports side).length }])), side.section⟩, .ok ()) := by
  obtain ⟨hw1, hw2, hw3, hw5⟩ := hw
  obtain ⟨s, c, h1, h2, _, _, _, _, h3⟩ := reparse_port hi p hp hw2 nm
  obtain ⟨hl, hnl⟩ := splitLine_lineText side.letter p.name s (p.attr.map PortAttr.str) (by cases side <;> decide)
    (by cases side <;> decide) hw1
    (Elem.toStr_ends _ _ _ _ h1) (fun c hc => Elem.toStr_no_cut n.ids nm p.elem hw3 hw2 s h1 c hc)
    (by
      intro a ha
      rw [Option.map_eq_some_iff] at ha
      obtain ⟨b, hb, rfl⟩ := ha
      exact hw5 b hb)
  refine ⟨lineText side.letter p.name s (p.attr.map PortAttr.str), ?_, hnl, ?_⟩
  · simp [Port.toStr, h1]
  intro m cs hm hcs
  have hadd : m.addPort side c = .ok (m.setPorts side (m.ports side ++ [{ p with id := some (m.ports side).length }]),
      { p with id := some (m.ports side).length }) := by
    have : resolvePort n.named { c with id := some (m.ports side).length } =
        .ok { p with id := some (m.ports side).length } := by
      unfold resolvePort at h3 ⊢
      simp only
      split at h3
      · rename_i hr
        rw [if_pos hr]
        rw [bind_ok_iff] at h3
        obtain ⟨e, he, h3⟩ := h3
        simp only [Except.ok.injEq] at h3
        have := congrArg (fun q : Port => { q with id := some (m.ports side).length }) h3
        simp only at this
        rw [he, ok_bind, this]
      · rename_i hr
        rw [if_neg hr]
        simp only [Except.ok.injEq] at h3
        rw [h3]
    unfold Node.addPort
    rw [hm, this]
    rfl
  have key : ∀ cs', Parser.portLine ⟨some m, cs'⟩ side (.full [side.letter] (some p.name) s (p.attr.map PortAttr.str)) =
      (⟨some (m.setPorts side (m.ports side ++ [{ p with id := some (m.ports side).length }])), cs'⟩, .ok ()) := by
    intro cs'
    unfold Parser.portLine
    simp only [Line.args, lineName, Option.getD_some, ok_bind, h2, hadd]
  unfold Parser.processLine
  rw [hl]
  unfold Parser.processParts
  rw [if_neg (by simp)]
  cases side <;> cases cs <;> first
    | exact absurd rfl hcs
    | simp only [Side.letter] at key ⊢; simp [Line.kind, key, Side.section]

/-- Ports as they are loaded: numbered by position. -/
def numbered (k : Nat) : List Port → List Port
  | [] => []
  | p :: ps => { p with id := some k } :: numbered (k + 1) ps

theorem numbered_content (k : Nat) (ps : List Port) : (numbered k ps).map Port.content = ps.map Port.content := by
  induction ps generalizing k with
  | nil => rfl
  | cons p ps ih => simp [numbered, ih, Port.content]

theorem numbered_mem (k : Nat) (ps : List Port) : ∀ q ∈ numbered k ps, ∃ p ∈ ps, ∃ i, q = { p with id := i } := by
  induction ps generalizing k with
  | nil => simp [numbered]
  | cons p ps ih =>
    intro q hq
    simp only [numbered, List.mem_cons] at hq
    rcases hq with rfl | hq
    · exact ⟨p, by simp, _, rfl⟩
    · obtain ⟨r, hr, i, e⟩ := ih _ q hq
      exact ⟨r, by simp [hr], i, e⟩

theorem port_lines {n : Node} (hi : NodeInv n) (nm : Bool) (side : Side) (ps : List Port)
    (hp : ∀ p ∈ ps, PortInv n.named p) (hw : ∀ p ∈ ps, p.Writable) :
    ∃ ls, mapPy (Port.toStr n.ids nm side) ps = .ok ls ∧ OneLiners ls ∧
      ∀ m cs, m.named = n.named → cs ≠ .start → ∃ cs', cs' ≠ .start ∧
        Parser.processLines ⟨some m, cs⟩ ls =
          (⟨some (m.setPorts side (m.ports side ++ numbered (m.ports side).length ps)), cs'⟩, .ok ()) := by
  induction ps with
  | nil =>
    refine ⟨[], rfl, by intro l hl; simp at hl, ?_⟩
    intro m cs hm hcs
    refine ⟨cs, hcs, ?_⟩
    have : m.setPorts side (m.ports side ++ numbered (m.ports side).length []) = m := by
      cases side <;> simp [numbered, Node.setPorts, Node.ports]
    rw [this]; rfl
  | cons p ps ih =>
    obtain ⟨ls, h1, h2, h3⟩ := ih (fun q hq => hp q (by simp [hq])) (fun q hq => hw q (by simp [hq]))
    obtain ⟨l, h4, h5, h6⟩ := port_line hi p (hp p (by simp)) (hw p (by simp)) nm side
    refine ⟨l :: ls, by simp [mapPy, h4, h1], ?_, ?_⟩
    · intro x hx
      rcases List.mem_cons.mp hx with rfl | hx
      · exact h5
      · exact h2 x hx
    · intro m cs hm hcs
      simp only [Parser.processLines, h6 m cs hm hcs]
      obtain ⟨cs', hcs', h7⟩ := h3 (m.setPorts side (m.ports side ++ [{ p with id := some (m.ports side).length }]))
        side.section (by rw [setPorts_named, hm]) (by cases side <;> simp [Side.section])
      refine ⟨cs', hcs', ?_⟩
      rw [h7]
      congr 3
      cases side <;> simp [Node.setPorts, Node.ports, numbered]

/-! ### The whole text -/

/-- The node that loading the text of `n` gives. -/
def Node.reloaded (n : Node) : Node :=
  ⟨n.name, false, n.types.map TypeObj.fresh, numbered 0 n.requires, numbered 0 n.provides⟩

theorem reloaded_same (n : Node) : n.reloaded.SameDefinition n := by
  refine ⟨rfl, ?_, ?_⟩
  · simp only [Node.reloaded, List.map_map]; rfl
  · intro side
    cases side <;> exact numbered_content 0 _

theorem numbered_inv {types : List NamedType} {ps : List Port} (h : ∀ p ∈ ps, PortInv types p) (k : Nat) :
    ∀ p ∈ numbered k ps, PortInv types p := by
  intro q hq
  obtain ⟨p, hp, i, rfl⟩ := numbered_mem k ps q hq
  exact ⟨(h p hp).ref, (h p hp).raw, (h p hp).attr⟩

/-- Printing the lines of a node and loading them. -/
theorem lines_reload {n : Node} (hi : NodeInv n) (ho : n.Ordered) (hw : n.Writable) (nm : Bool) :
    ∃ ls, n.lines nm = .ok ls ∧ ls ≠ [] ∧ OneLiners ls ∧ ∀ o, ∃ cs,
      Parser.processLines ⟨o, .start⟩ ls = (⟨some n.reloaded, cs⟩, .ok ()) := by
  obtain ⟨hn, hnl⟩ := splitLine_node n.name hw.name
  obtain ⟨tl, t1, t2, t3⟩ := type_lines hi ho hw.types false n.types [] rfl
  obtain ⟨pl, p1, p2, p3⟩ := port_lines hi nm .provide n.provides (hi.ports .provide) (hw.ports .provide)
  obtain ⟨rl, r1, r2, r3⟩ := port_lines hi nm .require n.requires (hi.ports .require) (hw.ports .require)
  refine ⟨('N' :: '"' :: (n.name ++ ['"'])) :: (tl ++ pl ++ rl), by simp [Node.lines, t1, p1, r1], by simp, ?_, ?_⟩
  · intro l hl
    rcases List.mem_cons.mp hl with rfl | hl
    · exact hnl
    · rcases List.mem_append.mp hl with hl | hl
      · rcases List.mem_append.mp hl with hl | hl
        · exact t2 l hl
        · exact p2 l hl
      · exact r2 l hl
  · intro o
    have h0 : Parser.processLine ⟨o, .start⟩ ('N' :: '"' :: (n.name ++ ['"'])) =
        (⟨some (Node.new n.name), .node⟩, .ok ()) := by
      unfold Parser.processLine
      rw [hn]
      simp [Parser.processParts, Line.kind, Line.nodeName, lineName]
    obtain ⟨c1, hc1, e1⟩ := t3 (Node.new n.name) .node rfl (Or.inl rfl)
    obtain ⟨c2, hc2, e2⟩ := p3 { Node.new n.name with types := n.types.map TypeObj.fresh } c1
      (by unfold Node.named; exact fresh_named _) (by rcases hc1 with rfl | rfl <;> simp)
    obtain ⟨c3, hc3, e3⟩ := r3 (Node.setPorts { Node.new n.name with types := n.types.map TypeObj.fresh } .provide
      (Node.ports { Node.new n.name with types := n.types.map TypeObj.fresh } .provide ++ numbered
        (Node.ports { Node.new n.name with types := n.types.map TypeObj.fresh } .provide).length n.provides)) c2
      (by rw [setPorts_named]; unfold Node.named; exact fresh_named _) hc2
    refine ⟨c3, ?_⟩
    simp only [Parser.processLines, h0]
    rw [processLines_append, processLines_append, e1]
    simp only [e2, e3]
    simp [Node.reloaded, Node.setPorts, Node.ports, Node.new]

theorem reloaded_finish {n : Node} (hi : NodeInv n) (cs : Section) (x : PyErr) :
    Parser.finish ⟨some n.reloaded, cs⟩ x = (⟨some n.reloaded, cs⟩, .ok n.reloaded) := by
  unfold Parser.finish
  simp only
  rw [resolveTypes_id n.reloaded n.named]
  intro side p hp
  cases side
  · exact numbered_inv (hi.ports .require) 0 p hp
  · exact numbered_inv (hi.ports .provide) 0 p hp

/-- Loading the text of a node, by either function. -/
theorem text_reload {n : Node} (hi : NodeInv n) (ho : n.Ordered) (hw : n.Writable) (nm : Bool) :
    ∃ ls, n.lines nm = .ok ls ∧ ∀ text, text = joinLines (headerText :: ls) ++ ['\n'] → ∀ st : Parser,
      (st.loads text).2 = .ok n.reloaded ∧ (st.load text).2 = .ok n.reloaded := by
  obtain ⟨ls, h1, _, h2, h3⟩ := lines_reload hi ho hw nm
  refine ⟨ls, h1, ?_⟩
  rintro text rfl st
  have hs : splitOn '\n' (joinLines (headerText :: ls) ++ ['\n']) = headerText :: (ls ++ [[]]) := by
    rw [← joinLines_snoc _ (by simp)]
    apply splitOn_joinLines _ (by simp)
    intro l hl
    simp only [List.cons_append, List.mem_cons, List.mem_append, List.not_mem_nil, or_false] at hl
    rcases hl with rfl | hl | rfl
    · decide
    · exact h2 l hl
    · simp
  have e1 : firstLine (joinLines (headerText :: ls) ++ ['\n']) = headerText := by unfold firstLine; rw [hs]; rfl
  have e2 : otherLines (joinLines (headerText :: ls) ++ ['\n']) = ls ++ [[]] := by unfold otherLines; rw [hs]; rfl
  have hv : parseHeaderLine (rstripNewline headerText) = some ('1', '2') := by decide
  obtain ⟨cs, hcs⟩ := h3 st.node
  have hp : Parser.processLines ⟨st.node, .start⟩ (ls ++ [[]]) = (⟨some n.reloaded, cs⟩, .ok ()) := by
    rw [processLines_append, hcs]
    rfl
  constructor
  · rw [loads_eq, e1, e2, hv]
    simp [hp, reloaded_finish hi]
  · rw [load_eq, e1, e2, hv]
    simp [hp, reloaded_finish hi]

end Apx
