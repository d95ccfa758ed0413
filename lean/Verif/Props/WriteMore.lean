import Verif.Props.Filters

/-! C47, C78, C79: ports with references inside a record, for all nodes. -/

namespace Apx

/-! ### What can be written -/

mutual
theorem Elem.toStr_numbers (ids : Str → Option Int) (nm : Bool) : (e : Elem) →
    (e.NoNumbers → ∃ s, e.toStr ids nm = .ok s) ∧ (¬ e.NoNumbers → e.toStr ids nm = .error .runtimeError)
  | .prim _ _ _ _ => ⟨fun _ => ⟨_, rfl⟩, fun h => absurd trivial h⟩
  | .refName _ => ⟨fun _ => ⟨_, rfl⟩, fun h => absurd trivial h⟩
  | .refId _ => ⟨fun h => h.elim, fun _ => rfl⟩
  | .refType m _ => by
    refine ⟨fun _ => ?_, fun h => absurd trivial h⟩
    simp only [Elem.toStr]
    split <;> exact ⟨_, rfl⟩
  | .record fs a => by
    obtain ⟨h1, h2⟩ := Fields.toStr_numbers ids nm fs
    constructor
    · intro h
      obtain ⟨s, hs⟩ := h1 h
      exact ⟨_, by simp only [Elem.toStr, hs, ok_bind]; rfl⟩
    · intro h
      simp only [Elem.toStr, h2 h, error_bind]
theorem Fields.toStr_numbers (ids : Str → Option Int) (nm : Bool) : (fs : Fields) →
    (fs.NoNumbers → ∃ s, fs.toStr ids nm = .ok s) ∧ (¬ fs.NoNumbers → fs.toStr ids nm = .error .runtimeError)
  | .nil => ⟨fun _ => ⟨_, rfl⟩, fun h => absurd trivial h⟩
  | .cons n e r => by
    obtain ⟨h1, h2⟩ := Elem.toStr_numbers ids nm e
    obtain ⟨h3, h4⟩ := Fields.toStr_numbers ids nm r
    constructor
    · rintro ⟨ha, hb⟩
      obtain ⟨s, hs⟩ := h1 ha
      obtain ⟨t, ht⟩ := h3 hb
      exact ⟨_, by simp only [Fields.toStr, hs, ht, ok_bind]; rfl⟩
    · intro h
      by_cases ha : e.NoNumbers
      · obtain ⟨s, hs⟩ := h1 ha
        have hb : ¬ r.NoNumbers := fun hb => h ⟨ha, hb⟩
        simp only [Fields.toStr, hs, h4 hb, ok_bind, error_bind]
      · simp only [Fields.toStr, h2 ha, error_bind]
end

mutual
theorem Elem.RefsIn.numbers {types : List NamedType} : (e : Elem) → e.RefsIn types → e.NoNumbers
  | .prim _ _ _ _, _ => trivial
  | .refName _, h => h.elim
  | .refId _, h => h.elim
  | .refType _ _, _ => trivial
  | .record fs _, h => Fields.RefsIn.numbers fs h
theorem Fields.RefsIn.numbers {types : List NamedType} : (fs : Fields) → fs.RefsIn types → fs.NoNumbers
  | .nil, _ => trivial
  | .cons _ e r, h => ⟨Elem.RefsIn.numbers e h.1, Fields.RefsIn.numbers r h.2⟩
end

theorem Port.toStr_numbers (ids : Str → Option Int) (nm : Bool) (side : Side) (p : Port) :
    (p.elem.NoNumbers → ∃ s, p.toStr ids nm side = .ok s) ∧
      (¬ p.elem.NoNumbers → p.toStr ids nm side = .error .runtimeError) := by
  obtain ⟨h1, h2⟩ := Elem.toStr_numbers ids nm p.elem
  constructor
  · intro h
    obtain ⟨s, hs⟩ := h1 h
    exact ⟨_, by simp only [Port.toStr, hs, ok_bind]; rfl⟩
  · intro h
    simp only [Port.toStr, h2 h, error_bind]

theorem mapPy_all {α β : Type} {f : α → Py β} {P : α → Prop} (hf : ∀ x, (P x → ∃ s, f x = .ok s) ∧ (¬ P x → f x = .error .runtimeError))
    (l : List α) : ((∀ x ∈ l, P x) → ∃ r, mapPy f l = .ok r) ∧ ((∃ x ∈ l, ¬ P x) → mapPy f l = .error .runtimeError) := by
  induction l with
  | nil => exact ⟨fun _ => ⟨[], rfl⟩, fun ⟨_, h, _⟩ => absurd h (by simp)⟩
  | cons x l ih =>
    constructor
    · intro h
      obtain ⟨s, hs⟩ := (hf x).1 (h x (by simp))
      obtain ⟨r, hr⟩ := ih.1 fun y hy => h y (by simp [hy])
      exact ⟨s :: r, by simp only [mapPy, hs, hr, ok_bind]⟩
    · rintro ⟨y, hy, hn⟩
      by_cases hx : P x
      · obtain ⟨s, hs⟩ := (hf x).1 hx
        have : mapPy f l = .error .runtimeError := by
          rcases List.mem_cons.mp hy with rfl | hy
          · exact absurd hx hn
          · exact ih.2 ⟨y, hy, hn⟩
        simp only [mapPy, hs, this, ok_bind, error_bind]
      · simp only [mapPy, (hf x).2 hx, error_bind]

theorem mapPy_every {α β : Type} (f : α → Py β) (l : List α) (h : ∀ a ∈ l, ∃ b, f a = .ok b) : ∃ r, mapPy f l = .ok r := by
  induction l with
  | nil => exact ⟨[], rfl⟩
  | cons x l ih =>
    obtain ⟨s, hs⟩ := h x (by simp)
    obtain ⟨r, hr⟩ := ih fun y hy => h y (by simp [hy])
    exact ⟨s :: r, by simp only [mapPy, hs, hr, ok_bind]⟩

theorem mapPy_both {α β : Type} (f : α → Py β) (l r : List α) : mapPy f (l ++ r) = (do
    let a ← mapPy f l
    let b ← mapPy f r
    .ok (a ++ b)) := by
  induction l with
  | nil =>
    simp only [List.nil_append, mapPy, ok_bind]
    cases mapPy f r <;> rfl
  | cons x l ih =>
    simp only [List.cons_append, mapPy, ih]
    cases f x with
    | error _ => rfl
    | ok s =>
      cases mapPy f l with
      | error _ => rfl
      | ok a =>
        cases mapPy f r <;> rfl

theorem types_written {n : Node} (hi : NodeInv n) (ids : Str → Option Int) : ∃ r, mapPy (TypeObj.toStr ids false) n.types = .ok r := by
  refine mapPy_every _ _ fun t ht => ?_
  obtain ⟨s, hs⟩ := (Elem.toStr_numbers ids false t.elem).1 (Elem.RefsIn.numbers _ (hi.refs t ht))
  exact ⟨_, by simp only [TypeObj.toStr, hs, ok_bind]; rfl⟩

theorem lines_numbers {n : Node} (hi : NodeInv n) (nm : Bool) :
    ((∀ side, ∀ p ∈ n.ports side, p.elem.NoNumbers) → ∃ ls, n.lines nm = .ok ls) ∧
      ((∃ side, ∃ p ∈ n.ports side, ¬ p.elem.NoNumbers) → n.lines nm = .error .runtimeError) := by
  obtain ⟨ts, hts⟩ := types_written hi n.ids
  have hp := mapPy_all (fun p => Port.toStr_numbers n.ids nm .provide p) n.provides
  have hr := mapPy_all (fun p => Port.toStr_numbers n.ids nm .require p) n.requires
  constructor
  · intro h
    obtain ⟨a, ha⟩ := hp.1 (h .provide)
    obtain ⟨b, hb⟩ := hr.1 (h .require)
    exact ⟨_, by simp only [Node.lines, hts, ha, hb, ok_bind]; rfl⟩
  · rintro ⟨side, p, hpm, hn⟩
    by_cases hall : ∀ p ∈ n.provides, p.elem.NoNumbers
    · obtain ⟨a, ha⟩ := hp.1 hall
      have hb : mapPy (Port.toStr n.ids nm .require) n.requires = .error .runtimeError := by
        cases side with
        | provide => exact absurd (hall p hpm) hn
        | require => exact hr.2 ⟨p, hpm, hn⟩
      simp only [Node.lines, hts, ha, hb, ok_bind, error_bind]
    · have ha := hp.2 (by
        apply Classical.byContradiction
        intro hc
        exact hall fun q hq => Classical.byContradiction fun hn => hc ⟨q, hq, hn⟩)
      simp only [Node.lines, hts, ha, ok_bind, error_bind]

/-- C47: a node built through the API can be written, in either form, exactly if no port has a type number inside a
record; otherwise writing raises. -/
theorem C47_written_iff (n : Node) (hb : n.Built) (nm : Bool) :
    ((∀ side, ∀ p ∈ n.ports side, p.elem.NoNumbers) →
      (∃ text, n.definitionText nm = .ok text) ∧ ∃ r, n.dumps nm = .ok r) ∧
    ((∃ side, ∃ p ∈ n.ports side, ¬ p.elem.NoNumbers) →
      n.definitionText nm = .error .runtimeError ∧ n.dumps nm = .error .runtimeError) := by
  have hi := hb.inv
  have hd : ∃ m, NodeInv m ∧ (∀ side p, p ∈ m.ports side ↔ p ∈ n.ports side) ∧ n.dumps nm = (do
      let l ← m.lines nm
      .ok (m, headerText ++ ('\n' :: (joinLines l ++ ['\n'])))) := by
    cases hf : n.isFinalized with
    | true => exact ⟨n, hi, fun _ _ => Iff.rfl, by simp only [Node.dumps, hf, if_true, ok_bind]⟩
    | false =>
      refine ⟨n.finalized true false, finalized_inv n true false hi.toNodeInv0, ?_, by
        simp only [Node.dumps, hf, Bool.false_eq_true, if_false, finalize_eq n true false hi.toNodeInv0 hf, ok_bind]⟩
      intro side p
      rw [finalized_ports]
      exact (sortedByName_perm _ _).mem_iff
  obtain ⟨m, hm, hp, hdump⟩ := hd
  obtain ⟨h1, h2⟩ := lines_numbers hi nm
  obtain ⟨h3, h4⟩ := lines_numbers hm nm
  constructor
  · intro h
    obtain ⟨ls, hl⟩ := h1 h
    obtain ⟨ls', hl'⟩ := h3 fun side p hpm => h side p ((hp side p).mp hpm)
    exact ⟨⟨_, by simp only [Node.definitionText, hl, ok_bind]; rfl⟩, ⟨_, by rw [hdump, hl']; rfl⟩⟩
  · intro h
    have ho := h
    obtain ⟨side, p, hpm, hn⟩ := h
    rw [hdump, h4 ⟨side, p, (hp side p).mpr hpm, hn⟩]
    exact ⟨by simp only [Node.definitionText, h2 ho, error_bind], rfl⟩

/-- C47 is violated by every node with a port whose signature is a record containing a type number: it is never
resolved, so the node cannot be written at all. -/
theorem C47_record_port_violated (n : Node) (hb : n.Built) (side : Side) (p : Port) (hp : p ∈ n.ports side)
    (hn : ¬ p.elem.NoNumbers) (nm : Bool) :
    n.definitionText nm = .error .runtimeError ∧ n.dumps nm = .error .runtimeError :=
  (C47_written_iff n hb nm).2 ⟨side, p, hp, hn⟩

/-! ### C79 -/

/-- What is printed of a list: everything, or the part before the first item that cannot be printed. -/
theorem printAll_numbers {α : Type} {f : α → Py Str} {P : α → Prop}
    (hf : ∀ x, (P x → ∃ s, f x = .ok s) ∧ (¬ P x → f x = .error .runtimeError)) (l : List α) :
    (∃ ls, mapPy f l = .ok ls ∧ (∀ x ∈ l, P x) ∧ printAll f l = (ls.flatMap (· ++ ['\n']), .ok ())) ∨
    ∃ pre x post ls, l = pre ++ x :: post ∧ (∀ y ∈ pre, P y) ∧ ¬ P x ∧ mapPy f pre = .ok ls ∧
      printAll f l = (ls.flatMap (· ++ ['\n']), .error .runtimeError) := by
  induction l with
  | nil => exact .inl ⟨[], rfl, by simp, rfl⟩
  | cons x l ih =>
    by_cases hx : P x
    · obtain ⟨s, hs⟩ := (hf x).1 hx
      rcases ih with ⟨ls, h1, h2, h3⟩ | ⟨pre, y, post, ls, h1, h2, h3, h4, h5⟩
      · refine .inl ⟨s :: ls, by simp only [mapPy, hs, h1, ok_bind], ?_, ?_⟩
        · intro y hy
          rcases List.mem_cons.mp hy with rfl | hy
          · exact hx
          · exact h2 y hy
        · simp only [printAll, hs, h3, List.flatMap_cons, List.append_assoc, List.cons_append, List.nil_append]
      · refine .inr ⟨x :: pre, y, post, s :: ls, by rw [h1]; rfl, ?_, h3, by simp only [mapPy, hs, h4, ok_bind], ?_⟩
        · intro z hz
          rcases List.mem_cons.mp hz with rfl | hz
          · exact hx
          · exact h2 z hz
        · simp only [printAll, hs, h5, List.flatMap_cons, List.append_assoc, List.cons_append, List.nil_append]
    · refine .inr ⟨[], x, l, [], rfl, by simp, hx, rfl, ?_⟩
      simp only [printAll, (hf x).2 hx, List.flatMap_nil]

/-- C79 fails, for every definition that can be loaded, where a port has a type number inside a record: the tool raises,
and the file it writes to, the one it has read if no other is given, is left with the lines before that of the first
such port, in the order by name with provided ports first. -/
theorem C79_destroyed_violated (nm : Bool) (output : Option Str) (f : Str) (rest : List (Str × Str)) (text : Str) (n : Node)
    (hn : parseFile text = .ok n) (side : Side) (p : Port) (hp : p ∈ n.ports side) (hnum : ¬ p.elem.NoNumbers) :
    ∃ m ts pre q post ls, n.finalize true false = .ok m ∧ mapPy (TypeObj.toStr m.ids false) m.types = .ok ts ∧
      (m.provides.map (Prod.mk Side.provide) ++ m.requires.map (Prod.mk Side.require)) = pre ++ q :: post ∧
      (∀ x ∈ pre, x.2.elem.NoNumbers) ∧ ¬ q.2.elem.NoNumbers ∧ mapPy (fun x => Port.toStr m.ids nm x.1 x.2) pre = .ok ls ∧
      sortTool nm output none ((f, text) :: rest) =
        ⟨[(.file (output.getD f), (headerText :: ('N' :: '"' :: (n.name ++ ['"'])) :: (ts ++ ls)).flatMap (· ++ ['\n']))],
          .error .runtimeError⟩ := by
  obtain ⟨hbt, hf⟩ := parseFile_built hn
  have hi := hbt.inv
  have hi' := finalized_inv n true false hi.toNodeInv0
  have hfe := finalize_eq n true false hi.toNodeInv0 hf
  have hname : (n.finalized true false).name = n.name := rfl
  have hmem : p ∈ (n.finalized true false).ports side := by
    rw [finalized_ports]
    exact (sortedByName_perm _ _).mem_iff.mpr hp
  have hmf : ∀ (l : List Port) (s : Side), mapPy (fun x : Side × Port => Port.toStr (n.finalized true false).ids nm x.1 x.2)
      (l.map (Prod.mk s)) = mapPy (Port.toStr (n.finalized true false).ids nm s) l := by
    intro l s
    induction l with
    | nil => rfl
    | cons x l ih => simp only [List.map_cons, mapPy, ih]
  have hrun : sortTool nm output none ((f, text) :: rest) =
      ⟨[(.file (output.getD f), ((n.finalized true false).fileText nm).1)], ((n.finalized true false).fileText nm).2⟩ := by
    rw [sortTool_eq, filterTool_called (.inl ⟨f, rest, rfl, rfl, rfl⟩) hn rfl]
    simp only [Node.emit, Node.saveApx, Node.finalizeIfNot, hf, Bool.false_eq_true, if_false, hfe]
  refine ⟨n.finalized true false, ?_⟩
  generalize n.finalized true false = m at *
  obtain ⟨ts, hts⟩ := types_written hi' m.ids
  have htp : printAll (TypeObj.toStr m.ids false) m.types = (ts.flatMap (· ++ ['\n']), .ok ()) := by
    clear hi' hrun hmem hmf hfe
    generalize m.types = l at hts
    induction l generalizing ts with
    | nil => simp only [mapPy, Except.ok.injEq] at hts; subst hts; rfl
    | cons x l ih =>
      simp only [mapPy, bind_ok_iff, Except.ok.injEq] at hts
      obtain ⟨s, hs, r, hr, rfl⟩ := hts
      simp only [printAll, hs, ih r hr, List.flatMap_cons, List.append_assoc, List.cons_append, List.nil_append]
  have hP := printAll_numbers (fun p => Port.toStr_numbers m.ids nm .provide p) m.provides
  have hR := printAll_numbers (fun p => Port.toStr_numbers m.ids nm .require p) m.requires
  rcases hP with ⟨ls, a1, a2, a3⟩ | ⟨pre, q, post, ls, a1, a2, a3, a4, a5⟩
  · rcases hR with ⟨rs, b1, b2, b3⟩ | ⟨pre, q, post, rs, b1, b2, b3, b4, b5⟩
    · exfalso
      cases side with
      | provide => exact hnum (a2 p hmem)
      | require => exact hnum (b2 p hmem)
    · refine ⟨ts, m.provides.map (Prod.mk .provide) ++ pre.map (Prod.mk .require), (.require, q), post.map (Prod.mk .require),
        ls ++ rs, hfe, hts, by rw [b1]; simp, ?_, b3, ?_, ?_⟩
      · intro x hx
        rcases List.mem_append.mp hx with hx | hx
        · obtain ⟨y, hy, rfl⟩ := List.mem_map.mp hx
          exact a2 y hy
        · obtain ⟨y, hy, rfl⟩ := List.mem_map.mp hx
          exact b2 y hy
      · rw [mapPy_both, hmf, hmf, a1, b4]
        rfl
      · rw [hrun]
        simp only [Node.fileText, Node.write, thenPrint, htp, a3, b5, hname, List.flatMap_cons, List.flatMap_append,
          List.append_assoc, List.cons_append, List.nil_append]
  · refine ⟨ts, pre.map (Prod.mk .provide), (.provide, q), post.map (Prod.mk .provide) ++ m.requires.map (Prod.mk .require),
      ls, hfe, hts, by rw [a1]; simp, ?_, a3, ?_, ?_⟩
    · intro x hx
      obtain ⟨y, hy, rfl⟩ := List.mem_map.mp hx
      exact a2 y hy
    · rw [hmf, a4]
    · rw [hrun]
      simp only [Node.fileText, Node.write, thenPrint, htp, a5, hname, List.flatMap_cons, List.flatMap_append,
        List.append_assoc, List.cons_append, List.nil_append]

/-! ### C78 -/

mutual
theorem Elem.calcElemSize_error : (e : Elem) → (x : PyErr) → e.calcElemSize = .error x → x = .assertionError
  | .prim _ _ _ _, _, h => by cases h
  | .refName _, _, h => by cases h; rfl
  | .refId _, _, h => by cases h; rfl
  | .refType _ t, x, h => Elem.calcElemSize_error t x h
  | .record fs _, x, h => by
    simp only [Elem.calcElemSize] at h
    cases hs : fs.calcElemSize with
    | error y => rw [hs] at h; cases h; exact Fields.calcElemSize_error fs _ hs
    | ok s => rw [hs] at h; cases h
theorem Fields.calcElemSize_error : (fs : Fields) → (x : PyErr) → fs.calcElemSize = .error x → x = .assertionError
  | .nil, _, h => by cases h
  | .cons _ e r, x, h => by
    simp only [Fields.calcElemSize] at h
    cases hs : e.calcElemSize with
    | error y => rw [hs] at h; cases h; exact Elem.calcElemSize_error e _ hs
    | ok s =>
      rw [hs] at h
      cases ht : r.calcElemSize with
      | error y => rw [ht] at h; cases h; exact Fields.calcElemSize_error r _ ht
      | ok t => rw [ht] at h; cases h
end

theorem packLenLoop_error (result : Nat) (cur : Fields) (stack : List Fields) :
    (∀ x, packLenLoop result cur stack = .error x → x = .assertionError) ∧
      ((¬ cur.NoOpenRefs ∨ ∃ s ∈ stack, ¬ s.NoOpenRefs) → ∃ x, packLenLoop result cur stack = .error x) := by
  induction result, cur, stack using packLenLoop.induct with
  | case1 result =>
    rw [packLenLoop]
    exact ⟨fun x h => (by cases h), fun h => by
      rcases h with h | ⟨s, hs, _⟩
      · exact absurd trivial h
      · simp at hs⟩
  | case2 result i stack ih =>
    rw [packLenLoop]
    refine ⟨ih.1, fun h => ih.2 ?_⟩
    rcases h with h | ⟨s, hs, hn⟩
    · exact absurd trivial h
    · rcases List.mem_cons.mp hs with rfl | hs
      · exact .inl hn
      · exact .inr ⟨s, hs, hn⟩
  | case3 result n fs a r stack ih =>
    rw [packLenLoop]
    refine ⟨ih.1, fun h => ih.2 ?_⟩
    rcases h with h | ⟨s, hs, hn⟩
    · by_cases hf : fs.NoOpenRefs
      · exact .inr ⟨r, by simp, fun hr => h ⟨hf, hr⟩⟩
      · exact .inl hf
    · exact .inr ⟨s, by simp [hs], hn⟩
  | case4 result n e r stack hrec s hs ih =>
    have he : packLenLoop result (.cons n e r) stack = packLenLoop (result + s) r stack := by
      cases e <;> first | (exact absurd rfl (hrec _ _)) | (rw [packLenLoop, hs] <;> simp)
    rw [he]
    refine ⟨ih.1, fun h => ih.2 ?_⟩
    rcases h with h | h
    · refine .inl fun hr => h ⟨?_, hr⟩
      cases e with
      | record fs a => exact absurd rfl (hrec _ _)
      | refId _ => cases hs
      | refName _ => cases hs
      | prim _ _ _ _ => trivial
      | refType _ _ => trivial
    · exact .inr h
  | case5 result n e r stack hrec x hx =>
    have he : packLenLoop result (.cons n e r) stack = .error x := by
      cases e <;> first | (exact absurd rfl (hrec _ _)) | (rw [packLenLoop, hx] <;> simp)
    rw [he]
    refine ⟨fun y hy => ?_, fun _ => ⟨x, rfl⟩⟩
    cases hy
    exact Elem.calcElemSize_error e x hx

theorem packLen_open (e : Elem) : (∀ x, e.packLen = .error x → x = .assertionError) ∧
    (¬ e.NoOpenRefs → e.packLen = .error .assertionError) := by
  obtain ⟨h1, h2⟩ := packLenLoop_error 0 (.cons none e .nil) []
  refine ⟨h1, fun h => ?_⟩
  obtain ⟨x, hx⟩ := h2 (.inl fun hc => h hc.1)
  have := h1 x hx
  subst this
  exact hx

theorem sumPackLen_open (ps : List Port) : (∀ x, sumPackLen ps = .error x → x = .assertionError) ∧
    ((∃ p ∈ ps, ¬ p.elem.NoOpenRefs) → sumPackLen ps = .error .assertionError) := by
  induction ps with
  | nil => exact ⟨fun x h => (by cases h), fun ⟨_, h, _⟩ => absurd h (by simp)⟩
  | cons p ps ih =>
    cases hp : p.elem.packLen with
    | error x =>
      have hx := (packLen_open p.elem).1 x hp
      subst hx
      simp only [sumPackLen, hp, error_bind]
      exact ⟨fun y hy => (by cases hy; rfl), fun _ => trivial⟩
    | ok s =>
      cases hr : sumPackLen ps with
      | error x =>
        have hx := ih.1 x hr
        subst hx
        simp only [sumPackLen, hp, hr, ok_bind, error_bind]
        exact ⟨fun y hy => (by cases hy; rfl), fun _ => trivial⟩
      | ok t =>
        simp only [sumPackLen, hp, hr, ok_bind]
        refine ⟨fun y hy => (by cases hy), ?_⟩
        rintro ⟨q, hq, hn⟩
        rcases List.mem_cons.mp hq with rfl | hq
        · rw [(packLen_open _).2 hn] at hp; cases hp
        · rw [ih.2 ⟨q, hq, hn⟩] at hr; cases hr

/-- C78 fails for every definition with a port that refers to a type inside a record: no size is printed, also where
the node data can be made. -/
theorem C78_record_violated (text : Str) (n : Node) (hn : parseFile text = .ok n) (side : Side) (p : Port)
    (hp : p ∈ n.ports side) (ho : ¬ p.elem.NoOpenRefs) : apxSize text = .error .assertionError := by
  simp only [apxSize, hn, ok_bind]
  obtain ⟨r1, r2⟩ := sumPackLen_open n.requires
  obtain ⟨p1, p2⟩ := sumPackLen_open n.provides
  cases hr : sumPackLen n.requires with
  | error x =>
    have := r1 x hr
    subst this
    rfl
  | ok i =>
    simp only [ok_bind]
    cases side with
    | require => rw [r2 ⟨p, hp, ho⟩] at hr; cases hr
    | provide =>
      rw [p2 ⟨p, hp, ho⟩]
      rfl

/-- C78: sizes are printed exactly for the definitions without such ports, as far as node data can be made of them. -/
theorem C78_exactly (text : Str) (n : Node) (hn : parseFile text = .ok n) (nd : NodeData) (hd : n.nodeData = .ok nd) :
    apxSize text = .ok ((fileBytes nd.inFile).length, (fileBytes nd.outFile).length) ↔
      ∀ side, ∀ p ∈ n.ports side, p.elem.NoOpenRefs := by
  constructor
  · intro h side p hp
    apply Classical.byContradiction
    intro ho
    rw [C78_record_violated text n hn side p hp ho] at h
    cases h
  · exact C78_size_partial text n hn nd hd

/-- The hypotheses can be met. -/
example : parseFile tlText4 = .ok tlSrc4 ∧ ∃ p ∈ tlSrc4.ports .require, ¬ p.elem.NoOpenRefs :=
  ⟨loaded_of_view (by decide +kernel) (by decide +kernel) (by decide +kernel) (by decide +kernel) rfl (by decide) (by decide),
    _, List.mem_singleton.mpr rfl, by simp [Elem.NoOpenRefs, Fields.NoOpenRefs]⟩

/-- A definition with a type number inside the record of a port. -/
def wmText : Str := "APX/1.2\nN\"X\"\nT\"A\"C\nP\"p\"{\"x\"T[0]}\nP\"q\"C\n".toList

/-- Its node. -/
def wmSrc : Node :=
  ⟨['X'], false, [⟨['A'], .prim .u8 none none none, none, none, none⟩], [],
    [⟨['p'], .record (.cons (some ['x']) (.refId 0) .nil) none, none, some 0⟩, ⟨['q'], .prim .u8 none none none, none, some 1⟩]⟩

example : parseFile wmText = .ok wmSrc ∧ ∃ p ∈ wmSrc.ports .provide, ¬ p.elem.NoNumbers :=
  ⟨loaded_of_view (by decide +kernel) (by decide +kernel) (by decide +kernel) (by decide +kernel) rfl (by decide) (by decide),
    _, List.mem_cons_self, by simp [Elem.NoNumbers, Fields.NoNumbers]⟩

end Apx
