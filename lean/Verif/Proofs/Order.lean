import Verif.Proofs.Tools4
import Verif.Proofs.Again
import Verif.Proofs.Context

/-!
The text of a node can be loaded only if every type comes after the types it refers to (C76, C77, C79).
-/

namespace Apx

/-! ### Resolving what has been written -/

mutual
theorem Elem.resolved_refs {n : Node} (hi : NodeInv n) (pre post : List TypeObj) (ht : n.types = pre ++ post) (nm : Bool)
    (e e' : Elem) (hr : e.RefsIn n.named) (h : (e.asWritten n.ids nm).resolveType (pre.map TypeObj.named) = .ok e') :
    e.RefsIn (pre.map TypeObj.named) := by
  have hnamed : n.named = pre.map TypeObj.named ++ post.map TypeObj.named := by
    unfold Node.named
    rw [ht, List.map_append]
  match e with
  | .prim _ _ _ _ => trivial
  | .refId _ => exact hr.elim
  | .refName _ => exact hr.elim
  | .record fs a =>
    simp only [Elem.asWritten, Elem.resolveType, bind_ok_iff] at h
    obtain ⟨gs, h1, _⟩ := h
    exact Fields.resolved_refs hi pre post ht nm fs gs hr h1
  | .refType m t =>
    obtain ⟨h1, h2, h3⟩ := nodeInv_resolvedIn hi m t hr
    have hname : (Elem.refName m).resolveType (pre.map TypeObj.named) = .ok e' →
        (⟨m, t⟩ : NamedType) ∈ pre.map TypeObj.named := by
      intro h
      unfold Elem.resolveType at h
      split at h
      · rename_i u hu
        have hu1 := List.mem_of_find?_eq_some hu
        have hu2 := (findType_name hu).2
        rw [← h1 u (by rw [hnamed]; exact List.mem_append_left _ hu1) hu2]
        exact hu1
      · simp at h
    unfold Elem.asWritten at h
    split at h
    · rename_i i hid
      obtain ⟨h0, hg⟩ := h3 i hid
      unfold Elem.resolveType at h
      rw [bind_ok_iff] at h
      obtain ⟨u, hu, _⟩ := h
      unfold pyIndex at hu
      rw [if_neg (by omega)] at hu
      split at hu
      · rename_i v hv
        have hlt := (List.getElem?_eq_some_iff.mp hv).1
        rw [hnamed, List.getElem?_append_left hlt] at hg
        exact List.mem_of_getElem? hg
      · simp at hu
    · exact hname h
theorem Fields.resolved_refs {n : Node} (hi : NodeInv n) (pre post : List TypeObj) (ht : n.types = pre ++ post) (nm : Bool)
    (fs gs : Fields) (hr : fs.RefsIn n.named) (h : (fs.asWritten n.ids nm).resolveType (pre.map TypeObj.named) = .ok gs) :
    fs.RefsIn (pre.map TypeObj.named) := by
  match fs with
  | .nil => trivial
  | .cons _ e r =>
    simp only [Fields.asWritten, Fields.resolveType, bind_ok_iff] at h
    obtain ⟨e1, h1, r1, h2, _⟩ := h
    exact ⟨Elem.resolved_refs hi pre post ht nm e e1 hr.1 h1, Fields.resolved_refs hi pre post ht nm r r1 hr.2 h2⟩
end

/-! ### The lines of the types -/

/-- The line of a type is accepted after the types before it only if these are all it refers to. -/
theorem type_line_refs {n : Node} (hi : NodeInv n) (pre post : List TypeObj) (t : TypeObj) (ht : n.types = pre ++ t :: post)
    (hw : t.Writable) (nm : Bool) :
    ∃ l, t.toStr n.ids nm = .ok l ∧ '\n' ∉ l ∧ ∀ m cs s, m.types = pre.map TypeObj.fresh → (cs = .node ∨ cs = .type) →
      Parser.processLine ⟨some m, cs⟩ l = (s, .ok ()) → t.elem.RefsIn (pre.map TypeObj.named) := by
  obtain ⟨hw1, hw2, hw3, hw4, hw5⟩ := hw
  have htm : t ∈ n.types := by rw [ht]; simp
  obtain ⟨s, h1, h2⟩ := Elem.parse_toStr_data n.ids nm t.elem hw2
  obtain ⟨hl, hnl⟩ := splitLine_lineText 'T' t.name s (t.attr.map TypeAttr.str) (by decide) (by decide) hw1
    (Elem.toStr_ends _ _ _ _ h1) (fun c hc => Elem.toStr_no_cut n.ids nm t.elem hw3 hw2 s h1 c hc)
    (by
      intro a ha
      rw [Option.map_eq_some_iff] at ha
      obtain ⟨b, hb, rfl⟩ := ha
      exact hw5 b hb)
  refine ⟨lineText 'T' t.name s (t.attr.map TypeAttr.str), by simp [TypeObj.toStr, h1, hw4], hnl, ?_⟩
  intro m cs st hm hcs hp
  have key : ∀ cs', Parser.typeLine ⟨some m, cs'⟩ (.full ['T'] (some t.name) s (t.attr.map TypeAttr.str)) = (st, .ok ()) →
      t.elem.RefsIn (pre.map TypeObj.named) := by
    intro cs' hk
    unfold Parser.typeLine at hk
    split at hk
    · rename_i m' t' he
      simp only [Line.args, lineName, Option.getD_some, ok_bind, mkType, h2, bind_ok_iff] at he
      obtain ⟨u, ⟨a, ha, hu⟩, he⟩ := he
      simp only [Except.ok.injEq] at hu
      subst hu
      have hnone : m.typeNamed t.name = none := by
        unfold Node.typeNamed
        rw [List.find?_eq_none]
        intro u hu
        simp only [decide_eq_true_eq]
        intro heq
        have hmem : t.name ∈ pre.map TypeObj.name := by
          rw [← heq, ← fresh_name, ← hm]
          exact List.mem_map.mpr ⟨u, hu, rfl⟩
        have hnd := hi.names
        rw [ht, List.map_append, List.map_cons] at hnd
        rw [List.nodup_append] at hnd
        exact hnd.2.2 _ hmem _ (by simp) rfl
      unfold Node.addType at he
      simp only [hnone, bind_ok_iff, resolveDsg] at he
      obtain ⟨e', ⟨e'', h3, _⟩, _⟩ := he
      have hmn : m.named = pre.map TypeObj.named := by unfold Node.named; rw [hm, fresh_named]
      rw [hmn] at h3
      exact Elem.resolved_refs hi pre (t :: post) ht nm t.elem e'' (hi.refs t htm) h3
    · simp at hk
  unfold Parser.processLine at hp
  rw [hl] at hp
  unfold Parser.processParts at hp
  rw [if_neg (by simp)] at hp
  rcases hcs with rfl | rfl
  · simp only [Line.kind, if_true] at hp
    exact key _ hp
  · simp only [Line.kind, if_true] at hp
    exact key _ hp

/-- The lines of types are accepted only if every type comes after what it refers to. -/
theorem type_lines_refs {n : Node} (hi : NodeInv n) (hw : ∀ t ∈ n.types, t.Writable) (nm : Bool)
    (todo pre : List TypeObj) (ht : n.types = pre ++ todo) :
    ∃ ls, mapPy (TypeObj.toStr n.ids nm) todo = .ok ls ∧ OneLiners ls ∧
      ∀ m cs s, m.types = pre.map TypeObj.fresh → (cs = .node ∨ cs = .type) →
        Parser.processLines ⟨some m, cs⟩ ls = (s, .ok ()) →
        ∀ (i : Nat) (t : TypeObj), pre.length ≤ i → n.types[i]? = some t →
          t.elem.RefsIn ((n.types.take i).map TypeObj.named) := by
  induction todo generalizing pre with
  | nil =>
    refine ⟨[], rfl, by intro l hl; simp at hl, ?_⟩
    intro m cs s hm hcs h i t hle hit
    rw [List.append_nil] at ht
    have := (List.getElem?_eq_some_iff.mp hit).1
    rw [ht] at this
    omega
  | cons t todo ih =>
    obtain ⟨ls, h1, h2, h3⟩ := ih (pre ++ [t]) (by rw [ht]; simp)
    obtain ⟨l, h4, h5, h6⟩ := type_line_refs hi pre todo t ht (hw t (by rw [ht]; simp)) nm
    refine ⟨l :: ls, by simp [mapPy, h4, h1], ?_, ?_⟩
    · intro x hx
      rcases List.mem_cons.mp hx with rfl | hx
      · exact h5
      · exact h2 x hx
    · intro m cs s hm hcs h i u hle hiu
      simp only [Parser.processLines] at h
      split at h
      · rename_i st1 hst1
        have hro := h6 m cs st1 hm hcs hst1
        obtain ⟨l', g1, _, g3⟩ := type_line hi pre todo t ht hro (hw t (by rw [ht]; simp)) nm
        rw [h4, Except.ok.injEq] at g1
        subst g1
        rw [g3 m cs hm hcs, Prod.mk.injEq] at hst1
        obtain ⟨rfl, _⟩ := hst1
        rcases Nat.lt_or_eq_of_le hle with hlt | heq
        · exact h3 { m with types := (pre ++ [t]).map TypeObj.fresh } .type s rfl (Or.inr rfl) h i u
            (by simp only [List.length_append, List.length_singleton]; omega) hiu
        · subst heq
          rw [ht] at hiu
          simp only [List.getElem?_append_right (Nat.le_refl _), Nat.sub_self,
            List.getElem?_cons_zero, Option.some.injEq] at hiu
          subst hiu
          rw [ht]
          simpa using hro
      · simp at h

/-! ### The whole text -/

/-- The text of a node is always written, and can be loaded exactly if every type comes after the types it
refers to. -/
theorem tool_text_iff {n : Node} (hi : NodeInv n) (hw : n.Writable) (nm : Bool) :
    ∃ ls, n.lines nm = .ok ls ∧
      ((∃ r, parseFile (joinLines (headerText :: ls) ++ ['\n', '\n']) = .ok r) ↔ n.Ordered) := by
  obtain ⟨hn, hnl⟩ := splitLine_node n.name hw.name
  obtain ⟨tl, t1, t2, t3⟩ := type_lines_refs hi hw.types false n.types [] rfl
  obtain ⟨pl, p1, p2, p3⟩ := port_lines hi nm .provide n.provides (hi.ports .provide) (hw.ports .provide)
  obtain ⟨rl, r1, r2, r3⟩ := port_lines hi nm .require n.requires (hi.ports .require) (hw.ports .require)
  have hlines : n.lines nm = .ok (('N' :: '"' :: (n.name ++ ['"'])) :: (tl ++ pl ++ rl)) := by
    simp [Node.lines, t1, p1, r1]
  refine ⟨_, hlines, ?_, ?_⟩
  · rintro ⟨r, hr⟩
    have h2 : OneLiners (('N' :: '"' :: (n.name ++ ['"'])) :: (tl ++ pl ++ rl)) := by
      intro l hl
      rcases List.mem_cons.mp hl with rfl | hl
      · exact hnl
      · rcases List.mem_append.mp hl with hl | hl
        · rcases List.mem_append.mp hl with hl | hl
          · exact t2 l hl
          · exact p2 l hl
        · exact r2 l hl
    generalize hls : ('N' :: '"' :: (n.name ++ ['"'])) :: (tl ++ pl ++ rl) = ls at hr h2
    have hs : splitOn '\n' (joinLines (headerText :: ls) ++ ['\n', '\n']) = headerText :: (ls ++ [[], []]) := by
      have e : joinLines (headerText :: ls) ++ ['\n', '\n'] = joinLines (headerText :: (ls ++ [[], []])) := by
        rw [show headerText :: (ls ++ [[], []]) = ((headerText :: ls) ++ [[]]) ++ [[]] by simp,
          joinLines_snoc _ (by simp), joinLines_snoc _ (by simp)]
        simp
      rw [e]
      apply splitOn_joinLines _ (by simp)
      intro l hl
      simp only [List.mem_cons, List.mem_append, List.not_mem_nil, or_false] at hl
      rcases hl with rfl | hl | rfl | rfl
      · decide
      · exact h2 l hl
      · simp
      · simp
    have e1 : firstLine (joinLines (headerText :: ls) ++ ['\n', '\n']) = headerText := by unfold firstLine; rw [hs]; rfl
    have e2 : otherLines (joinLines (headerText :: ls) ++ ['\n', '\n']) = ls ++ [[], []] := by unfold otherLines; rw [hs]; rfl
    have hv : parseHeaderLine (rstripNewline headerText) = some ('1', '2') := by decide
    unfold parseFile at hr
    rw [load_eq, e1, e2, hv] at hr
    generalize hp : Parser.processLines ⟨Parser.new.node, .start⟩ (ls ++ [[], []]) = q at hr
    obtain ⟨st, x⟩ := q
    cases x with
    | error x => simp at hr
    | ok u =>
      obtain ⟨s1, q1, _⟩ := processLines_append_ok hp
      rw [← hls] at q1
      have h0 : Parser.processLine ⟨Parser.new.node, .start⟩ ('N' :: '"' :: (n.name ++ ['"'])) =
          (⟨some (Node.new n.name), .node⟩, .ok ()) := by
        unfold Parser.processLine
        rw [hn]
        simp [Parser.processParts, Line.kind, Line.nodeName, lineName]
      simp only [Parser.processLines, h0] at q1
      obtain ⟨s2, q2, _⟩ := processLines_append_ok q1
      obtain ⟨s3, q3, _⟩ := processLines_append_ok q2
      intro i t hit
      exact t3 (Node.new n.name) .node s3 rfl (Or.inl rfl) q3 i t (Nat.zero_le _) hit
  · intro ho
    obtain ⟨ls, h1, h2⟩ := tool_text_reload hi ho hw nm
    rw [hlines, Except.ok.injEq] at h1
    rw [h1]
    exact ⟨_, h2⟩

/-! ### Sorting -/

mutual
theorem Elem.below_of_take {n : Node} (hi : NodeInv n) {i : Nat} {t : TypeObj} (hs : SortedByName TypeObj.name n.types)
    (ht : n.types[i]? = some t) (e : Elem) (hr : e.RefsIn ((n.types.take i).map TypeObj.named)) : e.RefsBelow t.name := by
  match e with
  | .prim _ _ _ _ => trivial
  | .refId _ => exact hr.elim
  | .refName _ => exact hr.elim
  | .record fs _ => exact Fields.below_of_take hi hs ht fs hr
  | .refType m x =>
    obtain ⟨u, hu, hue⟩ := List.mem_map.mp hr
    obtain ⟨j, hj, hju⟩ := List.mem_take_iff_getElem.mp hu
    obtain ⟨hi', hit⟩ := List.getElem?_eq_some_iff.mp ht
    have hjl : j < n.types.length := by omega
    have hle := List.pairwise_iff_getElem.mp hs j i hjl hi' (by omega)
    simp only [TypeObj.named, NamedType.mk.injEq] at hue
    rw [hit, hju, hue.1] at hle
    have hne : m ≠ t.name := by
      intro h
      have : j = i := nodup_index (x := m) hi.names (by simp [List.getElem?_eq_getElem hjl, hju, hue.1])
        (by simp [ht, h])
      omega
    have hlt : m < t.name := by
      apply Decidable.byContradiction
      intro hn
      exact hne (List.le_antisymm hle (List.not_lt.mp hn))
    exact hlt
theorem Fields.below_of_take {n : Node} (hi : NodeInv n) {i : Nat} {t : TypeObj} (hs : SortedByName TypeObj.name n.types)
    (ht : n.types[i]? = some t) (fs : Fields) (hr : fs.RefsIn ((n.types.take i).map TypeObj.named)) : fs.RefsBelow t.name := by
  match fs with
  | .nil => trivial
  | .cons _ e r => exact ⟨Elem.below_of_take hi hs ht e hr.1, Fields.below_of_take hi hs ht r hr.2⟩
end

/-- Sorted types come after what they refer to exactly if they refer to smaller names only. -/
theorem ordered_iff_below {n : Node} (hi : NodeInv n) (hs : SortedByName TypeObj.name n.types) :
    n.Ordered ↔ ∀ t ∈ n.types, t.elem.RefsBelow t.name := by
  constructor
  · intro ho t ht
    obtain ⟨i, hit⟩ := List.getElem?_of_mem ht
    exact Elem.below_of_take hi hs hit t.elem (ho i t hit)
  · exact ordered_of_sorted hi hs

/-- What a tool writes for a node that is finalized first can be loaded exactly if the types refer to smaller
names only. -/
theorem output_iff {m : Node} (hi : NodeInv m) (hw : m.Writable) (sort : Bool) (nm : Bool) :
    ∃ text, (∀ file, (m.finalized sort false).emit file nm = ⟨[(destOf file, text)], .ok ()⟩) ∧
      ((∃ r, parseFile text = .ok r) ↔ ∀ t ∈ m.types, t.elem.RefsBelow t.name) := by
  have hi' := finalized_inv m sort false hi.toNodeInv0
  obtain ⟨ls, h1, h2⟩ := tool_text_iff hi' (finalized_writable hw sort) nm
  refine ⟨_, fun file => emit_ok _ rfl file nm ls h1, ?_⟩
  rw [h2, ordered_iff_below hi' (finalized_sorted m sort false)]
  have hc : ∀ c, c ∈ (m.finalized sort false).types.map TypeObj.content ↔ c ∈ m.types.map TypeObj.content := by
    intro c
    rw [finalized_content]
    exact ((sortedByName_perm _ _).map _).mem_iff
  constructor
  · intro h t ht
    obtain ⟨u, hu, he⟩ := List.mem_map.mp ((hc t.content).mpr (List.mem_map.mpr ⟨t, ht, rfl⟩))
    simp only [TypeObj.content, Prod.mk.injEq] at he
    rw [← he.1, ← he.2.1]
    exact h u hu
  · intro h t ht
    obtain ⟨u, hu, he⟩ := List.mem_map.mp ((hc t.content).mp (List.mem_map.mpr ⟨t, ht, rfl⟩))
    simp only [TypeObj.content, Prod.mk.injEq] at he
    rw [← he.1, ← he.2.1]
    exact h u hu

end Apx
