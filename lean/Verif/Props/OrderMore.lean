import Verif.Proofs.Order
import Verif.Props.Definition
import Verif.Props.Join

/-! C46, C47, C66: where sorting makes a definition unreadable, for all nodes. -/

namespace Apx

/-- The lines written for a node are read, by either function and with anything after them, only if every type comes
after the types it refers to. -/
theorem lines_read_ordered {n : Node} (hi : NodeInv n) (hw : n.Writable) (nm : Bool) :
    ∃ ls, n.lines nm = .ok ls ∧ OneLiners ls ∧ ∀ (text : Str) (post : List Str) (st : Parser) (r : Node),
      firstLine text = headerText → otherLines text = ls ++ post →
      ((st.loads text).2 = .ok r ∨ (st.load text).2 = .ok r) → n.Ordered := by
  obtain ⟨hn, hnl⟩ := splitLine_node n.name hw.name
  obtain ⟨tl, t1, t2, t3⟩ := type_lines_refs hi hw.types false n.types [] rfl
  obtain ⟨pl, p1, p2, p3⟩ := port_lines hi nm .provide n.provides (hi.ports .provide) (hw.ports .provide)
  obtain ⟨rl, r1, r2, r3⟩ := port_lines hi nm .require n.requires (hi.ports .require) (hw.ports .require)
  have hlines : n.lines nm = .ok (('N' :: '"' :: (n.name ++ ['"'])) :: (tl ++ pl ++ rl)) := by
    simp [Node.lines, t1, p1, r1]
  refine ⟨_, hlines, ?_, ?_⟩
  · intro l hl
    rcases List.mem_cons.mp hl with rfl | hl
    · exact hnl
    · rcases List.mem_append.mp hl with hl | hl
      · rcases List.mem_append.mp hl with hl | hl
        · exact t2 l hl
        · exact p2 l hl
      · exact r2 l hl
  · intro text post st r e1 e2 hr
    have hv : parseHeaderLine (rstripNewline headerText) = some ('1', '2') := by decide
    have hp : ∃ s, Parser.processLines ⟨st.node, .start⟩ ((('N' :: '"' :: (n.name ++ ['"'])) :: (tl ++ pl ++ rl)) ++ post) =
        (s, .ok ()) := by
      rw [loads_eq, load_eq, e1, e2, hv] at hr
      simp only [ne_eq, not_true, and_false, if_false, reduceCtorEq] at hr
      generalize Parser.processLines ⟨st.node, .start⟩ ((('N' :: '"' :: (n.name ++ ['"'])) :: (tl ++ pl ++ rl)) ++ post) = q at hr
      obtain ⟨s, x⟩ := q
      cases x with
      | error x => simp at hr
      | ok u => exact ⟨s, rfl⟩
    obtain ⟨s, hp⟩ := hp
    obtain ⟨s1, q1, _⟩ := processLines_append_ok hp
    have h0 : Parser.processLine ⟨st.node, .start⟩ ('N' :: '"' :: (n.name ++ ['"'])) =
        (⟨some (Node.new n.name), .node⟩, .ok ()) := by
      unfold Parser.processLine
      rw [hn]
      simp [Parser.processParts, Line.kind, Line.nodeName, lineName]
    simp only [Parser.processLines, h0] at q1
    obtain ⟨s2, q2, _⟩ := processLines_append_ok q1
    obtain ⟨s3, q3, _⟩ := processLines_append_ok q2
    intro i t hit
    exact t3 (Node.new n.name) .node s3 rfl (Or.inl rfl) q3 i t (Nat.zero_le _) hit

theorem firstOther_header {ls : List Str} (ho : OneLiners ls) :
    firstLine (joinLines (headerText :: ls) ++ ['\n']) = headerText ∧
      otherLines (joinLines (headerText :: ls) ++ ['\n']) = ls ++ [[]] := by
  have hs : splitOn '\n' (joinLines (headerText :: ls) ++ ['\n']) = headerText :: (ls ++ [[]]) := by
    rw [← joinLines_snoc _ (by simp)]
    apply splitOn_joinLines _ (by simp)
    intro l hl
    simp only [List.cons_append, List.mem_cons, List.mem_append, List.not_mem_nil, or_false] at hl
    rcases hl with rfl | hl | rfl
    · decide
    · exact ho l hl
    · simp
  rw [lines_eq, List.cons.injEq] at hs
  exact hs

/-- Sorting a node: each type comes after the types it refers to exactly if those have smaller names. -/
theorem finalized_ordered {m : Node} (hi : NodeInv m) (sort short : Bool) :
    (m.finalized sort short).Ordered ↔ ∀ t ∈ m.types, t.elem.RefsBelow t.name := by
  have hi' := finalized_inv m sort short hi.toNodeInv0
  rw [ordered_iff_below hi' (finalized_sorted m sort short)]
  have hc : ∀ c, c ∈ (m.finalized sort short).types.map TypeObj.content ↔ c ∈ m.types.map TypeObj.content := by
    intro c
    rw [finalized_content]
    exact ((sortedByName_perm _ _).map _).mem_iff
  constructor
  · intro h t ht
    obtain ⟨u, hu, he⟩ := List.mem_map.mp ((hc t.content).mpr (List.mem_map.mpr ⟨t, ht, rfl⟩))
    simp only [TypeObj.content, Prod.mk.injEq] at he
    rw [← he.1, ← he.2.1]
    exact h u hu
  · intro h t ht
    obtain ⟨u, hu, he⟩ := List.mem_map.mp ((hc t.content).mp (List.mem_map.mpr ⟨t, ht, rfl⟩))
    simp only [TypeObj.content, Prod.mk.injEq] at he
    rw [← he.1, ← he.2.1]
    exact h u hu

/-! ### C46 -/

/-- C46 is violated by finalizing, whenever a type refers to one whose name is not smaller: types are sorted by name,
and that type then comes before one it refers to. -/
theorem C46_sorted_violated (n : Node) (hb : n.Built) (hf : n.isFinalized = false) (t : TypeObj) (ht : t ∈ n.types)
    (ha : ¬ t.elem.RefsBelow t.name) (sort short : Bool) :
    ∃ n', n.finalize sort short = .ok n' ∧
      ∃ (i : Nat) (u : TypeObj), n'.types[i]? = some u ∧ ¬ u.elem.RefsIn ((n'.types.take i).map TypeObj.named) := by
  refine ⟨_, finalize_eq n sort short hb.inv.toNodeInv0 hf, ?_⟩
  apply Classical.byContradiction
  intro h
  have ho : (n.finalized sort short).Ordered := by
    intro i u hu
    apply Classical.byContradiction
    intro hn
    exact h ⟨i, u, hu, hn⟩
  exact ha ((finalized_ordered hb.inv sort short).mp ho t ht)

/-! ### C47 -/

theorem reads_error {α : Type} {x : Py α} (h : ∀ r, x ≠ .ok r) : ∃ e, x = .error e := by
  cases x with
  | error e => exact ⟨e, rfl⟩
  | ok r => exact absurd rfl (h r)

/-- C47: the text dumped from a node that has not been finalized can be loaded exactly if every type refers to types
with smaller names only. -/
theorem C47_dump_iff (n : Node) (hb : n.Built) (hw : n.Writable) (hf : n.isFinalized = false) (normalized : Bool) :
    ∃ n' text, n.dumps normalized = .ok (n', text) ∧ ∀ st : Parser,
      ((∃ r, (st.loads text).2 = .ok r) ↔ ∀ t ∈ n.types, t.elem.RefsBelow t.name) ∧
      ((∃ r, (st.load text).2 = .ok r) ↔ ∀ t ∈ n.types, t.elem.RefsBelow t.name) := by
  obtain ⟨n', text, h1, _, h2, h3⟩ := C47_dump_partial n hb hw normalized
  refine ⟨n', text, h1, ?_⟩
  have he := h2 hf
  rw [finalize_eq n true false hb.inv.toNodeInv0 hf, Except.ok.injEq] at he
  have hi' := finalized_inv n true false hb.inv.toNodeInv0
  have hw' := finalized_writable hw true
  have ho := finalized_ordered hb.inv true false
  rw [he] at hi' hw' ho
  obtain ⟨ls, l1, l2, l3⟩ := lines_read_ordered hi' hw' normalized
  have htext : text = joinLines (headerText :: ls) ++ ['\n'] := by
    simp only [Node.dumps, hf, h2 hf, Bool.false_eq_true, if_false, ok_bind, l1, Except.ok.injEq, Prod.mk.injEq, true_and] at h1
    rw [← h1]
    cases ls with
    | nil => simp [Node.lines, bind_ok_iff] at l1
    | cons l ls => simp [joinLines]
  obtain ⟨e1, e2⟩ := firstOther_header l2
  rw [← htext] at e1 e2
  intro st
  constructor
  · constructor
    · rintro ⟨r, hr⟩
      exact ho.mp (l3 text _ st r e1 e2 (.inl hr))
    · intro h
      obtain ⟨m, _, hm⟩ := h3 (ho.mpr h)
      exact ⟨m, (hm st).1⟩
  · constructor
    · rintro ⟨r, hr⟩
      exact ho.mp (l3 text _ st r e1 e2 (.inr hr))
    · intro h
      obtain ⟨m, _, hm⟩ := h3 (ho.mpr h)
      exact ⟨m, (hm st).2⟩

/-- C47 is violated whenever sorting by name moves a type before one it refers to: `dumps` writes the text, which
refers to a type number that is not defined yet, and neither function can load it. -/
theorem C47_sorted_violated (n : Node) (hb : n.Built) (hw : n.Writable) (hf : n.isFinalized = false) (normalized : Bool)
    (t : TypeObj) (ht : t ∈ n.types) (ha : ¬ t.elem.RefsBelow t.name) :
    ∃ n' text, n.dumps normalized = .ok (n', text) ∧ ∀ st : Parser,
      (∃ x, (st.loads text).2 = .error x) ∧ ∃ x, (st.load text).2 = .error x := by
  obtain ⟨n', text, h1, h2⟩ := C47_dump_iff n hb hw hf normalized
  refine ⟨n', text, h1, fun st => ⟨reads_error ?_, reads_error ?_⟩⟩
  · exact fun r hr => ha ((h2 st).1.mp ⟨r, hr⟩ t ht)
  · exact fun r hr => ha ((h2 st).2.mp ⟨r, hr⟩ t ht)

/-! ### C66 -/

/-- C66: the definition file of any node built through the API can be parsed exactly if every type refers to earlier
types only. -/
theorem C66_readable_iff (n : Node) (hb : n.Built) (hw : n.Writable) (nd : NodeData) (h : n.nodeData = .ok nd) :
    ∃ text, asciiDecode nd.definitionFile.data = .ok text ∧ ∀ st : Parser,
      ((∃ r, (st.loads text).2 = .ok r) ↔
        ∀ (i : Nat) (t : TypeObj), n.types[i]? = some t → t.elem.RefsIn ((n.types.take i).map TypeObj.named)) := by
  obtain ⟨text, h1, h2⟩ := nodeData_inv h
  obtain ⟨i, o, df, g1, _, g2, _, h3, h4⟩ := build_inv h2
  have h5 := createDefinitionFile_ok h3
  obtain ⟨ls, l1, l2, l3⟩ := lines_read_ordered hb.inv hw false
  have ht : text = joinLines (headerText :: ls) ++ ['\n'] := by
    simp only [Node.definitionText, l1, ok_bind, Except.ok.injEq] at h1
    exact h1.symm
  obtain ⟨e1, e2⟩ := firstOther_header l2
  rw [← ht] at e1 e2
  have h6 : asciiDecode nd.definitionFile.data = .ok text := by
    rw [h4]
    exact asciiDecode_encode text _ h5
  refine ⟨text, h6, fun st => ⟨?_, ?_⟩⟩
  · rintro ⟨r, hr⟩
    exact l3 text _ st r e1 e2 (.inl hr)
  · intro ho
    obtain ⟨text', m, q1, q2, _⟩ := C66_describes_partial n hb ho hw nd h
    rw [h6, Except.ok.injEq] at q1
    subst q1
    exact ⟨m, q2 st⟩

/-- C66 is violated by finalizing, whenever a type refers to one whose name is not smaller: if node data is made of the
finalized node, its definition file cannot be parsed. -/
theorem C66_sorted_violated (n : Node) (hb : n.Built) (hw : n.Writable) (hf : n.isFinalized = false) (t : TypeObj)
    (ht : t ∈ n.types) (ha : ¬ t.elem.RefsBelow t.name) (sort : Bool) :
    ∃ n', n.finalize sort false = .ok n' ∧ ∀ nd, n'.nodeData = .ok nd →
      ∃ text, asciiDecode nd.definitionFile.data = .ok text ∧ ∀ st : Parser, ∃ x, (st.loads text).2 = .error x := by
  refine ⟨_, finalize_eq n sort false hb.inv.toNodeInv0 hf, ?_⟩
  intro nd h
  obtain ⟨name, ops, rfl⟩ := hb
  have hb' : (((Node.new name).run ops).finalized sort false).Built := by
    refine ⟨name, ops ++ [.finalize sort false], ?_⟩
    have hfe := finalize_eq _ sort false (Node.Built.inv ⟨name, ops, rfl⟩).toNodeInv0 hf
    generalize hn : (Node.new name).run ops = n at hfe
    unfold Node.run at hn ⊢
    rw [List.foldl_append, hn]
    simp only [List.foldl_cons, List.foldl_nil, Node.step, hfe]
  obtain ⟨text, h1, h2⟩ := C66_readable_iff _ hb' (finalized_writable hw sort) nd h
  refine ⟨text, h1, fun st => reads_error ?_⟩
  intro r hr
  have ho := (h2 st).mp ⟨r, hr⟩
  exact ha ((finalized_ordered (Node.Built.inv ⟨name, ops, rfl⟩) sort false).mp ho t ht)

/-- The hypotheses can be met. -/
example : orSrc.Built ∧ orSrc.Writable ∧ orSrc.isFinalized = false ∧ ∃ t ∈ orSrc.types, ¬ t.elem.RefsBelow t.name :=
  ⟨(parseFile_built orSrc_loaded).1, orSrc_writable, (parseFile_built orSrc_loaded).2, orType, by simp [orSrc], orType_above⟩

end Apx
