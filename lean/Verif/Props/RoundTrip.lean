import Verif.Proofs.RoundTrip

/-! C47: the text of a node, loaded again, gives the same definition. -/

namespace Apx

/-- C42: appending the text of a port line adds the port it describes, on the side its letter says. -/
theorem C42_append_line (n : Node) (side : Side) (name dsg : Str) (attr : Option Str)
    (hn : '"' ∉ name ∧ '#' ∉ name ∧ '\n' ∉ name) (hd : dsg ≠ [] ∧ ':' ∉ dsg ∧ '#' ∉ dsg ∧ '\n' ∉ dsg)
    (he : dsg.getLast? ≠ some ' ' ∧ dsg.getLast? ≠ some '\r') (ha : ∀ a, attr = some a → AttrOk a) :
    n.appendText ([if side = .require then 'R' else 'P'] ++ ['"'] ++ name ++ ['"'] ++ dsg ++
        attr.elim [] (':' :: ·)) =
      (mkPort name dsg attr >>= n.addPort side) := by
  have hew : EndsWell dsg := by
    rcases List.eq_nil_or_concat dsg with rfl | ⟨b, x, rfl⟩
    · simp at hd
    · rw [List.concat_eq_append] at *
      refine ⟨b, x, rfl, ?_⟩
      have h1 : x ≠ '\n' := by rintro rfl; simp at hd
      simp only [List.getLast?_append, List.getLast?_singleton, Option.some_or, ne_eq, Option.some.injEq] at he
      simp [isTrail, h1, he.1, he.2]
  have hcut : ∀ c, IsCut c → c ∉ dsg := by
    rintro c (rfl | rfl | rfl)
    · exact hd.2.1
    · exact hd.2.2.1
    · exact hd.2.2.2
  have h := (splitLine_lineText side.letter name dsg attr (by cases side <;> decide) (by cases side <;> decide) hn hew hcut ha).1
  have ht : [if side = .require then 'R' else 'P'] ++ ['"'] ++ name ++ ['"'] ++ dsg ++
        attr.elim [] (':' :: ·) = lineText side.letter name dsg attr := by
    cases side <;> cases attr <;> simp [lineText, Side.letter]
  rw [ht]
  unfold Node.appendText
  rw [h]
  cases side <;> simp [Side.letter, lineName]

/-- What a comment hides does not matter: neither in the middle of a text nor at its end. -/
theorem stripComment_middle (a c t : Str) (ha : '#' ∉ a) (hc : '\n' ∉ c) :
    stripComment (a ++ '#' :: (c ++ '\n' :: t)) = a ++ '\n' :: stripComment t := by
  unfold stripComment
  induction a with
  | nil =>
    simp only [List.nil_append, stripCommentGo, if_pos]
    induction c with
    | nil => simp [stripCommentGo]
    | cons x c ih =>
      simp only [List.mem_cons, not_or] at hc
      simp only [List.cons_append, stripCommentGo]
      rw [if_neg (fun e => hc.1 e.symm)]
      exact ih hc.2
  | cons x a ih =>
    simp only [List.mem_cons, not_or] at ha
    simp only [List.cons_append, stripCommentGo]
    rw [if_neg (fun e => ha.1 e.symm), ih ha.2]

theorem stripComment_plain (a t : Str) (ha : '#' ∉ a) : stripComment (a ++ t) = a ++ stripComment t := by
  unfold stripComment
  induction a with
  | nil => rfl
  | cons x a ih =>
    simp only [List.mem_cons, not_or] at ha
    simp only [List.cons_append, stripCommentGo]
    rw [if_neg (fun e => ha.1 e.symm), ih ha.2]

/-- C50: a comment inside the text given to `append` ends with its line; leaving it out makes no
difference, and neither does a comment at the end. -/
theorem C50_comment_in_item (n : Node) (a c t : Str) (ha : '#' ∉ a) (hc : '\n' ∉ c) :
    n.appendText (a ++ '#' :: (c ++ '\n' :: t)) = n.appendText (a ++ '\n' :: t) ∧
      n.appendText (a ++ '#' :: c) = n.appendText a := by
  have h1 : stripComment (a ++ '#' :: (c ++ '\n' :: t)) = stripComment (a ++ '\n' :: t) := by
    rw [stripComment_middle a c t ha hc, stripComment_plain a _ ha]
    simp [stripComment, stripCommentGo]
  have h2 : stripComment (a ++ '#' :: c) = stripComment a := by
    rw [stripComment_plain a _ ha]
    have := stripComment_plain a [] ha
    rw [List.append_nil] at this
    rw [this]
    simp [stripComment, stripCommentGo, stripCommentGo_true c hc]
  unfold Node.appendText splitLine
  rw [h1, h2]
  exact ⟨rfl, rfl⟩

example : (match (Node.new ['N']).appendText "P\"a\" #x\nS:=1 # y".toList with
    | .ok (m, _) => decide (m.provides.map Port.name = [['a']])
    | _ => false) = false ∧
  (match (Node.new ['N']).appendText "P\"a\"S:=1 #x\n # y".toList with
    | .ok (m, _) => decide (m.provides.map Port.name = [['a']])
    | _ => false) = true := by decide +kernel

/-- C47: the definition text of a node (the file a client publishes) can be loaded by either function
and gives the same types and ports in the same order; for every history that does not finalize the
node, if its names and attributes can be written (`Node.Writable`). -/
theorem C47_definition_text (name : Str) (ops : List NodeOp) (hops : ∀ op ∈ ops, ¬ op.Finalizes)
    (hw : ((Node.new name).run ops).Writable) (normalized : Bool) :
    ∃ text m, ((Node.new name).run ops).definitionText normalized = .ok text ∧
      m.SameDefinition ((Node.new name).run ops) ∧
      ∀ st : Parser, (st.loads text).2 = .ok m ∧ (st.load text).2 = .ok m := by
  have hi : NodeInv ((Node.new name).run ops) := Node.Built.inv ⟨name, ops, rfl⟩
  have ho : ((Node.new name).run ops).Ordered := fun i t h => C46_earlier name ops hops i t h
  obtain ⟨ls, h1, h2⟩ := text_reload hi ho hw normalized
  exact ⟨_, _, by simp [Node.definitionText, h1], reloaded_same _, h2 _ rfl⟩

theorem ordered_of_content {a b : Node} (h : a.types.map TypeObj.content = b.types.map TypeObj.content)
    (hb : b.Ordered) : a.Ordered := by
  intro i t ht
  have h1 : (a.types.map TypeObj.content)[i]? = some t.content := by simp [ht]
  rw [h, List.getElem?_map, Option.map_eq_some_iff] at h1
  obtain ⟨u, hu, he⟩ := h1
  have h2 := hb i u hu
  have h3 : (a.types.take i).map TypeObj.named = (b.types.take i).map TypeObj.named := by
    apply named_of_content
    rw [List.map_take, List.map_take, h]
  have h4 : u.elem = t.elem := congrArg (fun c => c.2.1) he
  rw [h3, ← h4]; exact h2

theorem finalized_writable {n : Node} (hw : n.Writable) (sort : Bool) : (n.finalized sort false).Writable := by
  refine ⟨?_, ?_, ?_⟩
  · have : (n.finalized sort false).name = n.name := by
      unfold Node.finalized Node.sortElements
      cases sort <;> rfl
    rw [this]; exact hw.name
  · intro t ht
    rw [finalized_types] at ht
    obtain ⟨i, u, hu, rfl⟩ : ∃ i u, u ∈ sortedByName TypeObj.name n.types ∧ t = { u with id := some i } := by
      obtain ⟨i, hi⟩ := List.getElem?_of_mem ht
      rw [List.getElem?_mapIdx, Option.map_eq_some_iff] at hi
      obtain ⟨u, hu, rfl⟩ := hi
      exact ⟨i, u, List.mem_of_getElem? hu, rfl⟩
    exact hw.types u ((sortedByName_perm _ _).mem_iff.mp hu)
  · intro side p hp
    rw [finalized_ports] at hp
    split at hp
    · exact hw.ports side p ((sortedByName_perm _ _).mem_iff.mp hp)
    · exact hw.ports side p hp

/-- C47: `dumps` succeeds on every writable node built through the API, and finalizes it. If in the
finalized node no type refers to a later one, the text can be loaded by either function, and gives
the same types and ports in the same order. -/
theorem C47_dump_partial (n : Node) (hb : n.Built) (hw : n.Writable) (normalized : Bool) :
    ∃ n' text, n.dumps normalized = .ok (n', text) ∧
      (n.isFinalized = true → n' = n) ∧ (n.isFinalized = false → n.finalize true false = .ok n') ∧
      (n'.Ordered → ∃ m, m.SameDefinition n' ∧
        ∀ st : Parser, (st.loads text).2 = .ok m ∧ (st.load text).2 = .ok m) := by
  have key : ∀ n' : Node, NodeInv n' → n'.Writable → n'.Ordered → ∀ ls, n'.lines normalized = .ok ls →
      ∃ m, m.SameDefinition n' ∧ ∀ st : Parser,
        (st.loads (headerText ++ ('\n' :: (joinLines ls ++ ['\n'])))).2 = .ok m ∧
        (st.load (headerText ++ ('\n' :: (joinLines ls ++ ['\n'])))).2 = .ok m := by
    intro n' hi' hw' ho ls hls
    obtain ⟨ls', h1, h2⟩ := text_reload hi' ho hw' normalized
    rw [hls] at h1
    simp only [Except.ok.injEq] at h1
    subst h1
    refine ⟨_, reloaded_same n', ?_⟩
    intro st
    have hne : ls ≠ [] := by
      rintro rfl
      simp [Node.lines, bind_ok_iff] at hls
    apply h2
    cases ls with
    | nil => exact absurd rfl hne
    | cons l ls => simp [joinLines]
  have hlines : ∀ n' : Node, NodeInv n' → n'.Writable → ∃ ls, n'.lines normalized = .ok ls := by
    intro n' hi' hw'
    have hmap : ∀ {α : Type} (f : α → Py Str) (l : List α), (∀ x ∈ l, ∃ s, f x = .ok s) → ∃ r, mapPy f l = .ok r := by
      intro α f l h
      induction l with
      | nil => exact ⟨[], rfl⟩
      | cons x l ih =>
        obtain ⟨s, hs⟩ := h x (by simp)
        obtain ⟨r, hr⟩ := ih (fun y hy => h y (by simp [hy]))
        exact ⟨s :: r, by simp [mapPy, hs, hr]⟩
    obtain ⟨t, ht⟩ := hmap (TypeObj.toStr n'.ids false) n'.types (by
      intro x hx
      obtain ⟨s, hs, _⟩ := Elem.parse_toStr_data n'.ids false x.elem (hw'.types x hx).2.1
      exact ⟨_, by simp only [TypeObj.toStr, hs, ok_bind]; rfl⟩)
    have hp : ∀ side, ∃ r, mapPy (Port.toStr n'.ids normalized side) (n'.ports side) = .ok r := by
      intro side
      apply hmap
      intro x hx
      obtain ⟨s, hs, _⟩ := Elem.parse_toStr_data n'.ids normalized x.elem (hw'.ports side x hx).2.1
      exact ⟨_, by simp only [Port.toStr, hs, ok_bind]; rfl⟩
    obtain ⟨p, hp1⟩ := hp .provide
    obtain ⟨r, hr1⟩ := hp .require
    simp only [Node.ports] at hp1 hr1
    exact ⟨_, by simp only [Node.lines, ht, hp1, hr1, ok_bind]; rfl⟩
  cases hf : n.isFinalized with
  | true =>
    obtain ⟨ls, hls⟩ := hlines n hb.inv hw
    refine ⟨n, _, by simp only [Node.dumps, hf, if_true, ok_bind, hls]; rfl, fun _ => rfl, by simp, ?_⟩
    exact fun ho => key n hb.inv hw ho ls hls
  | false =>
    have he := finalize_eq n true false hb.inv.toNodeInv0 hf
    have hi' := finalized_inv n true false hb.inv.toNodeInv0
    obtain ⟨ls, hls⟩ := hlines _ hi' (finalized_writable hw true)
    refine ⟨n.finalized true false, _, by simp only [Node.dumps, hf, he, hls, ok_bind, Bool.false_eq_true, if_false]; rfl, by simp, fun _ => he, ?_⟩
    exact fun ho => key _ hi' (finalized_writable hw true) ho ls hls

/-- C47: in particular if the types were added in the order of their names: then sorting does not
move them, and the text loads with the same types, and the same ports sorted by name. -/
theorem C47_dump_sorted (name : Str) (ops : List NodeOp) (hops : ∀ op ∈ ops, ¬ op.Finalizes)
    (hf : ((Node.new name).run ops).isFinalized = false)
    (hs : SortedByName TypeObj.name ((Node.new name).run ops).types)
    (hw : ((Node.new name).run ops).Writable) (normalized : Bool) :
    ∃ n' text m, ((Node.new name).run ops).dumps normalized = .ok (n', text) ∧
      m.name = ((Node.new name).run ops).name ∧
      m.types.map TypeObj.content = ((Node.new name).run ops).types.map TypeObj.content ∧
      (∀ side, SortedByName Port.name (m.ports side) ∧
        ((m.ports side).map Port.content).Perm ((((Node.new name).run ops).ports side).map Port.content)) ∧
      ∀ st : Parser, (st.loads text).2 = .ok m ∧ (st.load text).2 = .ok m := by
  have hb : ((Node.new name).run ops).Built := ⟨name, ops, rfl⟩
  have ho : ((Node.new name).run ops).Ordered := fun i t h => C46_earlier name ops hops i t h
  revert hf hs hw hb ho
  generalize (Node.new name).run ops = n
  intro hf hs hw hb ho
  obtain ⟨n', text, h1, _, h2, h3⟩ := C47_dump_partial n hb hw normalized
  have he := h2 hf
  rw [finalize_eq n true false hb.inv.toNodeInv0 hf, Except.ok.injEq] at he
  have hc := finalized_content n true false
  rw [sortedByName_of_sorted _ _ hs, he] at hc
  obtain ⟨m, ⟨e1, e2, e3⟩, hl⟩ := h3 (ordered_of_content hc ho)
  refine ⟨n', text, m, h1, ?_, e2.trans hc, ?_, hl⟩
  · rw [e1, ← he]
    unfold Node.finalized Node.sortElements
    rfl
  · intro side
    have hp : n'.ports side = sortedByName Port.name (n.ports side) := by
      rw [← he, finalized_ports]; rfl
    refine ⟨?_, ?_⟩
    · have hname : ∀ l l' : List Port, l.map Port.content = l'.map Port.content →
          l.map Port.name = l'.map Port.name := by
        intro l l' h
        have := congrArg (List.map (fun c : Str × Elem × Option PortAttr => c.1)) h
        simpa [Port.content, Function.comp_def, List.map_map] using this
      have h4 := hname _ _ (e3 side)
      have h5 := sortedByName_sorted Port.name (n.ports side)
      rw [← hp] at h5
      unfold SortedByName at h5 ⊢
      rw [← List.pairwise_map (f := Port.name) (R := fun a b => a ≤ b)] at h5 ⊢
      rw [h4]; exact h5
    · rw [e3 side, hp]
      exact (sortedByName_perm _ _).map _

/-- A node with a record type that refers to another type, and ports using them. -/
def rtOps : List NodeOp :=
  [.addType ['A'] ['C', '(', '0', ',', '3', ')'] none,
   .addType ['B'] ['{', '"', 'x', '"', 'T', '[', '0', ']', '"', 'y', '"', 'S', '[', '2', ']', '}'] none,
   .addPort .provide ['p'] ['T', '[', '"', 'B', '"', ']'] none,
   .addPort .require ['r'] ['T', '[', '0', ']'] (some ['=', '2']),
   .addPort .require ['q'] ['a', '[', '4', ']'] (some ['=', '"', '"'])]

theorem rtOps_not_final : ∀ op ∈ rtOps, ¬ op.Finalizes := by
  simp [rtOps, NodeOp.Finalizes]

example : ((Node.new ['N']).run rtOps).types.length = 2 ∧ ((Node.new ['N']).run rtOps).requires.length = 2 ∧
    ((Node.new ['N']).run rtOps).provides.length = 1 ∧ ((Node.new ['N']).run rtOps).isFinalized = false := by
  decide +kernel

theorem rtOps_types : ((Node.new ['N']).run rtOps).types.map
      (fun t => (t.name, t.elem, t.shortName, t.attr.map TypeAttr.str)) =
    [(['A'], .prim .u8 (some 0) (some 3) none, none, none),
     (['B'], .record (.cons (some ['x']) (.refType ['A'] (.prim .u8 (some 0) (some 3) none))
        (.cons (some ['y']) (.prim .u16 none none (some 2)) .nil)) none, none, none)] := by
  decide +kernel

theorem rtOps_ports :
    ((Node.new ['N']).run rtOps).provides.map (fun p => (p.name, p.elem, p.attr.map PortAttr.str)) =
      [(['p'], .refType ['B'] (.record (.cons (some ['x']) (.refType ['A'] (.prim .u8 (some 0) (some 3) none))
        (.cons (some ['y']) (.prim .u16 none none (some 2)) .nil)) none), none)] ∧
    ((Node.new ['N']).run rtOps).requires.map (fun p => (p.name, p.elem, p.attr.map PortAttr.str)) =
      [(['r'], .refType ['A'] (.prim .u8 (some 0) (some 3) none), some ['=', '2']),
       (['q'], .prim .str none none (some 4), some ['=', '"', '"'])] := by
  decide +kernel

/-- The example can be written. -/
theorem rtOps_writable : ((Node.new ['N']).run rtOps).Writable := by
  refine ⟨?_, ?_, ?_⟩
  · have : ((Node.new ['N']).run rtOps).name = ['N'] := by decide +kernel
    rw [this]; unfold NameOk; decide
  · intro t ht
    have hm := List.mem_map_of_mem (f := fun t : TypeObj => (t.name, t.elem, t.shortName, t.attr.map TypeAttr.str)) ht
    rw [rtOps_types] at hm
    simp only [List.mem_cons, List.not_mem_nil, or_false, Prod.mk.injEq, Option.map_eq_none_iff] at hm
    rcases hm with ⟨h1, h2, h3, h4⟩ | ⟨h1, h2, h3, h4⟩ <;> rw [h1, h2, h3, h4] <;>
      simp [NameOk, Elem.WellFormed, Elem.Clean, Fields.WellFormed, Fields.Clean, QuoteFree, RefNameOk]
  · intro side p hp
    have hm := List.mem_map_of_mem (f := fun p : Port => (p.name, p.elem, p.attr.map PortAttr.str)) hp
    cases side with
    | provide =>
      simp only [Node.ports] at hm
      rw [rtOps_ports.1] at hm
      simp only [List.mem_cons, List.not_mem_nil, or_false, Prod.mk.injEq, Option.map_eq_none_iff] at hm
      obtain ⟨h1, h2, h3⟩ := hm
      rw [h1, h2, h3]
      simp [NameOk, Elem.WellFormed, Elem.Clean, RefNameOk]
    | require =>
      simp only [Node.ports] at hm
      rw [rtOps_ports.2] at hm
      simp only [List.mem_cons, List.not_mem_nil, or_false, Prod.mk.injEq, Option.map_eq_some_iff] at hm
      rcases hm with ⟨h1, h2, a, h3, h4⟩ | ⟨h1, h2, a, h3, h4⟩ <;> rw [h1, h2, h3] <;>
        simp [NameOk, Elem.WellFormed, Elem.Clean, RefNameOk, AttrOk, h4]

example : (∀ op ∈ rtOps, ¬ op.Finalizes) ∧ ((Node.new ['N']).run rtOps).Writable ∧
    ((Node.new ['N']).run rtOps).isFinalized = false ∧
    SortedByName TypeObj.name ((Node.new ['N']).run rtOps).types := by
  refine ⟨rtOps_not_final, rtOps_writable, by decide +kernel, ?_⟩
  unfold SortedByName
  decide +kernel

/-- A text that cannot be loaded because a record type comes before a type it refers to (`C47_sorted_violated`). -/
example :
    (do let (_, text) ← ((Node.new ['N']).run [.addType ['B'] ['C'] none,
          .addType ['A'] ['{', '"', 'x', '"', 'T', '[', '"', 'B', '"', ']', '}'] none]).dumps true
        (Parser.new.loads text).2 : Py Node).toOption.isNone ∧
    (((Node.new ['N']).run [.addType ['B'] ['C'] none,
          .addType ['A'] ['{', '"', 'x', '"', 'T', '[', '"', 'B', '"', ']', '}'] none]).dumps true).toOption.isSome := by
  decide +kernel

/-- Compact names: the types are written under their short names, while a normalized text refers to them by their full
names (`C47_compact_violated`). -/
example :
    let n := (Node.new ['N']).run [.addType ['A'] ['C'] none, .addPort .provide ['p'] ['T', '[', '0', ']'] none,
      .finalize true true]
    (n.dumps true).toOption.isSome ∧ (do let (_, text) ← n.dumps true; (Parser.new.loads text).2 : Py Node).toOption.isNone := by
  decide +kernel

/-- A hash sign in a name: the rest of the line is read as a comment, and the text written cannot be loaded
(`C47_name_violated`). -/
example :
    let n := (Node.new ['N']).run [.addPort .provide ['a', '#', 'b'] ['C'] none]
    n.provides.length = 1 ∧ (n.dumps true).toOption.isSome ∧
      (do let (_, text) ← n.dumps true; (Parser.new.loads text).2 : Py Node).toOption.isNone := by
  decide +kernel

/-- A port whose signature is a record containing a type number: the node cannot be written (`C47_record_port_violated`). -/
example :
    let n := (Node.new ['N']).run [.addType ['A'] ['C'] none,
      .addPort .provide ['p'] ['{', '"', 'x', '"', 'T', '[', '0', ']', '}'] none]
    n.provides.length = 1 ∧ (n.dumps true).toOption.isNone ∧ (n.definitionText true).toOption.isNone := by
  decide +kernel

end Apx
