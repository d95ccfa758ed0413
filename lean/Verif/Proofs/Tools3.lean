import Verif.Proofs.Tools2

/-! What the tools write can be loaded (for C76-C79). -/

namespace Apx

/-! ### Printing -/

/-- The lines, each with its line feed. -/
def feedLines (ls : List Str) : Str := ls.flatMap (· ++ ['\n'])

theorem joinLines_feed (ls : List Str) (h : ls ≠ []) : joinLines ls ++ ['\n'] = feedLines ls := by
  induction ls with
  | nil => exact absurd rfl h
  | cons l ls ih =>
    cases ls with
    | nil => simp [joinLines, feedLines]
    | cons m r =>
      have := ih (by simp)
      simp only [joinLines, List.append_assoc, List.cons_append, this]
      simp [feedLines]

theorem printAll_ok {α : Type} (f : α → Py Str) (l : List α) (ss : List Str) (h : mapPy f l = .ok ss) :
    printAll f l = (feedLines ss, .ok ()) := by
  induction l generalizing ss with
  | nil =>
    cases h
    rfl
  | cons x l ih =>
    simp only [mapPy, bind_ok_iff] at h
    obtain ⟨y, h1, r, h2, h3⟩ := h
    cases h3
    simp [printAll, h1, ih r h2, feedLines]

theorem fileText_ok (n : Node) (nm : Bool) (ls : List Str) (h : n.lines nm = .ok ls) :
    n.fileText nm = (joinLines (headerText :: ls) ++ ['\n', '\n'], .ok ()) := by
  simp only [Node.lines, bind_ok_iff] at h
  obtain ⟨t, h1, p, h2, r, h3, h4⟩ := h
  cases h4
  have hj := joinLines_feed (headerText :: ('N' :: '"' :: (n.name ++ ['"'])) :: (t ++ p ++ r)) (by simp)
  have : joinLines (headerText :: ('N' :: '"' :: (n.name ++ ['"'])) :: (t ++ p ++ r)) ++ ['\n', '\n']
      = (joinLines (headerText :: ('N' :: '"' :: (n.name ++ ['"'])) :: (t ++ p ++ r)) ++ ['\n']) ++ ['\n'] := by simp
  rw [this, hj]
  simp only [Node.fileText, Node.write, printAll_ok _ _ _ h1, printAll_ok _ _ _ h2, printAll_ok _ _ _ h3, thenPrint]
  simp [feedLines]

/-- The destination of the output of `emit`. -/
def destOf : Option Str → Dest
  | some f => .file f
  | none => .stdout

theorem emit_ok (n : Node) (hf : n.isFinalized = true) (file : Option Str) (nm : Bool) (ls : List Str)
    (h : n.lines nm = .ok ls) :
    n.emit file nm = ⟨[(destOf file, joinLines (headerText :: ls) ++ ['\n', '\n'])], .ok ()⟩ := by
  cases file with
  | some f => simp [Node.emit, Node.saveApx, Node.finalizeIfNot, hf, fileText_ok n nm ls h, destOf]
  | none =>
    have hne : ls ≠ [] := by
      rintro rfl
      simp [Node.lines, bind_ok_iff] at h
    have : joinLines (headerText :: ls) = headerText ++ ('\n' :: joinLines ls) := by
      cases ls with
      | nil => exact absurd rfl hne
      | cons l r => rfl
    simp [Node.emit, Node.printDumps, Node.dumps, hf, h, destOf, this]

theorem emit_unfinalized (n : Node) (hi : NodeInv0 n) (hf : n.isFinalized = false) (file : Option Str) (nm : Bool) :
    n.emit file nm = (n.finalized true false).emit file nm := by
  have he := finalize_eq n true false hi hf
  cases file with
  | some f => simp [Node.emit, Node.saveApx, Node.finalizeIfNot, hf, he, Node.finalized]
  | none => simp [Node.emit, Node.printDumps, Node.dumps, hf, he, Node.finalized]

/-! ### Loading -/

/-- Loading the text a tool has written. -/
theorem tool_text_reload {n : Node} (hi : NodeInv n) (ho : n.Ordered) (hw : n.Writable) (nm : Bool) :
    ∃ ls, n.lines nm = .ok ls ∧ parseFile (joinLines (headerText :: ls) ++ ['\n', '\n']) = .ok n.reloaded := by
  obtain ⟨ls, h1, _, h2, h3⟩ := lines_reload hi ho hw nm
  refine ⟨ls, h1, ?_⟩
  have hs : splitOn '\n' (joinLines (headerText :: ls) ++ ['\n', '\n']) = headerText :: (ls ++ [[], []]) := by
    have e : joinLines (headerText :: ls) ++ ['\n', '\n'] = joinLines (headerText :: (ls ++ [[], []])) := by
      rw [show headerText :: (ls ++ [[], []]) = ((headerText :: ls) ++ [[]]) ++ [[]] by simp,
        joinLines_snoc _ (by simp), joinLines_snoc _ (by simp)]
      simp
    rw [e]
    apply splitOn_joinLines _ (by simp)
    intro l hl
    simp only [List.mem_cons, List.mem_append, List.not_mem_nil, or_false] at hl
    rcases hl with rfl | hl | rfl | rfl
    · decide
    · exact h2 l hl
    · simp
    · simp
  have e1 : firstLine (joinLines (headerText :: ls) ++ ['\n', '\n']) = headerText := by unfold firstLine; rw [hs]; rfl
  have e2 : otherLines (joinLines (headerText :: ls) ++ ['\n', '\n']) = ls ++ [[], []] := by unfold otherLines; rw [hs]; rfl
  have hv : parseHeaderLine (rstripNewline headerText) = some ('1', '2') := by decide
  obtain ⟨cs, hcs⟩ := h3 none
  have hp : Parser.processLines ⟨none, .start⟩ (ls ++ [[], []]) = (⟨some n.reloaded, cs⟩, .ok ()) := by
    rw [processLines_append, hcs]
    rfl
  unfold parseFile
  rw [load_eq, e1, e2, hv]
  simp [Parser.new, hp, reloaded_finish hi]

/-! ### Order of the types -/

theorem str_lt_irrefl_of_le {a b : Str} (h : a < b) (h' : b ≤ a) : False := by
  exact absurd h (by simpa using h')

mutual
theorem Elem.refs_take {n : Node} {i : Nat} {t : TypeObj} (hs : SortedByName TypeObj.name n.types)
    (ht : n.types[i]? = some t) (e : Elem) (hr : e.RefsIn n.named) (hb : e.RefsBelow t.name) :
    e.RefsIn ((n.types.take i).map TypeObj.named) := by
  match e with
  | .prim _ _ _ _ => trivial
  | .refId _ => exact hr.elim
  | .refName _ => exact hr.elim
  | .record fs _ => exact Fields.refs_take hs ht fs hr hb
  | .refType m x =>
    obtain ⟨u, hu, hum, hue⟩ := mem_named hr
    obtain ⟨j, hj, hju⟩ := List.mem_iff_getElem.mp hu
    obtain ⟨hi, hit⟩ := List.getElem?_eq_some_iff.mp ht
    have hlt : m < t.name := hb
    have hji : j < i := by
      apply Nat.lt_of_not_le
      intro hij
      rcases Nat.lt_or_eq_of_le hij with hij | hij
      · have := List.pairwise_iff_getElem.mp hs i j hi hj hij
        rw [hit, hju, hum] at this
        exact str_lt_irrefl_of_le hlt this
      · subst hij
        rw [hit] at hju
        rw [hju, hum] at hlt
        exact str_lt_irrefl_of_le hlt (List.le_refl _)
    refine List.mem_map.mpr ⟨u, ?_, by simp [TypeObj.named, hum, hue]⟩
    rw [List.mem_take_iff_getElem]
    exact ⟨j, by omega, hju⟩
theorem Fields.refs_take {n : Node} {i : Nat} {t : TypeObj} (hs : SortedByName TypeObj.name n.types)
    (ht : n.types[i]? = some t) (fs : Fields) (hr : fs.RefsIn n.named) (hb : fs.RefsBelow t.name) :
    fs.RefsIn ((n.types.take i).map TypeObj.named) := by
  match fs with
  | .nil => trivial
  | .cons _ e r => exact ⟨Elem.refs_take hs ht e hr.1 hb.1, Fields.refs_take hs ht r hr.2 hb.2⟩
end

theorem ordered_of_sorted {n : Node} (hi : NodeInv n) (hs : SortedByName TypeObj.name n.types)
    (hb : ∀ t ∈ n.types, t.elem.RefsBelow t.name) : n.Ordered := by
  intro i t ht
  have hm := List.mem_of_getElem? ht
  exact Elem.refs_take hs ht t.elem (hi.refs t hm) (hb t hm)

/-! ### Output of a node that is not finalized -/

theorem finalized_sorted (n : Node) (sort compact : Bool) : SortedByName TypeObj.name (n.finalized sort compact).types := by
  have := names_of_content _ _ (finalized_content n sort compact)
  have hs := sortedByName_sorted TypeObj.name n.types
  unfold SortedByName at hs ⊢
  rw [← List.pairwise_map (f := TypeObj.name) (R := fun a b => a ≤ b)] at hs ⊢
  rw [this]; exact hs

theorem finalized_name (n : Node) (sort compact : Bool) : (n.finalized sort compact).name = n.name := by
  unfold Node.finalized Node.sortElements
  cases compact <;> cases sort <;> rfl

/-- What a tool writes for a node that is finalized first, and what is loaded from that. -/
theorem output_ok {m : Node} (hi : NodeInv m) (hw : m.Writable) (hb : ∀ t ∈ m.types, t.elem.RefsBelow t.name)
    (sort : Bool) (file : Option Str) (nm : Bool) :
    ∃ text r, (m.finalized sort false).emit file nm = ⟨[(destOf file, text)], .ok ()⟩ ∧ parseFile text = .ok r ∧
      r.name = m.name ∧ (r.types.map TypeObj.content).Perm (m.types.map TypeObj.content) ∧
      ∀ side, r.contents side = ((if sort then sortedByName Port.name (m.ports side) else m.ports side)).map Port.content := by
  have hi' := finalized_inv m sort false hi.toNodeInv0
  have hb' : ∀ t ∈ (m.finalized sort false).types, t.elem.RefsBelow t.name := by
    intro t ht
    have h1 : t.content ∈ (m.finalized sort false).types.map TypeObj.content := List.mem_map.mpr ⟨t, ht, rfl⟩
    rw [finalized_content] at h1
    obtain ⟨u, hu, he⟩ := List.mem_map.mp h1
    have hu' := (sortedByName_perm _ _).mem_iff.mp hu
    have := hb u hu'
    simp only [TypeObj.content, Prod.mk.injEq] at he
    rw [← he.1, ← he.2.1]
    exact this
  obtain ⟨ls, h1, h2⟩ := tool_text_reload hi' (ordered_of_sorted hi' (finalized_sorted m sort false) hb')
    (finalized_writable hw sort) nm
  obtain ⟨e1, e2, e3⟩ := reloaded_same (m.finalized sort false)
  refine ⟨_, _, emit_ok _ rfl file nm ls h1, h2, e1.trans (finalized_name _ _ _), ?_, ?_⟩
  · rw [e2, finalized_content]
    exact (sortedByName_perm _ _).map _
  · intro side
    have := e3 side
    rw [finalized_ports] at this
    exact this

/-! ### What the parser returns -/

theorem node_run_snoc (n : Node) (ops : List NodeOp) (op : NodeOp) : n.run (ops ++ [op]) = (n.run ops).step op := by
  simp [Node.run]

theorem Node.Built.step {n : Node} (h : n.Built) (op : NodeOp) : (n.step op).Built := by
  obtain ⟨name, ops, rfl⟩ := h
  exact ⟨name, ops ++ [op], (node_run_snoc _ _ _).symm⟩

/-- The node of a parser is built through the API. -/
def Parser.NodeBuilt (st : Parser) : Prop := ∀ n, st.node = some n → n.Built ∧ n.isFinalized = false

theorem typeLine_built (st : Parser) (l : Line) (h : st.NodeBuilt) : (st.typeLine l).1.NodeBuilt := by
  unfold Parser.typeLine
  split
  · rename_i m t he
    rw [bind_ok_iff] at he
    obtain ⟨⟨name, dsg, attr⟩, -, he⟩ := he
    simp only [bind_ok_iff] at he
    obtain ⟨c, h1, he⟩ := he
    split at he
    · cases he
    · rename_i n hn
      obtain ⟨hb, hf⟩ := h n hn
      intro m' hm'
      cases hm'
      have hstep : n.step (.addType name dsg attr) = m := by simp [Node.step, h1, he]
      refine ⟨hstep ▸ hb.step _, ?_⟩
      rcases addType_cases n m c t he with ⟨rfl, -⟩ | ⟨-, e, -, -, -, rfl⟩
      · exact hf
      · exact hf
  · exact h

theorem portLine_built (st : Parser) (side : Side) (l : Line) (h : st.NodeBuilt) : (st.portLine side l).1.NodeBuilt := by
  unfold Parser.portLine
  split
  · rename_i m t he
    rw [bind_ok_iff] at he
    obtain ⟨⟨name, dsg, attr⟩, -, he⟩ := he
    simp only [bind_ok_iff] at he
    obtain ⟨c, h1, he⟩ := he
    split at he
    · cases he
    · rename_i n hn
      obtain ⟨hb, hf⟩ := h n hn
      intro m' hm'
      cases hm'
      have hstep : n.step (.addPort side name dsg attr) = m := by simp [Node.step, h1, he]
      refine ⟨hstep ▸ hb.step _, ?_⟩
      obtain ⟨-, rfl⟩ := addPort_cases _ _ _ _ _ he
      rw [(setPorts_facts n side _).2.1]
      exact hf
  · exact h

theorem processParts_built (st : Parser) (l : Line) (h : st.NodeBuilt) : (st.processParts l).1.NodeBuilt := by
  have hcs : ∀ c, Parser.NodeBuilt { st with cs := c } := fun c n hn => h n hn
  unfold Parser.processParts
  split
  · exact h
  · split
    · split
      · intro n hn
        cases hn
        exact ⟨⟨_, [], rfl⟩, rfl⟩
      · exact h
    all_goals
      repeat' split
      all_goals first
        | exact h
        | exact typeLine_built _ _ (hcs _)
        | exact portLine_built _ _ _ (hcs _)
        | exact typeLine_built _ _ h
        | exact portLine_built _ _ _ h

theorem processLines_built (ls : List Str) (st : Parser) (h : st.NodeBuilt) : (st.processLines ls).1.NodeBuilt := by
  induction ls generalizing st with
  | nil => exact h
  | cons l ls ih =>
    have h1 := processParts_built st (splitLine l) h
    simp only [Parser.processLines, Parser.processLine]
    split
    · rename_i st' he
      rw [he] at h1
      exact ih st' h1
    · rename_i st' x he
      rw [he] at h1
      exact h1

theorem finish_built (st : Parser) (x : PyErr) (h : st.NodeBuilt) :
    (st.finish x).1.NodeBuilt ∧ ∀ n, (st.finish x).2 = .ok n → n.Built ∧ n.isFinalized = false := by
  unfold Parser.finish
  split
  · exact ⟨h, fun n hn => by cases hn⟩
  · rename_i n hn
    obtain ⟨hb, hf⟩ := h n hn
    rw [resolveTypes_id n n.named hb.inv.ports]
    refine ⟨fun m hm => by cases hm; exact ⟨hb, hf⟩, fun m hm => by cases hm; exact ⟨hb, hf⟩⟩

theorem load_built (st : Parser) (text : Str) (h : st.NodeBuilt) :
    (st.load text).1.NodeBuilt ∧ ∀ n, (st.load text).2 = .ok n → n.Built ∧ n.isFinalized = false := by
  have hcs : Parser.NodeBuilt ⟨st.node, .start⟩ := fun n hn => h n hn
  unfold Parser.load
  simp only
  split
  · exact ⟨h, fun n hn => by cases hn⟩
  · unfold Parser.parseV12
    have h1 := processLines_built ((fileLines text).tail.map rstripNewline) _ hcs
    split
    · rename_i st' x he
      rw [he] at h1
      exact ⟨h1, fun n hn => by cases hn⟩
    · rename_i st' he
      rw [he] at h1
      exact finish_built st' _ h1

theorem parseFile_built {text : Str} {n : Node} (h : parseFile text = .ok n) : n.Built ∧ n.isFinalized = false :=
  (load_built Parser.new text (fun n hn => by cases hn)).2 n h

theorem parseFiles_built (texts : List Str) (st : Parser) (h : st.NodeBuilt) (srcs : List Node)
    (hp : parseFiles st texts = .ok srcs) : ∀ n ∈ srcs, n.Built ∧ n.isFinalized = false := by
  induction texts generalizing st srcs with
  | nil => cases hp; simp
  | cons t texts ih =>
    simp only [parseFiles] at hp
    have hl := load_built st t h
    split at hp
    · cases hp
    · rename_i st' n he
      rw [he] at hl
      rw [bind_ok_iff] at hp
      obtain ⟨r, h1, h2⟩ := hp
      cases h2
      intro m hm
      rcases List.mem_cons.mp hm with rfl | hm
      · exact hl.2 _ rfl
      · exact ih st' hl.1 r h1 m hm

/-- What the parser has parsed before does not matter, or no node line has been seen. -/
theorem processLines_start (ls : List Str) (a b : Option Node) :
    Parser.processLines ⟨a, .start⟩ ls = Parser.processLines ⟨b, .start⟩ ls ∨
      (∃ x, (Parser.processLines ⟨a, .start⟩ ls).2 = .error x) ∧ (∃ x, (Parser.processLines ⟨b, .start⟩ ls).2 = .error x) ∨
      Parser.processLines ⟨a, .start⟩ ls = (⟨a, .start⟩, .ok ()) ∧ Parser.processLines ⟨b, .start⟩ ls = (⟨b, .start⟩, .ok ()) := by
  induction ls with
  | nil => exact .inr (.inr ⟨rfl, rfl⟩)
  | cons l ls ih =>
    by_cases h1 : splitLine l = .blank
    · simpa only [Parser.processLines, Parser.processLine, Parser.processParts, h1, if_pos] using ih
    · by_cases h2 : (splitLine l).kind = some ['N']
      · left
        simp only [Parser.processLines, Parser.processLine, Parser.processParts, h1, if_false, h2, if_pos]
      · right; left
        simp only [Parser.processLines, Parser.processLine, Parser.processParts, h1, if_false, h2]
        exact ⟨⟨_, rfl⟩, ⟨_, rfl⟩⟩

/-- A text that a new parser loads is loaded in the same way by every parser. -/
theorem load_any {text : Str} {n : Node} (h : parseFile text = .ok n) (st : Parser) : (st.load text).2 = .ok n := by
  revert h
  unfold parseFile Parser.load
  simp only
  split
  · intro h; cases h
  · unfold Parser.parseV12
    rcases processLines_start ((fileLines text).tail.map rstripNewline) st.node Parser.new.node with h | ⟨-, x, h⟩ | ⟨-, h⟩
    · rw [h]; exact id
    · intro hl
      split at hl
      · cases hl
      · rename_i he
        rw [he] at h
        cases h
    · intro hl
      rw [h] at hl
      cases hl

theorem parseFiles_each {texts : List Str} {srcs : List Node} (h : mapPy parseFile texts = .ok srcs) (st : Parser) :
    parseFiles st texts = .ok srcs := by
  induction texts generalizing st srcs with
  | nil => exact h
  | cons t texts ih =>
    simp only [mapPy, bind_ok_iff] at h
    obtain ⟨n, h1, r, h2, h3⟩ := h
    cases h3
    have h4 := load_any h1 st
    simp only [parseFiles]
    split
    · rename_i he
      rw [he] at h4
      cases h4
    · rename_i he
      rw [he] at h4
      cases h4
      simp only [ih h2, ok_bind]

/-! ### Examples -/

/-- What can be compared of a port. -/
def Port.view (p : Port) : Str × Elem × Bool × Option Nat := (p.name, p.elem, p.attr.isSome, p.id)

/-- What can be compared of a type. -/
def TypeObj.view (t : TypeObj) : Str × Elem × Bool × Option Nat :=
  (t.name, t.elem, t.attr.isSome || t.shortName.isSome, t.id)

theorem map_view_inj {α β : Type} {f : α → β} {l m : List α} (h : l.map f = m.map f)
    (hf : ∀ a, ∀ b ∈ m, f a = f b → a = b) : l = m := by
  induction l generalizing m with
  | nil => cases m with
    | nil => rfl
    | cons b m => simp at h
  | cons a l ih =>
    cases m with
    | nil => simp at h
    | cons b m =>
      simp only [List.map_cons, List.cons.injEq] at h
      rw [hf a b (by simp) h.1, ih h.2 fun a b hb => hf a b (by simp [hb])]

theorem view_inj {n m : Node} (h1 : n.name = m.name) (h2 : n.isFinalized = m.isFinalized)
    (h3 : n.types.map TypeObj.view = m.types.map TypeObj.view) (h4 : n.requires.map Port.view = m.requires.map Port.view)
    (h5 : n.provides.map Port.view = m.provides.map Port.view) (hm : ∀ p ∈ m.requires ++ m.provides, p.attr.isNone)
    (ht : ∀ t ∈ m.types, t.attr.isNone ∧ t.shortName.isNone) : n = m := by
  cases n; cases m
  cases h1; cases h2
  simp only at h3 h4 h5 hm ht
  have hp : ∀ (a b : Port), b.attr.isNone → a.view = b.view → a = b := by
    intro a b hb hv
    cases a; cases b
    simp only [Port.view, Prod.mk.injEq] at hv
    obtain ⟨rfl, rfl, h3, rfl⟩ := hv
    simp only [Option.isNone_iff_eq_none] at hb
    subst hb
    simp at h3
    rw [h3]
  have h1 := map_view_inj h3 fun a b hb he => by
    have hb := ht b hb
    cases a; cases b
    simp only [TypeObj.view, Prod.mk.injEq] at he
    obtain ⟨rfl, rfl, h3, rfl⟩ := he
    simp only [Option.isNone_iff_eq_none] at hb
    obtain ⟨rfl, rfl⟩ := hb
    simp at h3
    rw [h3.1, h3.2]
  have h2 := map_view_inj h4 fun a b hb he => hp a b (hm b (List.mem_append_left _ hb)) he
  have h3 := map_view_inj h5 fun a b hb he => hp a b (hm b (List.mem_append_right _ hb)) he
  rw [h1, h2, h3]

theorem loaded_of_view {text : Str} {m : Node} (h1 : (parseFile text).toOption.map Node.name = some m.name)
    (h2 : (parseFile text).toOption.map (fun n => n.types.map TypeObj.view) = some (m.types.map TypeObj.view))
    (h3 : (parseFile text).toOption.map (fun n => n.requires.map Port.view) = some (m.requires.map Port.view))
    (h4 : (parseFile text).toOption.map (fun n => n.provides.map Port.view) = some (m.provides.map Port.view))
    (hf : m.isFinalized = false) (hm : ∀ p ∈ m.requires ++ m.provides, p.attr.isNone)
    (ht : ∀ t ∈ m.types, t.attr.isNone ∧ t.shortName.isNone) : parseFile text = .ok m := by
  cases hp : parseFile text with
  | error x => rw [hp] at h1; cases h1
  | ok n =>
    have hb := (parseFile_built hp).2
    rw [hp] at h1 h2 h3 h4
    simp only [Except.toOption, Option.map_some, Option.some.injEq] at h1 h2 h3 h4
    rw [view_inj h1 (by rw [hb, hf]) h2 h3 h4 hm ht]

end Apx
