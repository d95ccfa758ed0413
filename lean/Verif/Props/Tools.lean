import Verif.Proofs.Tools3
import Verif.Props.NodeData
import Verif.Props.Definition
import Verif.Proofs.Grammar

/-!
C76: splitting a definition with a command line tool.
-/

namespace Apx

/-! ### C76 -/

theorem compatible_single {src : Node} (hb : src.Built) (hw : src.Writable) (hnames : src.portNames.Nodup)
    (hapart : ∀ t ∈ src.types, t.name ∉ src.portNames) (hcopy : ∀ t ∈ src.types, t.elem.Copyable) : Compatible (· = src) where
  built := by rintro n rfl; exact hb
  copy := by
    rintro n rfl t ht
    exact ⟨(hw.types t ht).2.1, hcopy t ht, (hw.types t ht).2.2.2.1⟩
  wf := by
    rintro n rfl side p hp
    exact (hw.ports side p hp).2.1
  types := by
    rintro n m rfl rfl t ht u hu he
    rw [unique_types hb.inv ht hu he]
  apart := by
    rintro n m rfl rfl t ht
    exact hapart t ht
  ports := by
    rintro n m rfl rfl side side' p hp q hq he
    have ht : ∀ {r : Port} {s : Side}, r ∈ m.ports s → r.name ∉ m.types.map TypeObj.name := by
      intro r s hr hx
      obtain ⟨t, ht, hn⟩ := List.mem_map.mp hx
      exact hapart t ht (mem_portNames.mpr ⟨s, r, hr, hn.symm⟩)
    have h1 := find_port hnames hp (ht hp)
    have h2 := find_port hnames hq (ht hq)
    rw [he, h2] at h1
    simp only [Option.some.injEq, Found.port.injEq] at h1
    exact ⟨h1.1.symm, by rw [h1.2]⟩

theorem compatible_one {src : Node} (hb : src.Built) (hs : src.Splittable) : Compatible (· = src) :=
  compatible_single hb hs.writable hs.names hs.apart hs.copy

theorem assembled_writable {S : Node → Prop} {n : Node} (h : Assembled S n) (hS : ∀ m, S m → m.Writable) (hn : NameOk n.name) :
    n.Writable := by
  refine ⟨hn, ?_, ?_⟩
  · intro t ht
    obtain ⟨h1, m, hm, u, hu, he⟩ := h.types t ht
    obtain ⟨a, b, c, -, e⟩ := (hS m hm).types u hu
    simp only [TypeObj.content, Prod.mk.injEq] at he
    rw [he.1, he.2.1, he.2.2]
    exact ⟨a, b, c, h1, e⟩
  · intro side p hp
    obtain ⟨m, hm, q, hq, he⟩ := h.port hp
    have := (hS m hm).ports side q hq
    simp only [Port.content, Prod.mk.injEq] at he
    rw [← he.1, ← he.2.1, ← he.2.2]
    exact this

theorem assembled_below {S : Node → Prop} {n : Node} (h : Assembled S n)
    (hS : ∀ m, S m → ∀ t ∈ m.types, t.elem.RefsBelow t.name) : ∀ t ∈ n.types, t.elem.RefsBelow t.name := by
  intro t ht
  obtain ⟨h1, m, hm, u, hu, he⟩ := h.types t ht
  simp only [TypeObj.content, Prod.mk.injEq] at he
  rw [he.1, he.2.1]
  exact hS m hm u hu

/-- The direction of the ports after mirroring. -/
def Side.flipIf (b : Bool) (s : Side) : Side := if b then s.flip else s

theorem mirrorIf_ok {n : Node} (hi : NodeInv n) (hw : n.Writable) (hf : n.isFinalized = false) (b : Bool) :
    ∃ m, mirrorIf b n = .ok m ∧ NodeInv m ∧ m.Writable ∧ m.isFinalized = false ∧ m.name = n.name ∧ m.types = n.types ∧
      ∀ side, m.contents (side.flipIf b) = n.contents side := by
  cases b with
  | false => exact ⟨n, rfl, hi, hw, hf, rfl, rfl, fun _ => rfl⟩
  | true =>
    have he := mirror_eq hi none fun side p hp => (hw.ports side p hp).2.1
    have hi' := step_inv n (.mirror none) hi
    simp only [Node.step, he] at hi'
    refine ⟨_, he, hi', ⟨hw.name, hw.types, ?_⟩, rfl, rfl, rfl, ?_⟩
    · intro side p hp
      cases side with
      | require =>
        obtain ⟨q, hq, rfl⟩ := List.mem_map.mp hp
        exact hw.ports .provide q hq
      | provide =>
        obtain ⟨q, hq, rfl⟩ := List.mem_map.mp hp
        exact hw.ports .require q hq
    · intro side
      cases side <;> simp [Side.flipIf, Side.flip, Node.contents, Node.ports, Function.comp_def, Port.content]

theorem contents_nodup {n : Node} (h : n.portNames.Nodup) (side : Side) : (n.contents side).Nodup := by
  have h1 : ((n.contents side).map (·.1)).Nodup := by
    have : (n.contents side).map (·.1) = (n.ports side).map Port.name := by
      simp [Node.contents, Function.comp_def, Port.content]
    rw [this]
    unfold Node.portNames at h
    rw [List.nodup_append] at h
    cases side
    · exact h.1
    · exact h.2.1
  unfold List.Nodup at h1 ⊢
  rw [List.pairwise_map] at h1
  exact h1.imp fun hne he => hne (by rw [he])

theorem perm_of_mem {α : Type} {a b : List α} (ha : a.Nodup) (hb : b.Nodup) (h : ∀ x, x ∈ a ↔ x ∈ b) : a.Perm b := by
  classical exact (List.perm_ext_iff_of_nodup ha hb).mpr h

theorem perm_sortedIf (sort : Bool) (l : List Port) :
    (((if sort then sortedByName Port.name l else l)).map Port.content).Perm (l.map Port.content) := by
  cases sort
  · exact .refl _
  · exact (sortedByName_perm _ _).map _

theorem contents_new (name : Str) (side : Side) : (Node.new name).contents side = [] := by
  cases side <;> rfl

theorem loaded_sorted {r : Node} {l : List Port} {side : Side}
    (h : r.contents side = (sortedByName Port.name l).map Port.content) : SortedByName Port.name (r.ports side) := by
  have hn : (r.ports side).map Port.name = (sortedByName Port.name l).map Port.name := by
    have := congrArg (List.map (·.1)) h
    simpa [Node.contents, Function.comp_def, Port.content] using this
  have hs := sortedByName_sorted Port.name l
  unfold SortedByName at hs ⊢
  rw [← List.pairwise_map (f := Port.name) (R := fun a b => a ≤ b)] at hs ⊢
  rw [hn]
  exact hs

/-- The head, built and written. -/
theorem head_ok (a : SplitArgs) (src : Node) (hb : src.Built) (hs : src.Splittable)
    (hnames : ∀ x ∈ a.names, x ∉ src.types.map TypeObj.name) (hn : NameOk (nodeNameFor a.head a.headName)) :
    ∃ h done text r, splitHeadNode a src = .ok (h, done) ∧ (∀ x ∈ src.portNames, x ∈ done ↔ x ∈ a.names) ∧
      h.emit a.head true = ⟨[(destOf a.head, text)], .ok ()⟩ ∧ parseFile text = .ok r ∧
      r.name = nodeNameFor a.head a.headName ∧
      ∀ side, (r.contents (side.flipIf a.mirror)).Perm ((src.contents side).filter fun c => c.1 ∈ a.names) ∧
        (a.sort = true → SortedByName Port.name (r.ports side)) := by
  have hc := compatible_one hb hs
  obtain ⟨n, done, h1, h2, h3, h4, h5, h6⟩ := splitHead_total hc rfl hs.names a.names hnames []
    (Node.new (nodeNameFor a.head a.headName)) (.new _ _)
  have hw := assembled_writable h3 (fun m hm => hm ▸ hs.writable) (by rw [h4]; exact hn)
  obtain ⟨m, k1, k2, k3, k4, k5, k6, k7⟩ := mirrorIf_ok h3.inv hw h5 a.mirror
  obtain ⟨text, r, g1, g2, g3, -, g4⟩ := output_ok k2 k3
    (by rw [k6]; exact assembled_below h3 fun m hm => hm ▸ hs.below) a.sort a.head true
  refine ⟨m.finalized a.sort false, done, text, r, ?_, ?_, g1, g2, ?_, ?_⟩
  · simp only [splitHeadNode, h1, ok_bind, k1, finalize_eq m a.sort false k2.toNodeInv0 k4]
  · intro x hx
    simp [h2 x hx]
  · rw [g3, k5, h4]; rfl
  · intro side
    refine ⟨?_, fun hsort => ?_⟩
    · rw [g4]
      refine (perm_sortedIf _ _).trans ?_
      change (m.contents _).Perm _
      rw [k7]
      refine perm_of_mem (contents_nodup h3.names side) ((contents_nodup hs.names side).filter _) ?_
      intro c
      rw [h6, contents_new, List.mem_filter, mem_contents]
      simp only [List.not_mem_nil, false_or, not_false_eq_true, and_true, decide_eq_true_eq]
      constructor
      · rintro ⟨p, ⟨h1, h2⟩, rfl⟩
        exact ⟨⟨p, h1, rfl⟩, h2⟩
      · rintro ⟨⟨p, h1, rfl⟩, h2⟩
        exact ⟨p, ⟨h1, h2⟩, rfl⟩
    · have := g4 side
      rw [if_pos hsort] at this
      exact loaded_sorted this

/-- The tail, built and written. -/
theorem tail_ok (a : SplitArgs) (src : Node) (hb : src.Built) (hs : src.Splittable) (done : List Str)
    (hd : ∀ x ∈ src.portNames, x ∈ done ↔ x ∈ a.names) (f : Str) (hn : NameOk (nodeNameFor (some f) a.tailName)) :
    ∃ t text r, splitTailNode a f src done = .ok t ∧ t.saveApx f true = ⟨[(.file f, text)], .ok ()⟩ ∧
      parseFile text = .ok r ∧ r.name = nodeNameFor (some f) a.tailName ∧
      ∀ side, (r.contents side).Perm ((src.contents side).filter fun c => c.1 ∉ a.names) ∧
        SortedByName Port.name (r.ports side) := by
  have hc := compatible_one hb hs
  have hm : mirrorIf a.mirror (Node.new (nodeNameFor (some f) a.tailName)) = .ok (Node.new (nodeNameFor (some f) a.tailName)) := by
    cases a.mirror <;> rfl
  obtain ⟨n, h1, h2⟩ := splitTail_total hc rfl done .provide src.provides (fun _ h => h)
    (Node.new (nodeNameFor (some f) a.tailName)) (.new _ _)
  obtain ⟨t, h3, h4⟩ := splitTail_total hc rfl done .require src.requires (fun _ h => h) n h2.1
  obtain ⟨k1, k2, k3, k4⟩ := h2.trans h4
  have hw := assembled_writable k1 (fun m hm => hm ▸ hs.writable) (by rw [k2]; exact hn)
  obtain ⟨text, r, g1, g2, g3, -, g4⟩ := output_ok k1.inv hw (assembled_below k1 fun m hm => hm ▸ hs.below) true (some f) true
  refine ⟨t, text, r, by simp only [splitTailNode, hm, h1, h3, ok_bind], ?_, g2, ?_, ?_⟩
  · have := emit_unfinalized t k1.inv.toNodeInv0 k3 (some f) true
    rw [g1] at this
    exact this
  · rw [g3, k2]; rfl
  · intro side
    refine ⟨?_, loaded_sorted (g4 side)⟩
    rw [g4]
    refine (perm_sortedIf true _).trans ?_
    change (t.contents _).Perm _
    refine perm_of_mem (contents_nodup k1.names side) ((contents_nodup hs.names side).filter _) ?_
    intro c
    rw [k4, contents_new, List.mem_filter, mem_contents]
    simp only [List.not_mem_nil, false_or, decide_eq_true_eq]
    have hd' : ∀ p ∈ src.ports side, p.name ∈ done ↔ p.name ∈ a.names :=
      fun p hp => hd _ (mem_portNames.mpr ⟨side, p, hp, rfl⟩)
    constructor
    · rintro ⟨p, h | h, rfl⟩
      · obtain ⟨rfl, hp, hx⟩ := h
        exact ⟨⟨p, hp, rfl⟩, fun h => hx ((hd' p hp).mpr h)⟩
      · obtain ⟨rfl, hp, hx⟩ := h
        exact ⟨⟨p, hp, rfl⟩, fun h => hx ((hd' p hp).mpr h)⟩
    · rintro ⟨⟨p, hp, rfl⟩, hx⟩
      have hx' : p.name ∉ done := fun h => hx ((hd' p hp).mp h)
      cases side with
      | require => exact ⟨p, .inr ⟨rfl, hp, hx'⟩, rfl⟩
      | provide => exact ⟨p, .inl ⟨rfl, hp, hx'⟩, rfl⟩

/-- C76: splitting a definition whose ports have different names and whose types can be copied
(`Node.Splittable`), where the names given are no type names, succeeds. Head and tail are written and
can be loaded again; the head has exactly the ports named, the tail exactly the others, with their
types and attributes. With `--mirror` the directions of the head, but not of the tail, are reversed.
With `--sort` the ports of the head are sorted, those of the tail always are. Missing: the cases shown
below. -/
theorem C76_split_partial (a : SplitArgs) (text : Str) (src : Node) (hsrc : parseFile text = .ok src)
    (hs : src.Splittable) (hnames : ∀ x ∈ a.names, x ∉ src.types.map TypeObj.name) (f : Str) (htail : a.tail = some f)
    (hn : NameOk (nodeNameFor a.head a.headName)) (hn' : NameOk (nodeNameFor (some f) a.tailName)) :
    ∃ headText tailText head tail,
      apxSplit a text = ⟨[(destOf a.head, headText), (.file f, tailText)], .ok ()⟩ ∧
      parseFile headText = .ok head ∧ parseFile tailText = .ok tail ∧
      head.name = nodeNameFor a.head a.headName ∧ tail.name = nodeNameFor (some f) a.tailName ∧
      ∀ side,
        (head.contents (side.flipIf a.mirror)).Perm ((src.contents side).filter fun c => c.1 ∈ a.names) ∧
        (tail.contents side).Perm ((src.contents side).filter fun c => c.1 ∉ a.names) ∧
        (a.sort = true → SortedByName Port.name (head.ports side)) ∧ SortedByName Port.name (tail.ports side) := by
  have hb := (parseFile_built hsrc).1
  obtain ⟨h, done, ht, r, h1, h2, h3, h4, h5, h6⟩ := head_ok a src hb hs hnames hn
  obtain ⟨t, tt, r', k1, k2, k3, k4, k5⟩ := tail_ok a src hb hs done h2 f hn'
  refine ⟨ht, tt, r, r', ?_, h4, k3, h5, k4, fun side => ⟨(h6 side).1, (k5 side).1, (h6 side).2, (k5 side).2⟩⟩
  simp only [apxSplit, hsrc, splitNode, h1, h3, ToolRun.andThen, splitRemain, htail, k1, k2]
  rfl

/-- C76 without `--tail`: only the head is written. -/
theorem C76_head_partial (a : SplitArgs) (text : Str) (src : Node) (hsrc : parseFile text = .ok src)
    (hs : src.Splittable) (hnames : ∀ x ∈ a.names, x ∉ src.types.map TypeObj.name) (htail : a.tail = none)
    (hn : NameOk (nodeNameFor a.head a.headName)) :
    ∃ headText head, apxSplit a text = ⟨[(destOf a.head, headText)], .ok ()⟩ ∧ parseFile headText = .ok head ∧
      head.name = nodeNameFor a.head a.headName ∧
      ∀ side, (head.contents (side.flipIf a.mirror)).Perm ((src.contents side).filter fun c => c.1 ∈ a.names) ∧
        (a.sort = true → SortedByName Port.name (head.ports side)) := by
  obtain ⟨h, done, ht, r, h1, h2, h3, h4, h5, h6⟩ := head_ok a src (parseFile_built hsrc).1 hs hnames hn
  refine ⟨ht, r, ?_, h4, h5, h6⟩
  simp only [apxSplit, hsrc, splitNode, h1, h3, ToolRun.andThen, splitRemain, htail]
  rfl

/-- C76 fails for the name of a type: whatever else is asked for, nothing is written. -/
theorem C76_type_violated (a : SplitArgs) (text : Str) (src : Node) (hsrc : parseFile text = .ok src) (t : TypeObj)
    (ht : t ∈ src.types) (names : List Str) (ha : a.names = t.name :: names) :
    apxSplit a text = ⟨[], .error .valueError⟩ := by
  have hf : ∃ u, src.find t.name = some (.type u) := by
    unfold Node.find
    cases hx : src.types.find? (fun u => u.name = t.name) with
    | none =>
      rw [List.find?_eq_none] at hx
      exact absurd (hx t ht) (by simp)
    | some u => exact ⟨u, rfl⟩
  obtain ⟨u, hf⟩ := hf
  simp only [apxSplit, hsrc, splitNode, splitHeadNode, ha, splitHead, hf, List.not_mem_nil, if_false]
  rfl

/-- C76: `--tail_name` has no effect, and `--head_name` none if `--head` is given, although they are
documented to force the name of the node. -/
theorem C76_names_violated (a : SplitArgs) (text : Str) (x : Str) :
    apxSplit { a with tailName := x } text = apxSplit a text ∧
      (a.head ≠ none → apxSplit { a with headName := x } text = apxSplit a text) := by
  have ht : ∀ (f : Str) (src : Node) (done : List Str),
      splitTailNode { a with tailName := x } f src done = splitTailNode a f src done := fun _ _ _ => rfl
  constructor
  · simp only [apxSplit, splitNode, splitRemain, ht, splitHeadNode]
  · intro hh
    cases hhd : a.head with
    | none => exact absurd hhd hh
    | some f =>
      simp only [apxSplit, splitNode, splitRemain, splitTailNode, splitHeadNode, hhd, nodeNameFor]

theorem baseName_path (dir base : Str) (h : '/' ∉ base) : baseName (dir ++ '/' :: base) = base ∧ baseName base = base := by
  have hb : ∀ c ∈ base.reverse, (c != '/') = true := by
    intro c hc
    have : c ≠ '/' := fun e => h (by rw [← e]; exact List.mem_reverse.mp hc)
    simpa using this
  constructor
  · unfold baseName
    rw [List.reverse_append, List.reverse_cons, List.append_assoc]
    rw [List.takeWhile_append_of_pos hb]
    simp
  · unfold baseName
    have := List.takeWhile_append_of_pos (l₂ := []) hb
    simp only [List.append_nil, List.takeWhile_nil] at this
    rw [this]
    simp

theorem isInfix_append (a b c : Str) (hb : b ≠ []) : isInfix b (a ++ (b ++ c)) = true := by
  induction a with
  | nil =>
    cases b with
    | nil => exact absurd rfl hb
    | cons x b =>
      simp [isInfix, List.isPrefixOf]
  | cons x a ih => simp [isInfix, ih]

/-- C76: the node in a file is named after the file, without its directory and without the extension. -/
theorem C76_node_name (dir stem default : Str) (h : '/' ∉ stem) (hs : ∃ c ∈ stem, c ≠ '.') :
    nodeNameFor (some (dir ++ '/' :: (stem ++ ".apx".toList))) default = stem ∧
      nodeNameFor (some (stem ++ ".apx".toList)) default = stem ∧ nodeNameFor none default = default := by
  have hb : '/' ∉ stem ++ ".apx".toList := by
    simp only [List.mem_append, not_or]
    exact ⟨h, by decide⟩
  have hin : isInfix ".apx".toList (stem ++ ".apx".toList) = true := by
    have := isInfix_append stem ".apx".toList [] (by decide)
    simpa using this
  have hst : stemName (stem ++ ".apx".toList) = stem := by
    have e : ((stem ++ ".apx".toList).reverse.dropWhile (· != '.')).reverse = stem ++ ['.'] := by
      simp [List.dropWhile]
    unfold stemName
    rw [e]
    have hne : stem ++ ['.'] ≠ [] := by simp
    split
    · rename_i h0; exact absurd h0 hne
    · rename_i st _ 
      have : ¬ ((stem ++ ['.']).dropLast.all (· == '.') = true) := by
        simp only [List.dropLast_concat, List.all_eq_true]
        intro hall
        obtain ⟨c, hc, hd⟩ := hs
        exact hd (by simpa using hall c hc)
      rw [if_neg this]
      simp
  obtain ⟨h1, _⟩ := baseName_path dir _ hb
  obtain ⟨_, h2⟩ := baseName_path [] _ hb
  simp only [nodeNameFor, h1, h2, hin, hst, if_true]
  exact ⟨trivial, trivial, trivial⟩

example : '/' ∉ "Body".toList ∧ ∃ c ∈ "Body".toList, c ≠ '.' := by decide

/-! ### An example -/

/-- A definition with a record type, and ports of both directions. -/
def tlText : Str :=
  "APX/1.2\nN\"X\"\nT\"A\"C(0,3)\nT\"B\"{\"x\"T[\"A\"]\"y\"S[2]}\nP\"p\"T[\"B\"]\nP\"o\"C\nR\"r\"T[\"A\"]:=2\nR\"q\"a[4]:=\"\"\n".toList

/-- Its node. -/
def tlSrc : Node := ((parseFile tlText).toOption).getD (Node.new [])

theorem ok_of_isSome {α : Type} {x : Py α} {d : α} (h : x.toOption.isSome) : x = .ok (x.toOption.getD d) := by
  cases x
  · cases h
  · rfl

theorem tlSrc_loaded : parseFile tlText = .ok tlSrc := ok_of_isSome (by decide +kernel)

theorem writable_of {n : Node} (hn : NameOk n.name) (ts : List (Str × Elem × Option Str × Option Str))
    (hts : n.types.map (fun t => (t.name, t.elem, t.shortName, t.attr.map TypeAttr.str)) = ts)
    (hts' : ∀ v ∈ ts, NameOk v.1 ∧ v.2.1.WellFormed ∧ v.2.1.Clean ∧ v.2.2.1 = none ∧ ∀ s, v.2.2.2 = some s → AttrOk s)
    (ps : Side → List (Str × Elem × Option Str))
    (hps : ∀ side, (n.ports side).map (fun p => (p.name, p.elem, p.attr.map PortAttr.str)) = ps side)
    (hps' : ∀ side, ∀ v ∈ ps side, NameOk v.1 ∧ v.2.1.WellFormed ∧ v.2.1.Clean ∧ ∀ s, v.2.2 = some s → AttrOk s) :
    n.Writable := by
  refine ⟨hn, ?_, ?_⟩
  · intro t ht
    obtain ⟨a, b, c, d, e⟩ := hts' _ (hts ▸ List.mem_map_of_mem ht)
    exact ⟨a, b, c, d, fun x hx => e _ (by simp [hx])⟩
  · intro side p hp
    obtain ⟨a, b, c, e⟩ := hps' side _ (hps side ▸ List.mem_map_of_mem hp)
    exact ⟨a, b, c, fun x hx => e _ (by simp [hx])⟩

theorem tlSrc_types : tlSrc.types.map (fun t => (t.name, t.elem, t.shortName, t.attr.map TypeAttr.str)) =
    [(['A'], .prim .u8 (some 0) (some 3) none, none, none),
     (['B'], .record (.cons (some ['x']) (.refType ['A'] (.prim .u8 (some 0) (some 3) none))
        (.cons (some ['y']) (.prim .u16 none none (some 2)) .nil)) none, none, none)] := by
  decide +kernel

/-- The ports of the example. -/
def tlPorts : Side → List (Str × Elem × Option Str)
  | .provide => [(['p'], .refType ['B'] (.record (.cons (some ['x']) (.refType ['A'] (.prim .u8 (some 0) (some 3) none))
        (.cons (some ['y']) (.prim .u16 none none (some 2)) .nil)) none), none),
      (['o'], .prim .u8 none none none, none)]
  | .require => [(['r'], .refType ['A'] (.prim .u8 (some 0) (some 3) none), some ['=', '2']),
       (['q'], .prim .str none none (some 4), some ['=', '"', '"'])]

theorem tlSrc_ports (side : Side) :
    (tlSrc.ports side).map (fun p => (p.name, p.elem, p.attr.map PortAttr.str)) = tlPorts side := by
  cases side <;> decide +kernel

theorem tlSrc_writable : tlSrc.Writable := by
  refine writable_of (by have : tlSrc.name = ['X'] := by decide +kernel
                         rw [this]; unfold NameOk; decide) _ tlSrc_types ?_ _ tlSrc_ports ?_
  · simp [NameOk, Elem.WellFormed, Elem.Clean, Fields.WellFormed, Fields.Clean, QuoteFree, RefNameOk]
  · intro side
    cases side <;> simp [tlPorts, NameOk, Elem.WellFormed, Elem.Clean, RefNameOk, AttrOk]

theorem of_views {n : Node} {ts : List (Str × Elem × Option Str × Option Str)}
    (hts : n.types.map (fun t => (t.name, t.elem, t.shortName, t.attr.map TypeAttr.str)) = ts) {P : Str → Elem → Prop}
    (h : ∀ v ∈ ts, P v.1 v.2.1) : ∀ t ∈ n.types, P t.name t.elem :=
  fun _ ht => h _ (hts ▸ List.mem_map_of_mem ht)

theorem tlSrc_splittable : tlSrc.Splittable where
  writable := tlSrc_writable
  below := of_views tlSrc_types (P := fun b e => e.RefsBelow b) (by simp [Elem.RefsBelow, Fields.RefsBelow]; decide)
  names := by decide +kernel
  apart := by decide +kernel
  copy := of_views tlSrc_types (P := fun _ e => e.Copyable) (by simp [Elem.Copyable, Fields.AllOk, Elem.FieldOk])

/-- The arguments `A --head h.apx --tail t.apx`. -/
def tlArgs (names : List Str) (mirror : Bool) : SplitArgs :=
  ⟨names, some "h.apx".toList, some "t.apx".toList, "Head".toList, "Tail".toList, false, mirror⟩

example : parseFile tlText = .ok tlSrc ∧ tlSrc.Splittable ∧
    (∀ x ∈ (tlArgs [['p'], ['q']] true).names, x ∉ tlSrc.types.map TypeObj.name) ∧
    NameOk (nodeNameFor (some "h.apx".toList) "Head".toList) ∧ nodeNameFor (some "h.apx".toList) "Head".toList = ['h'] :=
  ⟨tlSrc_loaded, tlSrc_splittable, by decide +kernel, by unfold NameOk; decide +kernel, by decide +kernel⟩

/-! ### Where splitting fails -/

/-- What the files written contain: names of the require and of the provide ports. -/
def ToolRun.portsWritten (r : ToolRun) : List (Py (List Str × List Str)) :=
  r.written.map fun w => do
    let n ← parseFile w.2
    .ok (n.requires.map Port.name, n.provides.map Port.name)

example : (apxSplit (tlArgs [['p'], ['q']] true) tlText).portsWritten = [.ok ([['p']], [['q']]), .ok ([['r']], [['o']])] := by
  decide +kernel

/-- A port required and another of the same name provided: the second is in neither file (`C76_pair_violated`). -/
example :
    let r := apxSplit (tlArgs [['A']] false) "APX/1.2\nN\"X\"\nP\"A\"S\nP\"B\"C\nR\"A\"C\n".toList
    r.result.toOption.isSome ∧ r.portsWritten = [.ok ([['A']], []), .ok ([], [['B']])] := by decide +kernel

/-- `--mirror`, documented to mirror head and tail: the tail is not mirrored (`C76_mirror_violated`). -/
example :
    let r := apxSplit (tlArgs [['A']] true) "APX/1.2\nN\"X\"\nP\"A\"S\nP\"B\"C\n".toList
    r.result.toOption.isSome ∧ r.portsWritten = [.ok ([['A']], []), .ok ([], [['B']])] := by decide +kernel

/-- A port whose type is another name of a type: nothing is written (`C76_alias_violated`). -/
example :
    let text := "APX/1.2\nN\"X\"\nT\"T\"C\nT\"U\"T[\"T\"]\nP\"A\"T[\"U\"]\n".toList
    (parseFile text).toOption.isSome ∧ (apxSplit (tlArgs [['A']] false) text).written = [] ∧
      (apxSplit (tlArgs [['A']] false) text).result = .error .notImplemented := by decide +kernel

/-- The head has been written, the tail is refused, and its file is not there (`C76_half_violated`). -/
example :
    let r := apxSplit (tlArgs [['A']] false) "APX/1.2\nN\"X\"\nT\"T\"C\nT\"U\"T[\"T\"]\nP\"A\"C\nP\"B\"T[\"U\"]\n".toList
    r.result.toOption.isNone ∧ r.written.map (·.1) = [.file "h.apx".toList] := by decide +kernel

/-! ### C76: names in a file -/

theorem isSpace_hash : isSpace '#' = false := by decide

theorem strip_outer (b n b' : Str) (hb : AllBlank b) (hb' : AllBlank b') (h1 : ∃ x r, n = x :: r ∧ isSpace x = false)
    (h2 : ∃ r x, n = r ++ [x] ∧ isSpace x = false) : strip (b ++ n ++ b') = n := by
  unfold strip rstripP lstrip
  have e1 : (b ++ n ++ b').dropWhile isSpace = n ++ b' := by
    rw [List.append_assoc, dropWhile_all_append _ _ _ hb]
    obtain ⟨x, r, rfl, hx⟩ := h1
    simp [hx]
  rw [e1, List.reverse_append, dropWhile_all_append _ _ _ (by intro c hc; exact hb' c (List.mem_reverse.mp hc))]
  obtain ⟨r, x, rfl, hx⟩ := h2
  simp [hx]

theorem strip_allBlank (b : Str) (hb : AllBlank b) : strip b = [] := by
  unfold strip rstripP lstrip
  have := dropWhile_all_append isSpace b [] hb
  rw [List.append_nil] at this
  rw [this]
  rfl

theorem cut_comment (a c : Str) (ha : '#' ∉ a) (hc : NoneOrComment c) : (a ++ c).takeWhile (· != '#') = a := by
  have h : ∀ x ∈ a, (x != '#') = true := by
    intro x hx
    have : x ≠ '#' := fun e => ha (e ▸ hx)
    simpa using this
  rw [List.takeWhile_append_of_pos h]
  rcases hc with rfl | ⟨t, rfl⟩ <;> simp

theorem allBlank_hash {b : Str} (hb : AllBlank b) : '#' ∉ b := by
  intro h
  have := hb _ h
  rw [isSpace_hash] at this
  simp at this

theorem nameLine_empty {l : Str} (h : NameLine l none) : strip (l.takeWhile (· != '#')) = [] := by
  cases h with
  | empty b c hb hc => rw [cut_comment b c (allBlank_hash hb) hc, strip_allBlank b hb]

theorem nameLine_name {l n : Str} (h : NameLine l (some n)) : strip (l.takeWhile (· != '#')) = n ∧ n ≠ [] := by
  cases h with
  | name b _ b' c hb hb' hc hh h1 h2 =>
    rw [cut_comment _ c (by simp [allBlank_hash hb, allBlank_hash hb', hh]) hc, strip_outer b n b' hb hb' h1 h2]
    obtain ⟨x, r, rfl, _⟩ := h1
    simp

/-- C76: the names read from a file (`--file`) are exactly those on its lines, in order; blank lines,
blanks around a name and comments are ignored. -/
theorem C76_file (ls ns : List Str) (hne : ls ≠ []) (hl : OneLiners ls) (h : NameFile ls ns) :
    namesInFile (joinLines ls) = ns := by
  unfold namesInFile
  rw [splitOn_joinLines ls hne hl]
  clear hne hl
  induction h with
  | nil => rfl
  | skip l ls ns hx _ ih =>
    rw [List.map_cons, nameLine_empty hx]
    simpa using ih
  | take l n ls ns hx _ ih =>
    obtain ⟨h1, h2⟩ := nameLine_name hx
    rw [List.map_cons, h1, List.filter_cons_of_pos (by simpa using h2), ih]

example : namesInFile "# ports\n  Left Port  # first\n\n\tRight\n".toList = ["Left Port".toList, "Right".toList] :=
  C76_file ["# ports".toList, "  Left Port  # first".toList, [], "\tRight".toList, []] _ (by simp)
    (by unfold OneLiners; decide +kernel)
    (.skip _ _ _ (.empty [] _ (by simp [AllBlank]) (.inr ⟨_, rfl⟩))
      (.take _ _ _ _ (.name "  ".toList "Left Port".toList "  ".toList "# first".toList (by unfold AllBlank; decide +kernel)
          (by unfold AllBlank; decide +kernel) (.inr ⟨_, rfl⟩) (by decide +kernel) ⟨'L', "eft Port".toList, rfl, by decide⟩
          ⟨"Left Por".toList, 't', rfl, by decide⟩)
        (.skip _ _ _ (.empty [] [] (by simp [AllBlank]) (.inl rfl))
          (.take _ _ _ _ (.name "\t".toList "Right".toList [] [] (by unfold AllBlank; decide +kernel) (by simp [AllBlank])
              (.inl rfl) (by decide +kernel) ⟨'R', "ight".toList, rfl, by decide⟩ ⟨"Righ".toList, 't', rfl, by decide⟩)
            (.skip _ _ _ (.empty [] [] (by simp [AllBlank]) (.inl rfl)) .nil)))))

end Apx
