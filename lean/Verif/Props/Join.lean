import Verif.Props.Tools
import Verif.Proofs.Order

/-!
C77: joining definitions. C78: the size of the data.
-/

namespace Apx

/-! ### C77 -/

/-- C77: joining definitions in which names mean the same (`Compatible`) succeeds. The file written can
be loaded again; it has exactly the ports of the definitions joined, each once, with their types and
attributes, sorted if asked for. Missing: the cases shown below. -/
theorem C77_join_partial (name : Str) (sort normalize : Bool) (texts : List Str) (srcs : List Node)
    (hsrc : mapPy parseFile texts = .ok srcs) (hc : Compatible (· ∈ srcs)) (ht : ∀ m ∈ srcs, m.Tidy) (hn : NameOk name) :
    ∃ text r, apxJoin name sort normalize texts = ⟨[(.file (name ++ ".apx".toList), text)], .ok ()⟩ ∧
      parseFile text = .ok r ∧ r.name = name ∧ r.portNames.Nodup ∧
      (∀ side c, c ∈ r.contents side ↔ ∃ m ∈ srcs, c ∈ m.contents side) ∧
      (sort = true → ∀ side, SortedByName Port.name (r.ports side)) := by
  obtain ⟨n, h1, h2, h3, h4, h5⟩ := joinNodes_total hc srcs (fun _ h => h) (Node.new name) (.new _ _)
  have hw := assembled_writable h2 (fun m hm => (ht m hm).writable) (by rw [h3]; exact hn)
  obtain ⟨text, r, g1, g2, g3, -, g4⟩ := output_ok h2.inv hw (assembled_below h2 fun m hm => (ht m hm).below) sort
    (some (name ++ ".apx".toList)) normalize
  refine ⟨text, r, ?_, g2, by rw [g3, h3]; rfl, ?_, ?_, ?_⟩
  · simp only [apxJoin, parseFiles_each hsrc Parser.new, joinedNode, h1, ok_bind, finalize_eq n sort false h2.inv.toNodeInv0 h4]
    rw [show (n.finalized sort false).name = name by rw [finalized_name, h3]; rfl]
    exact g1
  · have hp : ∀ side, ((r.ports side).map Port.name).Perm ((n.ports side).map Port.name) := by
      intro side
      have := (g4 side) ▸ ((perm_sortedIf sort (n.ports side)).map fun c : Str × Elem × Option PortAttr => c.1)
      simpa [Node.contents, Function.comp_def, Port.content] using this
    unfold Node.portNames
    refine ((hp .require).append (hp .provide)).nodup_iff.mpr ?_
    have := h2.names
    unfold Node.portNames at this
    exact this
  · intro side c
    rw [g4, (perm_sortedIf sort _).mem_iff]
    change c ∈ n.contents side ↔ _
    rw [h5, contents_new]
    simp only [List.not_mem_nil, false_or]
    constructor
    · rintro ⟨p, ⟨m, hm, hp⟩, rfl⟩
      exact ⟨m, hm, mem_contents.mpr ⟨p, hp, rfl⟩⟩
    · rintro ⟨m, hm, hx⟩
      obtain ⟨p, hp, rfl⟩ := mem_contents.mp hx
      exact ⟨p, ⟨m, hm, hp⟩, rfl⟩
  · intro hs side
    have := g4 side
    rw [if_pos hs] at this
    exact loaded_sorted this

/-- The two ends of a connection (`C77_direction_violated`). -/
example :
    let r := apxJoin ['J'] false false ["APX/1.2\nN\"X\"\nP\"A\"S\n".toList, "APX/1.2\nN\"Y\"\nR\"A\"S\n".toList]
    r.written = [] ∧ r.result = .error .valueError := by decide +kernel

/-- What has been written, loaded: how many bytes are provided. -/
def ToolRun.sizesWritten (r : ToolRun) : List (Py (Nat × Nat)) := r.written.map fun w => apxSize w.2

/-- C77 fails where sorting the types, which is always done, puts a record type before a type it refers
to: if a port of one of the definitions has such a type, joining succeeds, and the file written cannot be
loaded. -/
theorem C77_order_violated (name : Str) (sort normalize : Bool) (texts : List Str) (srcs : List Node)
    (hsrc : mapPy parseFile texts = .ok srcs) (hc : Compatible (· ∈ srcs)) (hw : ∀ m ∈ srcs, m.Writable) (hn : NameOk name)
    (m : Node) (hm : m ∈ srcs) (side : Side) (p : Port) (hp : p ∈ m.ports side) (t : Str) (e : Elem)
    (hpe : p.elem = .refType t e) (hb : ¬ e.RefsBelow t) :
    ∃ text x, apxJoin name sort normalize texts = ⟨[(.file (name ++ ".apx".toList), text)], .ok ()⟩ ∧
      parseFile text = .error x := by
  obtain ⟨n, h1, h2, h3, h4, h5⟩ := joinNodes_total hc srcs (fun _ h => h) (Node.new name) (.new _ _)
  have hw' := assembled_writable h2 hw (by rw [h3]; exact hn)
  obtain ⟨text, g1, g2⟩ := output_iff h2.inv hw' sort normalize
  have hq : p.content ∈ n.contents side := by
    rw [h5]
    exact Or.inr ⟨p, ⟨m, hm, hp⟩, rfl⟩
  obtain ⟨q, hq, hqc⟩ := mem_contents.mp hq
  simp only [Port.content, Prod.mk.injEq] at hqc
  have hqe : q.elem = .refType t e := hqc.2.1.trans hpe
  obtain ⟨t', e', k1, k2, _⟩ := (h2.inv.ports side q hq).ref (by rw [hqe]; rfl)
  rw [hqe, Elem.refType.injEq] at k1
  obtain ⟨rfl, rfl⟩ := k1
  obtain ⟨u, hu, hun, hue⟩ := mem_named k2
  have hno : ¬ ∃ r, parseFile text = .ok r := by
    rw [g2]
    intro hall
    exact hb (by rw [← hun, ← hue]; exact hall u hu)
  obtain ⟨x, hx⟩ : ∃ x, parseFile text = .error x := by
    cases hx : parseFile text with
    | error x => exact ⟨x, rfl⟩
    | ok r => exact absurd ⟨r, hx⟩ hno
  refine ⟨text, x, ?_, hx⟩
  simp only [apxJoin, parseFiles_each hsrc Parser.new, joinedNode, h1, ok_bind, finalize_eq n sort false h2.inv.toNodeInv0 h4]
  rw [show (n.finalized sort false).name = name by rw [finalized_name, h3]; rfl]
  exact g1 (some (name ++ ".apx".toList))

/-- A definition of that kind: type `R` refers to type `T`. -/
def orText : Str := "APX/1.2\nN\"X\"\nT\"T\"C\nT\"R\"{\"x\"T[\"T\"]}\nP\"a\"T[\"R\"]\n".toList

/-- What `R` contains. -/
def orElem : Elem := .record (.cons (some ['x']) (.refType ['T'] (.prim .u8 none none none)) .nil) none

/-- The type `R`. -/
def orType : TypeObj := ⟨['R'], orElem, none, none, none⟩

/-- Its node. -/
def orSrc : Node :=
  ⟨['X'], false, [⟨['T'], .prim .u8 none none none, none, none, none⟩, orType], [], [⟨['a'], .refType ['R'] orElem, none, some 0⟩]⟩

theorem orSrc_loaded : parseFile orText = .ok orSrc := loaded_of_view (by decide +kernel) (by decide +kernel) (by decide +kernel)
  (by decide +kernel) rfl (by decide) (by decide)

theorem orSrc_writable : orSrc.Writable := by
  refine ⟨by unfold NameOk; decide, ?_, ?_⟩
  · simp [orSrc, orType, orElem, NameOk, Elem.WellFormed, Elem.Clean, Fields.WellFormed, Fields.Clean, QuoteFree, RefNameOk]
  · intro side
    cases side <;>
      simp [Node.ports, orSrc, orElem, NameOk, Elem.WellFormed, Elem.Clean, Fields.WellFormed, Fields.Clean, QuoteFree, RefNameOk]

theorem orType_above : ¬ orType.elem.RefsBelow orType.name := by
  simp only [orType, orElem, Elem.RefsBelow, Fields.RefsBelow, and_true]
  decide

/-- The hypotheses can be met. -/
example : mapPy parseFile [orText] = .ok [orSrc] ∧ Compatible (· ∈ [orSrc]) ∧ orSrc.Writable ∧
    ∃ p ∈ orSrc.ports .provide, p.elem = .refType ['R'] orElem ∧ ¬ orElem.RefsBelow ['R'] := by
  refine ⟨by simp [mapPy, orSrc_loaded], ?_, orSrc_writable, _, List.mem_singleton.mpr rfl, rfl, orType_above⟩
  have := compatible_single (parseFile_built orSrc_loaded).1 orSrc_writable (by decide) (by decide)
    (by simp [orSrc, orType, orElem, Elem.Copyable, Fields.AllOk, Elem.FieldOk])
  simpa using this

example : (apxJoin ['J'] false false [orText]).result.toOption.isSome ∧
    (apxJoin ['J'] false false [orText]).written.map (fun w => (parseFile w.2).toOption.isSome) = [false] := by decide +kernel

/-! ### An example -/

/-- Two definitions that can be split, and agree on the names they share. -/
theorem compatible_two {n m : Node} (hn : n.Built) (hm : m.Built) (sn : n.Splittable) (sm : m.Splittable)
    (types : ∀ t ∈ n.types, ∀ u ∈ m.types, t.name = u.name → t.content = u.content)
    (apart : ∀ t ∈ n.types, t.name ∉ m.portNames) (apart' : ∀ t ∈ m.types, t.name ∉ n.portNames)
    (ports : ∀ side side', ∀ p ∈ n.ports side, ∀ q ∈ m.ports side', p.name = q.name → side = side' ∧ p.content = q.content) :
    Compatible (· ∈ [n, m]) := by
  have h1 := compatible_one hn sn
  have h2 := compatible_one hm sm
  simp only [List.mem_cons, List.not_mem_nil, or_false]
  refine ⟨?_, ?_, ?_, ?_, ?_, ?_⟩
  · rintro k (rfl | rfl)
    · exact hn
    · exact hm
  · rintro k (rfl | rfl)
    · exact h1.copy _ rfl
    · exact h2.copy _ rfl
  · rintro k (rfl | rfl)
    · exact h1.wf _ rfl
    · exact h2.wf _ rfl
  · rintro k l (rfl | rfl) (rfl | rfl)
    · exact h1.types _ _ rfl rfl
    · exact types
    · exact fun t ht u hu he => (types u hu t ht he.symm).symm
    · exact h2.types _ _ rfl rfl
  · rintro k l (rfl | rfl) (rfl | rfl)
    · exact sn.apart
    · exact apart
    · exact apart'
    · exact sm.apart
  · rintro k l (rfl | rfl) (rfl | rfl)
    · exact h1.ports _ _ rfl rfl
    · exact ports
    · intro side side' p hp q hq he
      obtain ⟨a, b⟩ := ports side' side q hq p hp he.symm
      exact ⟨a.symm, b.symm⟩
    · exact h2.ports _ _ rfl rfl

theorem mapPy_two {α β : Type} {f : α → Py β} {a b : α} {x y : β} (ha : f a = .ok x) (hb : f b = .ok y) :
    mapPy f [a, b] = .ok [x, y] := by
  simp only [mapPy, ha, hb, ok_bind]

/-- A second definition: it shares a port and a type with the first. -/
def tlText2 : Str := "APX/1.2\nN\"Y\"\nT\"A\"C(0,3)\nP\"o\"C\nP\"w\"T[\"A\"]\n".toList

/-- Its node. -/
def tlSrc2 : Node :=
  ⟨['Y'], false, [⟨['A'], .prim .u8 (some 0) (some 3) none, none, none, none⟩], [],
    [⟨['o'], .prim .u8 none none none, none, some 0⟩, ⟨['w'], .refType ['A'] (.prim .u8 (some 0) (some 3) none), none, some 1⟩]⟩

theorem tlSrc2_loaded : parseFile tlText2 = .ok tlSrc2 := loaded_of_view (by decide +kernel) (by decide +kernel) (by decide +kernel)
  (by decide +kernel) rfl (by decide) (by decide)

theorem tlSrc2_splittable : tlSrc2.Splittable where
  writable := by
    refine ⟨by unfold NameOk; decide, ?_, ?_⟩
    · simp [tlSrc2, NameOk, Elem.WellFormed, Elem.Clean]
    · intro side
      cases side <;> simp [Node.ports, tlSrc2, NameOk, Elem.WellFormed, Elem.Clean, RefNameOk]
  below := by simp [tlSrc2, Elem.RefsBelow]
  names := by decide
  apart := by decide
  copy := by simp [tlSrc2, Elem.Copyable]

theorem tl_compatible : Compatible (· ∈ [tlSrc, tlSrc2]) := by
  refine compatible_two (parseFile_built tlSrc_loaded).1 (parseFile_built tlSrc2_loaded).1 tlSrc_splittable tlSrc2_splittable
    ?_ ?_ ?_ ?_
  · intro t ht u hu he
    have h1 := List.mem_map_of_mem (f := fun t : TypeObj => (t.name, t.elem, t.shortName, t.attr.map TypeAttr.str)) ht
    rw [tlSrc_types] at h1
    simp only [tlSrc2, List.mem_cons, List.not_mem_nil, or_false] at hu
    subst hu
    simp only [List.mem_cons, Prod.mk.injEq, List.not_mem_nil, or_false, Option.map_eq_none_iff] at h1
    rcases h1 with ⟨h1, h2, h3, h4⟩ | ⟨h1, h2, h3, h4⟩
    · simp [TypeObj.content, h1, h2, h4]
    · rw [h1] at he; exact absurd he (by decide)
  · decide +kernel
  · decide +kernel
  · intro side side' p hp q hq he
    have h1 := List.mem_map_of_mem (f := fun p : Port => (p.name, p.elem, p.attr.map PortAttr.str)) hp
    rw [tlSrc_ports] at h1
    cases side' with
    | require => simp [Node.ports, tlSrc2] at hq
    | provide =>
      simp only [Node.ports, tlSrc2, List.mem_cons, List.not_mem_nil, or_false] at hq
      cases side with
      | require =>
        simp only [tlPorts, List.mem_cons, Prod.mk.injEq, List.not_mem_nil, or_false] at h1
        rcases h1 with ⟨h1, -⟩ | ⟨h1, -⟩ <;> rw [h1] at he <;> rcases hq with rfl | rfl <;> exact absurd he (by decide)
      | provide =>
        simp only [tlPorts, List.mem_cons, Prod.mk.injEq, List.not_mem_nil, or_false, Option.map_eq_none_iff] at h1
        rcases h1 with ⟨h1, h2, h3⟩ | ⟨h1, h2, h3⟩ <;> rcases hq with rfl | rfl
        · rw [h1] at he; exact absurd he (by decide)
        · rw [h1] at he; exact absurd he (by decide)
        · simp [Port.content, h1, h2, h3]
        · rw [h1] at he; exact absurd he (by decide)

example : mapPy parseFile [tlText, tlText2] = .ok [tlSrc, tlSrc2] ∧ Compatible (· ∈ [tlSrc, tlSrc2]) ∧
    ∀ m ∈ [tlSrc, tlSrc2], m.Tidy := by
  refine ⟨mapPy_two tlSrc_loaded tlSrc2_loaded, tl_compatible, ?_⟩
  intro m hm
  rcases List.mem_cons.mp hm with h | hm
  · rw [h]; exact tlSrc_splittable.toTidy
  · rw [List.mem_singleton.mp hm]; exact tlSrc2_splittable.toTidy

example : (apxJoin ['J'] true false [tlText, tlText2]).portsWritten = [.ok ([['q'], ['r']], [['o'], ['p'], ['w']])] := by
  decide +kernel

/-! ### C78 -/

mutual
theorem resolveType_closed (types : List NamedType) : (e : Elem) → e.NoOpenRefs → e.resolveType types = .ok e
  | .refType _ _, _ => rfl
  | .prim _ _ _ _, _ => rfl
  | .record fs _, h => by
    simp only [Elem.resolveType, resolveType_closedF types fs h, ok_bind]
  | .refId _, h => h.elim
  | .refName _, h => h.elim
theorem resolveType_closedF (types : List NamedType) : (fs : Fields) → fs.NoOpenRefs → fs.resolveType types = .ok fs
  | .nil, _ => rfl
  | .cons n e r, h => by
    simp only [Fields.resolveType, resolveType_closed types e h.1, resolveType_closedF types r h.2, ok_bind]
end

theorem sumPackLen_ok (types : List NamedType) (ps : List Port) (rs : List PortRange) (hl : rs.length = ps.length)
    (hc : ∀ p ∈ ps, p.elem.NoOpenRefs)
    (h : ∀ (k : Nat) (p : NPort) (r : PortRange), (ps.map Port.toNPort)[k]? = some p → rs[k]? = some r → p.packLen types = .ok r.len) :
    sumPackLen ps = .ok (rs.map (·.len)).sum := by
  induction ps generalizing rs with
  | nil =>
    cases rs with
    | nil => rfl
    | cons r rs => simp at hl
  | cons p ps ih =>
    cases rs with
    | nil => simp at hl
    | cons r rs =>
      have h0 := h 0 p.toNPort r rfl rfl
      have he : p.toNPort.elem = p.elem := rfl
      simp only [NPort.packLen, he, resolveType_closed types _ (hc p (by simp)), ok_bind] at h0
      have := ih rs (by simpa using hl) (fun q hq => hc q (by simp [hq])) (fun k q s hq hs => h (k + 1) q s hq hs)
      simp only [sumPackLen, h0, this, ok_bind, List.map_cons, List.sum_cons]

/-- C78: the sizes printed are those of the files in which a client of this definition exchanges its
data, if no record of a port refers to another type. -/
theorem C78_size_partial (text : Str) (n : Node) (hn : parseFile text = .ok n) (nd : NodeData) (hd : n.nodeData = .ok nd)
    (hc : ∀ side, ∀ p ∈ n.ports side, p.elem.NoOpenRefs) :
    apxSize text = .ok ((fileBytes nd.inFile).length, (fileBytes nd.outFile).length) := by
  unfold Node.nodeData at hd
  rw [bind_ok_iff] at hd
  obtain ⟨t, -, hb⟩ := hd
  obtain ⟨h1, h2⟩ := C31_partition _ _ _ _ nd ⟨nd, [], hb, rfl⟩
  simp only [apxSize, hn, ok_bind]
  rw [sumPackLen_ok n.named n.requires nd.inRanges (by simpa using h1.count) (hc .require) fun k p r hp hr => (h1.range k p r hp hr).2.1,
    sumPackLen_ok n.named n.provides nd.outRanges (by simpa using h2.count) (hc .provide) fun k p r hp hr => (h2.range k p r hp hr).2.1]
  simp only [ok_bind, h1.size, h2.size]

/-! ### Examples -/

/-- A definition with a record port. -/
def tlText3 : Str := "APX/1.2\nN\"X\"\nT\"A\"C\nP\"p\"T[\"A\"]\nP\"q\"{\"x\"S\"y\"C[3]}\nR\"r\"L\n".toList

/-- Its node. -/
def tlSrc3 : Node :=
  ⟨['X'], false, [⟨['A'], .prim .u8 none none none, none, none, none⟩], [⟨['r'], .prim .u32 none none none, none, some 0⟩],
    [⟨['p'], .refType ['A'] (.prim .u8 none none none), none, some 0⟩,
     ⟨['q'], .record (.cons (some ['x']) (.prim .u16 none none none)
        (.cons (some ['y']) (.prim .u8 none none (some 3)) .nil)) none, none, some 1⟩]⟩

theorem tlSrc3_loaded : parseFile tlText3 = .ok tlSrc3 := loaded_of_view (by decide +kernel) (by decide +kernel) (by decide +kernel)
  (by decide +kernel) rfl (by decide) (by decide)

example : parseFile tlText3 = .ok tlSrc3 ∧
    tlSrc3.nodeData.toOption.map (fun nd => ((fileBytes nd.inFile).length, (fileBytes nd.outFile).length)) = some (4, 6) ∧
    (∀ side, ∀ p ∈ tlSrc3.ports side, p.elem.NoOpenRefs) ∧ apxSize tlText3 = .ok (4, 6) := by
  refine ⟨tlSrc3_loaded, by decide +kernel, ?_, by decide +kernel⟩
  intro side
  cases side <;> simp [Node.ports, tlSrc3, Elem.NoOpenRefs, Fields.NoOpenRefs]

/-- A definition with a reference inside the record of a port. -/
def tlText4 : Str := "APX/1.2\nN\"X\"\nT\"A\"C\nR\"a\"{\"x\"T[\"A\"]}\n".toList

/-- Its node. -/
def tlSrc4 : Node :=
  ⟨['X'], false, [⟨['A'], .prim .u8 none none none, none, none, none⟩],
    [⟨['a'], .record (.cons (some ['x']) (.refName ['A']) .nil) none, none, some 0⟩], []⟩

/-- The node data can be made, with one byte to receive, but no size is printed (`C78_record_violated`). -/
example : parseFile tlText4 = .ok tlSrc4 ∧
    tlSrc4.nodeData.toOption.map (fun nd => (fileBytes nd.inFile).length) = some 1 ∧
    apxSize tlText4 = .error .assertionError :=
  ⟨loaded_of_view (by decide +kernel) (by decide +kernel) (by decide +kernel)
  (by decide +kernel) rfl (by decide) (by decide), by decide +kernel, by decide +kernel⟩

end Apx
