import Verif.Props.JoinRefuse
import Verif.Props.CopyNested

/-! C77: record types that read alike and mean something else, for all definitions. -/

namespace Apx

/-- Types with the same line have the same text, in whatever nodes they are. -/
theorem type_line_text {t u : TypeObj} (hw : t.Writable) (hu : u.shortName = none) (h : t.line = u.line) (ids ids' : Str → Option Int) :
    ∃ text, t.toStr ids true = .ok text ∧ u.toStr ids' true = .ok text := by
  simp only [TypeObj.line, Prod.mk.injEq] at h
  obtain ⟨g1, g2, g3⟩ := h
  obtain ⟨s, h1, -⟩ := Elem.parse_toStr_data ids true t.elem hw.2.1
  have h2 : u.elem.toStr ids' true = .ok s := by
    rw [← h1, ← Elem.toStr_asWritten (fun _ => none) ids ids t.elem, g2, Elem.toStr_asWritten (fun _ => none) ids ids' u.elem]
  exact ⟨lineText 'T' t.name s (t.attr.map TypeAttr.str), by simp [TypeObj.toStr, h1, hw.2.2.2.1],
    by simp [TypeObj.toStr, h2, hu, g1, g3]⟩

theorem portNamed_new {n : Node} {name : Str} (h : ∀ side, ∀ q ∈ n.ports side, q.name ≠ name) : n.portNamed name = none := by
  have ha : n.provides.find? (fun q => decide (q.name = name)) = none :=
    List.find?_eq_none.mpr fun q hq => by simpa using h .provide q hq
  have hb : n.requires.find? (fun q => decide (q.name = name)) = none :=
    List.find?_eq_none.mpr fun q hq => by simpa using h .require q hq
  simp only [Node.portNamed, ha, hb, Option.map_none]

theorem port_mem_names {n : Node} {side : Side} {p : Port} (h : p ∈ n.ports side) : p.name ∈ n.portNames := by
  cases side
  · exact List.mem_append.mpr (.inl (List.mem_map_of_mem h))
  · exact List.mem_append.mpr (.inr (List.mem_map_of_mem h))

/-- Copying ports of record types that read alike. -/
theorem copyAll_alike {k : Node} (hk : NodeInv k) (hwk : k.Writable) (T : List TypeObj) (l : List (Node × Side × Port))
    (hl : ∀ x ∈ l, x.1 = k ∧ x.2.2 ∈ k.ports x.2.1) (hnd : (l.map fun x => x.2.2.name).Nodup)
    (halike : ∀ x ∈ l, ∃ u ∈ k.types, x.2.2.elem = .refType u.name u.elem ∧
      ∃ t ∈ T, t.line = u.line ∧ ∃ fs a, t.elem = .record fs a)
    (n : Node) (hi : NodeInv n) (hw : n.Writable) (hT : n.types = T)
    (hnew : ∀ x ∈ l, ∀ side, ∀ q ∈ n.ports side, q.name ≠ x.2.2.name) :
    ∃ n', copyAll n l = .ok n' ∧ NodeInv n' ∧ n'.Writable ∧ n'.types = T ∧ n'.name = n.name ∧ n'.isFinalized = n.isFinalized ∧
      (∀ side, ∀ q ∈ n.ports side, q ∈ n'.ports side) ∧ ∀ x ∈ l, ∃ q ∈ n'.ports x.2.1, q.name = x.2.2.name := by
  induction l generalizing n with
  | nil => exact ⟨n, rfl, hi, hw, hT, rfl, rfl, fun _ _ h => h, by simp⟩
  | cons x l ih =>
    obtain ⟨m, side, p⟩ := x
    obtain ⟨hmk, hp⟩ := hl _ (List.mem_cons_self ..)
    simp only at hmk hp
    subst hmk
    obtain ⟨u, hu, he, t, ht, hline, fs, a, hrec⟩ := halike _ (List.mem_cons_self ..)
    simp only at he
    have ht' : t ∈ n.types := hT ▸ ht
    obtain ⟨text, g1, g2⟩ := type_line_text (hw.types t ht') (hwk.types u hu).2.2.2.1 hline n.ids m.ids
    have hname : t.name = u.name := congrArg (fun c : Str × Elem × Option TypeAttr => c.1) hline
    obtain ⟨q, h1, h2, h3, h4⟩ := alike_copy hi hk hp (hwk.ports side p hp).2.1
      (portNamed_new (hnew _ (List.mem_cons_self ..))) ht' hu hname he g1 g2 hrec false
    obtain ⟨f1, f2, f3, f4, f5⟩ := setPorts_facts n side (n.ports side ++ [q])
    have hi' : NodeInv (n.setPorts side (n.ports side ++ [q])) := by
      have := addPortFrom_inv n m side p false hi
      rw [h1] at this
      exact this
    have hports : ∀ s r, r ∈ (n.setPorts side (n.ports side ++ [q])).ports s ↔ r ∈ n.ports s ∨ s = side ∧ r = q := by
      intro s r
      by_cases hs : s = side
      · subst hs
        rw [f4]
        simp
      · have : s = side.flip := by cases s <;> cases side <;> simp_all [Side.flip]
        rw [this, f5, ← this]
        simp [hs]
    have hw' : (n.setPorts side (n.ports side ++ [q])).Writable := by
      refine ⟨by rw [f1]; exact hw.name, by rw [f3]; exact hw.types, fun s r hr => ?_⟩
      rcases (hports s r).mp hr with hr | ⟨rfl, rfl⟩
      · exact hw.ports s r hr
      · obtain ⟨w1, w2, w3, w4⟩ := hwk.ports s p hp
        rw [he] at w2 w3
        rw [h2, h3, h4, hname]
        exact ⟨w1, w2, w3, w4⟩
    simp only [List.map_cons, List.nodup_cons] at hnd
    obtain ⟨n', k1, k2, k3, k4, k5, k6, k7, k8⟩ := ih (fun x hx => hl x (by simp [hx])) hnd.2
      (fun x hx => halike x (by simp [hx])) _ hi' hw' (f3.trans hT) (by
        intro x hx s r hr
        rcases (hports s r).mp hr with hr | ⟨rfl, rfl⟩
        · exact hnew x (by simp [hx]) s r hr
        · rw [h2]
          intro heq
          exact hnd.1 (List.mem_map.mpr ⟨x, hx, heq.symm⟩))
    refine ⟨n', ?_, k2, k3, k4, k5.trans f1, k6.trans f2, ?_, ?_⟩
    · simp only [copyAll, h1, k1]
    · intro s r hr
      exact k7 s r ((hports s r).mpr (.inl hr))
    · intro x hx
      rcases List.mem_cons.mp hx with rfl | hx
      · exact ⟨q, k7 _ _ ((hports side q).mpr (.inr ⟨rfl, rfl⟩)), h2⟩
      · exact k8 x hx

/-- C77 fails without a message for record types that read alike and mean something else, because types they refer to are other
ones: joining a definition whose ports have such types, and names not used before, to others succeeds, and if the file written
can be loaded, it has ports of these names, but none of them has the type it has in that definition. -/
theorem C77_meaning_violated (name : Str) (sort normalize : Bool) (texts : List Str) (srcs : List Node)
    (hsrc : mapPy parseFile texts = .ok srcs) (hc : Compatible (· ∈ srcs)) (hw : ∀ m ∈ srcs, m.Writable) (hn : NameOk name)
    (text : Str) (k : Node) (hk : parseFile text = .ok k) (hwk : k.Writable) (hnd : k.portNames.Nodup)
    (hnew : ∀ m ∈ srcs, ∀ x ∈ k.portNames, x ∉ m.portNames)
    (halike : ∀ side, ∀ p ∈ k.ports side, ∃ u ∈ k.types, p.elem = .refType u.name u.elem ∧
      ∃ m ∈ srcs, ∃ side', ∃ q ∈ m.ports side', ∃ t ∈ m.types, q.elem = .refType t.name t.elem ∧ t.line = u.line ∧
        t.elem ≠ u.elem ∧ ∃ fs a, t.elem = .record fs a) :
    ∃ out, apxJoin name sort normalize (texts ++ [text]) = ⟨[(.file (name ++ ".apx".toList), out)], .ok ()⟩ ∧
      ∀ r, parseFile out = .ok r → ∀ side, ∀ p ∈ k.ports side,
        (∃ q ∈ r.ports side, q.name = p.name) ∧ ∀ q ∈ r.ports side, q.name = p.name → q.elem ≠ p.elem := by
  have hsrc' : mapPy parseFile (texts ++ [text]) = .ok (srcs ++ [k]) := by
    clear hc hw hnew halike
    induction texts generalizing srcs with
    | nil =>
      simp only [mapPy, Except.ok.injEq] at hsrc
      subst hsrc
      simp [mapPy, hk]
    | cons a texts ih =>
      simp only [mapPy, bind_ok_iff, Except.ok.injEq] at hsrc
      obtain ⟨y, h1, r, h2, rfl⟩ := hsrc
      simp only [List.cons_append, mapPy, h1, ih r h2, ok_bind]
  have hki : NodeInv k :=
    (parseFiles_built _ Parser.new (by intro n hn; cases hn) _ (parseFiles_each hsrc' Parser.new) k (by simp)).1.inv
  obtain ⟨n, h1, h2, h3, h4, h5⟩ := joinNodes_total hc srcs (fun _ h => h) (Node.new name) (.new _ _)
  have hw' := assembled_writable h2 hw (by rw [h3]; exact hn)
  -- the types of the ports of the definition added
  have hal : ∀ side, ∀ p ∈ k.ports side, ∃ u ∈ k.types, p.elem = .refType u.name u.elem ∧
      ∃ t ∈ n.types, t.line = u.line ∧ t.elem ≠ u.elem ∧ ∃ fs a, t.elem = .record fs a := by
    intro side p hp
    obtain ⟨u, hu, he, m, hm, side', q, hq, t, ht, hqe, hline, hne, fs, a, hrec⟩ := halike side p hp
    have hqn : q.content ∈ n.contents side' := by
      rw [h5]
      exact Or.inr ⟨q, ⟨m, hm, hq⟩, rfl⟩
    obtain ⟨q', hq', hqc⟩ := mem_contents.mp hqn
    simp only [Port.content, Prod.mk.injEq] at hqc
    have hqe' : q'.elem = .refType t.name t.elem := hqc.2.1.trans hqe
    obtain ⟨tn, e', k1, k2, _⟩ := (h2.inv.ports side' q' hq').ref (by rw [hqe']; rfl)
    rw [hqe', Elem.refType.injEq] at k1
    obtain ⟨rfl, rfl⟩ := k1
    obtain ⟨t', ht', htn, hte⟩ := mem_named k2
    obtain ⟨-, m', hm', v, hv, hvc⟩ := h2.types t' ht'
    have hvn : v.name = t.name := by
      simp only [TypeObj.content, Prod.mk.injEq] at hvc
      rw [← hvc.1, htn]
    have hvt := hvc.trans (hc.types m' m hm' hm v hv t ht hvn)
    simp only [TypeObj.content, Prod.mk.injEq] at hvt
    refine ⟨u, hu, he, t', ht', ?_, by rw [hte]; exact hne, fs, a, by rw [hte]; exact hrec⟩
    rw [← hline]
    simp only [TypeObj.line, hvt.1, hvt.2.1, hvt.2.2]
  have hmemk : ∀ x ∈ copySeq [k], x.1 = k ∧ x.2.2 ∈ k.ports x.2.1 := by
    rintro ⟨m, side, p⟩ hx
    obtain ⟨hm, hp⟩ := mem_copySeq.mp hx
    simp only [List.mem_singleton] at hm
    subst hm
    exact ⟨rfl, hp⟩
  obtain ⟨n', g1, g2, g3, g4, g5, g6, -, g8⟩ := copyAll_alike hki hwk n.types (copySeq [k]) hmemk
    (by
      have : (copySeq [k]).map (fun x => x.2.2.name) = k.portNames := by
        simp [copySeq, Node.portNames, Function.comp_def]
      rw [this]
      exact hnd)
    (by
      intro x hx
      obtain ⟨-, hp⟩ := hmemk x hx
      obtain ⟨u, hu, he, t, ht, hl, -, hr⟩ := hal _ _ hp
      exact ⟨u, hu, he, t, ht, hl, hr⟩)
    n h2.inv hw' rfl (by
      intro x hx side q hq heq
      obtain ⟨-, hp⟩ := hmemk x hx
      have hqc : q.content ∈ n.contents side := mem_contents.mpr ⟨q, hq, rfl⟩
      obtain ⟨m, hm, hqm⟩ := h2.ports side _ hqc
      obtain ⟨q', hq', hqc'⟩ := mem_contents.mp hqm
      simp only [Port.content, Prod.mk.injEq] at hqc'
      refine hnew m hm x.2.2.name (port_mem_names hp) ?_
      rw [← heq, ← hqc'.1]
      exact port_mem_names hq')
  have hj : joinNodes (Node.new name) (srcs ++ [k]) = .ok n' := by
    rw [joinNodes_copy]
    rw [joinNodes_copy] at h1
    rw [show copySeq (srcs ++ [k]) = copySeq srcs ++ copySeq [k] by simp [copySeq, List.flatMap_append], copyAll_append, h1, ok_bind]
    exact g1
  obtain ⟨out, o1, o2⟩ := output_iff g2 g3 sort normalize
  refine ⟨out, ?_, ?_⟩
  · simp only [apxJoin, parseFiles_each hsrc' Parser.new, joinedNode, hj, ok_bind,
      finalize_eq n' sort false g2.toNodeInv0 (g6.trans h4)]
    rw [show (n'.finalized sort false).name = name by rw [finalized_name, g5, h3]; rfl]
    exact o1 (some (name ++ ".apx".toList))
  · intro r hr side p hp
    obtain ⟨text', r', e1, e2, -, -, e4⟩ := output_ok g2 g3 (o2.mp ⟨r, hr⟩) sort none normalize
    have heq := (o1 none).symm.trans e1
    simp only [ToolRun.mk.injEq, List.cons.injEq, Prod.mk.injEq, and_true, true_and] at heq
    subst heq
    rw [hr] at e2
    cases e2
    have hmem : ∀ c, c ∈ r.contents side ↔ c ∈ n'.contents side := by
      intro c
      rw [e4, (perm_sortedIf sort _).mem_iff]
      rfl
    constructor
    · obtain ⟨q, hq, hqn⟩ := g8 _ (mem_copySeq.mpr ⟨List.mem_singleton.mpr rfl, hp⟩)
      obtain ⟨q', hq', hqc⟩ := mem_contents.mp ((hmem _).mpr (mem_contents.mpr ⟨q, hq, rfl⟩))
      simp only [Port.content, Prod.mk.injEq] at hqc
      exact ⟨q', hq', hqc.1.trans hqn⟩
    · intro q hq _ hqe
      obtain ⟨q', hq', hqc⟩ := mem_contents.mp ((hmem _).mp (mem_contents.mpr ⟨q, hq, rfl⟩))
      simp only [Port.content, Prod.mk.injEq] at hqc
      obtain ⟨u, hu, he, t, ht, hl, hne, -⟩ := hal side p hp
      have hqe' : q'.elem = .refType u.name u.elem := (hqc.2.1.trans hqe).trans he
      obtain ⟨tn, e', k1, k2, _⟩ := (g2.ports side q' hq').ref (by rw [hqe']; rfl)
      rw [hqe', Elem.refType.injEq] at k1
      obtain ⟨rfl, rfl⟩ := k1
      obtain ⟨v, hv, hvn, hve⟩ := mem_named k2
      have hvt : v = t := unique_types g2 hv (g4 ▸ ht) (hvn.trans (congrArg (fun c : Str × Elem × Option TypeAttr => c.1) hl).symm)
      exact hne (by rw [← hvt, hve])

/-- A definition with a port of a record type. -/
def jmText : Str := "APX/1.2\nN\"X\"\nT\"A\"C\nT\"R\"{\"x\"T[\"A\"]}\nP\"a\"T[\"R\"]\n".toList

/-- Another one: the type `R` reads alike, and `A` is another one. -/
def jmText2 : Str := "APX/1.2\nN\"Y\"\nT\"A\"L\nT\"R\"{\"x\"T[\"A\"]}\nP\"b\"T[\"R\"]\n".toList

/-- What `R` is if `A` is of the type given. -/
def jmElem (tc : TypeCode) : Elem := .record (.cons (some ['x']) (.refType ['A'] (.prim tc none none none)) .nil) none

/-- The node with these names and this type. -/
def jmNode (name port : Char) (tc : TypeCode) : Node := ⟨[name], false, [⟨['A'], .prim tc none none none, none, none, none⟩,
  ⟨['R'], jmElem tc, none, none, none⟩], [], [⟨[port], .refType ['R'] (jmElem tc), none, some 0⟩]⟩

theorem jm_loaded : parseFile jmText = .ok (jmNode 'X' 'a' .u8) := loaded_of_view (by decide +kernel) (by decide +kernel)
  (by decide +kernel) (by decide +kernel) rfl (by decide) (by decide)

theorem jm_loaded2 : parseFile jmText2 = .ok (jmNode 'Y' 'b' .u32) := loaded_of_view (by decide +kernel) (by decide +kernel)
  (by decide +kernel) (by decide +kernel) rfl (by decide) (by decide)

theorem jm_writable (tc : TypeCode) : (jmNode 'X' 'a' tc).Writable ∧ (jmNode 'Y' 'b' tc).Writable := by
  constructor
  all_goals
    refine ⟨by unfold NameOk; simp [jmNode], ?_, ?_⟩
    · simp [jmNode, jmElem, NameOk, Elem.WellFormed, Elem.Clean, Fields.WellFormed, Fields.Clean, QuoteFree, RefNameOk]
    · intro side
      cases side <;>
        simp [Node.ports, jmNode, jmElem, NameOk, Elem.WellFormed, Elem.Clean, RefNameOk]

example : mapPy parseFile [jmText] = .ok [jmNode 'X' 'a' .u8] ∧ Compatible (· ∈ [jmNode 'X' 'a' .u8]) ∧
    (∀ m ∈ [jmNode 'X' 'a' .u8], m.Writable) ∧ NameOk ['J'] ∧ parseFile jmText2 = .ok (jmNode 'Y' 'b' .u32) ∧
    (jmNode 'Y' 'b' .u32).Writable ∧ (jmNode 'Y' 'b' .u32).portNames.Nodup ∧
    (∀ m ∈ [jmNode 'X' 'a' .u8], ∀ x ∈ (jmNode 'Y' 'b' .u32).portNames, x ∉ m.portNames) ∧
    (∀ side, ∀ p ∈ (jmNode 'Y' 'b' .u32).ports side, ∃ u ∈ (jmNode 'Y' 'b' .u32).types, p.elem = .refType u.name u.elem ∧
      ∃ m ∈ [jmNode 'X' 'a' .u8], ∃ side', ∃ q ∈ m.ports side', ∃ t ∈ m.types, q.elem = .refType t.name t.elem ∧
        t.line = u.line ∧ t.elem ≠ u.elem ∧ ∃ fs a, t.elem = .record fs a) := by
  refine ⟨by simp [mapPy, jm_loaded], ?_, ?_, by unfold NameOk; decide, jm_loaded2, (jm_writable _).2, by decide, by decide, ?_⟩
  · have hone : ∀ n, n ∈ [jmNode 'X' 'a' .u8] → n = jmNode 'X' 'a' .u8 := fun n hn => List.mem_singleton.mp hn
    refine ⟨?_, ?_, ?_, ?_, ?_, ?_⟩
    · intro n hn
      exact (parseFiles_built [jmText] Parser.new (by intro n hn; cases hn) _
        (parseFiles_each (show mapPy parseFile [jmText] = .ok [jmNode 'X' 'a' .u8] by simp [mapPy, jm_loaded]) Parser.new) n hn).1
    · intro n hn
      rw [hone n hn]
      simp [jmNode, jmElem, Elem.WellFormed, Fields.WellFormed, QuoteFree, RefNameOk, Elem.Copyable, Fields.AllOk, Elem.FieldOk]
    · intro n hn side p hp
      rw [hone n hn] at hp
      exact ((jm_writable .u8).1.ports side p hp).2.1
    · intro n m hn hm
      rw [hone n hn, hone m hm]
      simp [jmNode, TypeObj.content]
    · intro n m hn hm
      rw [hone n hn, hone m hm]
      simp [jmNode, Node.portNames]
    · intro n m hn hm side side'
      rw [hone n hn, hone m hm]
      cases side <;> cases side' <;> simp [jmNode, Node.ports]
  · intro m hm
    rw [List.mem_singleton.mp hm]
    exact (jm_writable _).1
  · intro side p hp
    cases side with
    | require => cases hp
    | provide =>
      rw [List.mem_singleton.mp hp]
      exact ⟨⟨['R'], jmElem .u32, none, none, none⟩, by simp [jmNode], rfl, _, List.mem_singleton.mpr rfl, .provide, _,
        List.mem_singleton.mpr rfl, ⟨['R'], jmElem .u8, none, none, none⟩, by simp [jmNode], rfl, rfl, by decide, _, _, rfl⟩

/-- Port `b` has four bytes in the definition joined, and one in the result. -/
example : apxSize jmText = .ok (0, 1) ∧ apxSize jmText2 = .ok (0, 4) ∧
    (apxJoin ['J'] false false [jmText, jmText2]).sizesWritten = [.ok (0, 2)] ∧
    (apxJoin ['J'] false false [jmText, jmText2]).portsWritten = [.ok ([], [['a'], ['b']])] := by decide +kernel

end Apx
