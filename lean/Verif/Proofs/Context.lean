import Verif.Model.Context
import Verif.Proofs.RoundTrip
import Verif.Proofs.Tools3

/-! Lemmas for C85: the texts of contexts. -/

namespace Apx

/-! ### Texts -/

/-- Loading a text made of a version line, lines and blank lines. -/
theorem headed_load (ls : List Str) (k : Nat) (hl : OneLiners ls) (st : Parser) :
    let text := joinLines (headerText :: ls) ++ List.replicate k '\n'
    (st.loads text = match Parser.processLines ⟨st.node, .start⟩ ls with
      | (st, .error x) => (st, .error x)
      | (st, .ok ()) => st.finish .runtimeError) ∧
    (st.load text = match Parser.processLines ⟨st.node, .start⟩ ls with
      | (st, .error x) => (st, .error x)
      | (st, .ok ()) => st.finish .attributeError) := by
  have e : ∀ k (l : List Str), l ≠ [] → joinLines l ++ List.replicate k '\n' = joinLines (l ++ List.replicate k []) := by
    intro k
    induction k with
    | zero => intro l _; simp
    | succ k ih =>
      intro l hl
      rw [List.replicate_succ, List.replicate_succ, show l ++ [] :: List.replicate k [] = (l ++ [[]]) ++ List.replicate k [] by simp,
        ← ih _ (by simp), joinLines_snoc _ hl]
      simp
  have hs : splitOn '\n' (joinLines (headerText :: ls) ++ List.replicate k '\n') = headerText :: (ls ++ List.replicate k []) := by
    rw [e _ _ (by simp)]
    rw [show headerText :: ls ++ List.replicate k [] = headerText :: (ls ++ List.replicate k []) from rfl]
    apply splitOn_joinLines _ (by simp)
    intro l h
    simp only [List.mem_cons, List.mem_append] at h
    rcases h with rfl | h | h
    · decide
    · exact hl l h
    · rw [List.eq_of_mem_replicate h]; simp
  have e1 : firstLine (joinLines (headerText :: ls) ++ List.replicate k '\n') = headerText := by unfold firstLine; rw [hs]; rfl
  have e2 : otherLines (joinLines (headerText :: ls) ++ List.replicate k '\n') = ls ++ List.replicate k [] := by
    unfold otherLines; rw [hs]; rfl
  have hv : parseHeaderLine (rstripNewline headerText) = some ('1', '2') := by decide
  have hb : ∀ (k : Nat) (st : Parser), Parser.processLines st (List.replicate k []) = (st, .ok ()) := by
    intro k
    induction k with
    | zero => intro st; rfl
    | succ k ih => intro st; rw [List.replicate_succ]; exact ih st
  have hp : Parser.processLines ⟨st.node, .start⟩ (ls ++ List.replicate k []) = Parser.processLines ⟨st.node, .start⟩ ls := by
    rw [processLines_append]
    generalize Parser.processLines ⟨st.node, .start⟩ ls = r
    obtain ⟨st', x⟩ := r
    cases x with
    | error x => rfl
    | ok u => simp only; exact hb k st'
  intro text
  constructor
  · show Parser.loads st (joinLines (headerText :: ls) ++ List.replicate k '\n') = _
    rw [loads_eq, e1, e2, hv, if_neg (by simp), if_neg (by simp), hp]
    generalize Parser.processLines ⟨st.node, .start⟩ ls = r
    obtain ⟨st', x⟩ := r
    cases x <;> rfl
  · show Parser.load st (joinLines (headerText :: ls) ++ List.replicate k '\n') = _
    rw [load_eq, e1, e2, hv, if_neg (by simp), hp]
    generalize Parser.processLines ⟨st.node, .start⟩ ls = r
    obtain ⟨st', x⟩ := r
    cases x <;> rfl

/-! ### Where the lines of a node end -/

theorem port_lines_section {n : Node} (hi : NodeInv n) (nm : Bool) (side : Side) (ps : List Port)
    (hp : ∀ p ∈ ps, PortInv n.named p) (hw : ∀ p ∈ ps, p.Writable) (ls : List Str)
    (hl : mapPy (Port.toStr n.ids nm side) ps = .ok ls) (m : Node) (cs : Section) (hm : m.named = n.named) (hcs : cs ≠ .start) :
    (Parser.processLines ⟨some m, cs⟩ ls).1.cs = if ps = [] then cs else side.section := by
  induction ps generalizing m cs ls with
  | nil => simp only [mapPy, Except.ok.injEq] at hl; subst hl; rfl
  | cons p ps ih =>
    obtain ⟨l, h4, _, h6⟩ := port_line hi p (hp p (by simp)) (hw p (by simp)) nm side
    simp only [mapPy, h4, ok_bind, bind_ok_iff, Except.ok.injEq] at hl
    obtain ⟨r, hr, rfl⟩ := hl
    simp only [Parser.processLines, h6 m cs hm hcs]
    rw [ih (fun q hq => hp q (by simp [hq])) (fun q hq => hw q (by simp [hq])) r hr _ _ (by rw [setPorts_named, hm])
      (by cases side <;> simp [Side.section])]
    simp

/-- The section the lines of a node end in. -/
def Node.endSection (n : Node) (cs : Section) : Prop :=
  if n.requires ≠ [] then cs = .require else if n.provides ≠ [] then cs = .provide else cs = .node ∨ cs = .type

theorem lines_section {n : Node} (hi : NodeInv n) (ho : n.Ordered) (hw : n.Writable) (nm : Bool) (ls : List Str)
    (hl : n.lines nm = .ok ls) (o : Option Node) :
    OneLiners ls ∧ ∃ cs, Parser.processLines ⟨o, .start⟩ ls = (⟨some n.reloaded, cs⟩, .ok ()) ∧ n.endSection cs := by
  obtain ⟨hn, hnl⟩ := splitLine_node n.name hw.name
  obtain ⟨ls', hls, _, hol, hre⟩ := lines_reload hi ho hw nm
  rw [hl] at hls
  simp only [Except.ok.injEq] at hls
  subst hls
  obtain ⟨cs, hcs⟩ := hre o
  refine ⟨hol, cs, hcs, ?_⟩
  obtain ⟨tl, t1, t2, t3⟩ := type_lines hi ho hw.types false n.types [] rfl
  obtain ⟨pl, p1, p2, p3⟩ := port_lines hi nm .provide n.provides (hi.ports .provide) (hw.ports .provide)
  obtain ⟨rl, r1, r2, r3⟩ := port_lines hi nm .require n.requires (hi.ports .require) (hw.ports .require)
  have hls : ls = ('N' :: '"' :: (n.name ++ ['"'])) :: (tl ++ pl ++ rl) := by
    simp [Node.lines, t1, p1, r1] at hl
    rw [← hl]; simp
  subst hls
  have h0 : Parser.processLine ⟨o, .start⟩ ('N' :: '"' :: (n.name ++ ['"'])) =
      (⟨some (Node.new n.name), .node⟩, .ok ()) := by
    unfold Parser.processLine
    rw [hn]
    simp [Parser.processParts, Line.kind, Line.nodeName, lineName]
  obtain ⟨c1, hc1, e1⟩ := t3 (Node.new n.name) .node rfl (Or.inl rfl)
  have hc1' : c1 ≠ .start := by rcases hc1 with rfl | rfl <;> simp
  obtain ⟨c2, hc2, e2⟩ := p3 { Node.new n.name with types := n.types.map TypeObj.fresh } c1
    (by unfold Node.named; exact fresh_named _) hc1'
  have s2 := port_lines_section hi nm .provide n.provides (hi.ports .provide) (hw.ports .provide) pl p1
    { Node.new n.name with types := n.types.map TypeObj.fresh } c1 (by unfold Node.named; exact fresh_named _) hc1'
  rw [e2] at s2
  simp only at s2
  simp only [Parser.processLines, h0] at hcs
  rw [processLines_append, processLines_append, e1] at hcs
  simp only [e2] at hcs
  have s3 := port_lines_section hi nm .require n.requires (hi.ports .require) (hw.ports .require) rl r1
    (Node.setPorts { Node.new n.name with types := n.types.map TypeObj.fresh } .provide
      (Node.ports { Node.new n.name with types := n.types.map TypeObj.fresh } .provide ++ numbered
        (Node.ports { Node.new n.name with types := n.types.map TypeObj.fresh } .provide).length n.provides)) c2
    (by rw [setPorts_named]; unfold Node.named; exact fresh_named _) hc2
  rw [hcs] at s3
  simp only at s3
  unfold Node.endSection
  by_cases hr : n.requires = []
  · rw [if_pos hr] at s3
    by_cases hpv : n.provides = []
    · rw [if_pos hpv] at s2
      rw [if_neg (by simp [hr]), if_neg (by simp [hpv]), s3, s2]
      exact hc1
    · rw [if_neg hpv] at s2
      rw [if_neg (by simp [hr]), if_pos hpv, s3, s2]
      rfl
  · rw [if_neg hr] at s3
    rw [if_pos hr, s3]
    rfl

/-! ### Lines of a node after those of another -/

theorem type_shape {n : Node} (t : TypeObj) (hw : t.Writable) (nm : Bool) (l : Str) (h : t.toStr n.ids nm = .ok l) :
    ∃ s a, splitLine l = .full ['T'] (some t.name) s a ∧ '\n' ∉ l := by
  obtain ⟨hw1, hw2, hw3, hw4, hw5⟩ := hw
  obtain ⟨s, h1, h2⟩ := Elem.parse_toStr_data n.ids nm t.elem hw2
  obtain ⟨hl, hnl⟩ := splitLine_lineText 'T' t.name s (t.attr.map TypeAttr.str) (by decide) (by decide) hw1
    (Elem.toStr_ends _ _ _ _ h1) (fun c hc => Elem.toStr_no_cut n.ids nm t.elem hw3 hw2 s h1 c hc)
    (by
      intro a ha
      rw [Option.map_eq_some_iff] at ha
      obtain ⟨b, hb, rfl⟩ := ha
      exact hw5 b hb)
  have : l = lineText 'T' t.name s (t.attr.map TypeAttr.str) := by
    simp [TypeObj.toStr, h1, hw4] at h
    exact h.symm
  subst this
  exact ⟨_, _, hl, hnl⟩

theorem port_shape {n : Node} (hi : NodeInv n) (p : Port) (hp : PortInv n.named p) (hw : p.Writable) (nm : Bool) (side : Side)
    (l : Str) (h : p.toStr n.ids nm side = .ok l) :
    ∃ s a, splitLine l = .full [side.letter] (some p.name) s a ∧ '\n' ∉ l := by
  obtain ⟨hw1, hw2, hw3, hw5⟩ := hw
  obtain ⟨s, c, h1, h2, _, _, _, _, h3⟩ := reparse_port hi p hp hw2 nm
  obtain ⟨hl, hnl⟩ := splitLine_lineText side.letter p.name s (p.attr.map PortAttr.str) (by cases side <;> decide)
    (by cases side <;> decide) hw1
    (Elem.toStr_ends _ _ _ _ h1) (fun c hc => Elem.toStr_no_cut n.ids nm p.elem hw3 hw2 s h1 c hc)
    (by
      intro a ha
      rw [Option.map_eq_some_iff] at ha
      obtain ⟨b, hb, rfl⟩ := ha
      exact hw5 b hb)
  have : l = lineText side.letter p.name s (p.attr.map PortAttr.str) := by
    simp [Port.toStr, h1] at h
    exact h.symm
  subst this
  exact ⟨_, _, hl, hnl⟩

theorem processLines_append_ok {st st'' : Parser} {a b : List Str} (h : st.processLines (a ++ b) = (st'', .ok ())) :
    ∃ st', st.processLines a = (st', .ok ()) ∧ st'.processLines b = (st'', .ok ()) := by
  rw [processLines_append] at h
  generalize st.processLines a = r at h
  obtain ⟨st', x⟩ := r
  cases x with
  | error x => simp at h
  | ok u => exact ⟨st', rfl, h⟩

/-- Type lines after a provide port are passed over. -/
theorem type_lines_ignored {n : Node} (nm : Bool) (ts : List TypeObj) (hw : ∀ t ∈ ts, t.Writable) (ls : List Str)
    (h : mapPy (TypeObj.toStr n.ids nm) ts = .ok ls) (o : Option Node) :
    Parser.processLines ⟨o, .provide⟩ ls = (⟨o, .provide⟩, .ok ()) := by
  induction ts generalizing ls with
  | nil => simp only [mapPy, Except.ok.injEq] at h; subst h; rfl
  | cons t ts ih =>
    simp only [mapPy, bind_ok_iff, Except.ok.injEq] at h
    obtain ⟨l, hl, r, hr, rfl⟩ := h
    obtain ⟨s, a, hs, _⟩ := type_shape t (hw t (by simp)) nm l hl
    have : Parser.processLine ⟨o, .provide⟩ l = (⟨o, .provide⟩, .ok ()) := by
      unfold Parser.processLine
      rw [hs]
      simp [Parser.processParts, Line.kind]
    simp only [Parser.processLines, this]
    exact ih (fun x hx => hw x (by simp [hx])) r hr

/-- What adding ports to a node leaves as it was, and the names it has then. -/
structure Grown (k k' : Node) (side : Side) (names : List Str) : Prop where
  name : k'.name = k.name
  types : k'.types = k.types
  same : (k'.ports side).map Port.name = (k.ports side).map Port.name ++ names
  other : ∀ s, s ≠ side → k'.ports s = k.ports s

theorem addPort_grown {k k' : Node} {side : Side} {p q : Port} (h : k.addPort side p = .ok (k', q)) : Grown k k' side [p.name] := by
  unfold Node.addPort at h
  rw [bind_ok_iff] at h
  obtain ⟨r, hr, h⟩ := h
  simp only [Except.ok.injEq, Prod.mk.injEq] at h
  obtain ⟨rfl, rfl⟩ := h
  have hn : r.name = p.name := by
    unfold resolvePort at hr
    split at hr
    · rw [bind_ok_iff] at hr
      obtain ⟨e, _, hr⟩ := hr
      simp only [Except.ok.injEq] at hr
      rw [← hr]
    · simp only [Except.ok.injEq] at hr
      rw [← hr]
  refine ⟨by cases side <;> rfl, by cases side <;> rfl, ?_, ?_⟩
  · cases side <;> simp [Node.setPorts, Node.ports, hn]
  · intro s hs
    cases side <;> cases s <;> first | exact absurd rfl hs | rfl

theorem port_line_grown {n : Node} (hi : NodeInv n) (p : Port) (hp : PortInv n.named p) (hw : p.Writable) (nm : Bool) (side : Side)
    (l : Str) (h : p.toStr n.ids nm side = .ok l) (k : Node) (cs : Section) (hcs : cs ≠ .start) (st : Parser)
    (hok : Parser.processLine ⟨some k, cs⟩ l = (st, .ok ())) :
    ∃ k', st = ⟨some k', side.section⟩ ∧ Grown k k' side [p.name] := by
  obtain ⟨s, a, hs, _⟩ := port_shape hi p hp hw nm side l h
  have key : ∀ (x : Parser), x.node = some k → x.cs = side.section →
      Parser.portLine x side (.full [side.letter] (some p.name) s a) = (st, .ok ()) →
      ∃ k', st = ⟨some k', side.section⟩ ∧ Grown k k' side [p.name] := by
    intro x hx hxc hxl
    unfold Parser.portLine at hxl
    simp only [Line.args, lineName, Option.getD_some, ok_bind, hx] at hxl
    cases hm : mkPort p.name s a with
    | error e => rw [hm] at hxl; simp [error_bind] at hxl
    | ok q =>
      rw [hm] at hxl
      simp only [ok_bind] at hxl
      cases ha : k.addPort side q with
      | error e => rw [ha] at hxl; simp at hxl
      | ok r =>
        obtain ⟨k', q'⟩ := r
        rw [ha] at hxl
        simp only [Prod.mk.injEq, and_true] at hxl
        have hq : q.name = p.name := by
          unfold mkPort at hm
          simp only [bind_ok_iff, Except.ok.injEq] at hm
          obtain ⟨_, _, _, _, rfl⟩ := hm
          rfl
        refine ⟨k', ?_, hq ▸ addPort_grown ha⟩
        rw [← hxl, ← hxc]
  unfold Parser.processLine at hok
  rw [hs] at hok
  unfold Parser.processParts at hok
  rw [if_neg (by simp)] at hok
  cases side <;> cases cs <;> first
    | exact absurd rfl hcs
    | (simp only [Side.letter] at key hok; simp [Line.kind] at hok; exact key _ rfl rfl hok)

theorem Grown.trans {k k' k'' : Node} {side : Side} {a b : List Str} (h1 : Grown k k' side a) (h2 : Grown k' k'' side b) :
    Grown k k'' side (a ++ b) :=
  ⟨h2.name.trans h1.name, h2.types.trans h1.types, by rw [h2.same, h1.same, List.append_assoc],
    fun s hs => (h2.other s hs).trans (h1.other s hs)⟩

theorem port_lines_grown {n : Node} (hi : NodeInv n) (nm : Bool) (side : Side) (ps : List Port)
    (hp : ∀ p ∈ ps, PortInv n.named p) (hw : ∀ p ∈ ps, p.Writable) (ls : List Str)
    (hl : mapPy (Port.toStr n.ids nm side) ps = .ok ls) (k : Node) (cs : Section) (hcs : cs ≠ .start) (st : Parser)
    (hok : Parser.processLines ⟨some k, cs⟩ ls = (st, .ok ())) :
    ∃ k', st = ⟨some k', if ps = [] then cs else side.section⟩ ∧ Grown k k' side (ps.map Port.name) := by
  induction ps generalizing k cs ls with
  | nil =>
    simp only [mapPy, Except.ok.injEq] at hl
    subst hl
    simp only [Parser.processLines, Prod.mk.injEq, and_true] at hok
    exact ⟨k, by rw [← hok]; simp, rfl, rfl, by simp, fun _ _ => rfl⟩
  | cons p ps ih =>
    simp only [mapPy, bind_ok_iff, Except.ok.injEq] at hl
    obtain ⟨l, hl, r, hr, rfl⟩ := hl
    unfold Parser.processLines at hok
    cases hx : Parser.processLine ⟨some k, cs⟩ l with
    | mk st1 res =>
      rw [hx] at hok
      cases res with
      | error e => simp at hok
      | ok u =>
        simp only at hok
        obtain ⟨k1, rfl, g1⟩ := port_line_grown hi p (hp p (by simp)) (hw p (by simp)) nm side l hl k cs hcs st1 hx
        obtain ⟨k2, hst, g2⟩ := ih (fun q hq => hp q (by simp [hq])) (fun q hq => hw q (by simp [hq])) r hr k1 side.section
          (by cases side <;> simp [Side.section]) hok
        refine ⟨k2, ?_, g1.trans g2⟩
        rw [hst]
        simp

/-- The lines of a node after a provide port of another: its name and types are passed over, its ports are added to the
other. -/
theorem node_lines_grown {n : Node} (hi : NodeInv n) (hw : n.Writable) (nm : Bool) (ls : List Str) (hl : n.lines nm = .ok ls)
    (k : Node) (st : Parser) (hok : Parser.processLines ⟨some k, .provide⟩ ls = (st, .ok ())) :
    ∃ k', st = ⟨some k', if n.requires = [] then .provide else .require⟩ ∧ k'.name = k.name ∧ k'.types = k.types ∧
      ∀ side, (k'.ports side).map Port.name = (k.ports side).map Port.name ++ (n.ports side).map Port.name := by
  obtain ⟨hn, hnl⟩ := splitLine_node n.name hw.name
  unfold Node.lines at hl
  simp only [bind_ok_iff, Except.ok.injEq] at hl
  obtain ⟨tl, t1, pl, p1, rl, r1, rfl⟩ := hl
  have h0 : Parser.processLine ⟨some k, .provide⟩ ('N' :: '"' :: (n.name ++ ['"'])) = (⟨some k, .provide⟩, .ok ()) := by
    unfold Parser.processLine
    rw [hn]
    simp [Parser.processParts, Line.kind]
  have h0' : ∀ ls, Parser.processLines ⟨some k, .provide⟩ (('N' :: '"' :: (n.name ++ ['"'])) :: ls) =
      Parser.processLines ⟨some k, .provide⟩ ls := by
    intro ls
    simp only [Parser.processLines, h0]
  rw [h0'] at hok
  obtain ⟨s2, a2, hok⟩ := processLines_append_ok hok
  obtain ⟨s1, a1, b1⟩ := processLines_append_ok a2
  rw [type_lines_ignored false n.types hw.types tl t1] at a1
  simp only [Prod.mk.injEq, and_true] at a1
  subst a1
  obtain ⟨k1, rfl, g1⟩ := port_lines_grown hi nm .provide n.provides (hi.ports .provide) (hw.ports .provide) pl p1 k .provide
    (by simp) s2 b1
  have hpc : (if n.provides = [] then Section.provide else Side.provide.section) = .provide := by split <;> rfl
  rw [hpc] at hok
  obtain ⟨k2, rfl, g2⟩ := port_lines_grown hi nm .require n.requires (hi.ports .require) (hw.ports .require) rl r1 k1 .provide
    (by simp) st hok
  refine ⟨k2, rfl, g2.name.trans g1.name, g2.types.trans g1.types, ?_⟩
  intro side
  cases side
  · rw [g2.same, g1.other .require (by simp)]; rfl
  · rw [g2.other .provide (by simp), g1.same]; rfl

end Apx
