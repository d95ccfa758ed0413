import Verif.Model.FromText
import Verif.Proofs.Again
import Verif.Proofs.Tools3
import Verif.Proofs.Context

/-! C86: node data made again, and from a text. -/

namespace Apx

/-! ### Again -/

/-- C86: when the node data of a node has been made, it can be made again from the node as it is then. Offsets, lengths,
programs, initial contents and values are the same, and making it again does not change the node any more. -/
theorem C86_again (n : Node) (nd : NodeData) (h : n.nodeData = .ok nd) :
    ∃ n' nd', n.afterNodeData = .ok n' ∧ n'.nodeData = .ok nd' ∧ n'.afterNodeData = .ok n' ∧
      nd' = { nd with definitionFile := nd'.definitionFile } := by
  obtain ⟨text, h1, h2⟩ := nodeData_inv h
  obtain ⟨i, o, df, g1, f1, g2, f2, h3, h4⟩ := build_inv h2
  obtain ⟨r, r1, r2, r3, _⟩ := addPorts_again n.requires _ _ g1
  obtain ⟨p, p1, p2, p3, p4⟩ := addPorts_again n.provides _ _ g2
  obtain ⟨text0, c1, c2, _⟩ := C66_content n nd h
  obtain ⟨text', t1, t2⟩ := definitionText_again c1 c2 r p r1 p1
  obtain ⟨df', hd⟩ := createDefinitionFile_all text' t2
  have hnd : ({ n with requires := r, provides := p } : Node).nodeData = .ok { nd with definitionFile := df' } := by
    have hn : ({ n with requires := r, provides := p } : Node).named = n.named := rfl
    unfold Node.nodeData NodeData.build
    rw [t1, hn]
    simp only [ok_bind, r3, f1, p3, f2, hd, p4]
    rw [h4]
  refine ⟨{ n with requires := r, provides := p }, { nd with definitionFile := df' }, ?_, hnd, ?_, rfl⟩
  · simp only [Node.afterNodeData, h, ok_bind, r1, p1]
  · have hn : ({ n with requires := r, provides := p } : Node).named = n.named := rfl
    simp only [Node.afterNodeData, hnd, ok_bind, hn, r2, p2]

/-! ### Loading the text of the node as it is then -/

/-- A port as it is loaded: a reference is resolved, references inside a record are not. -/
def Port.stored (ids : Str → Option Int) (nm : Bool) (p : Port) : Port :=
  if p.elem.isReference then p else { p with elem := p.elem.asWritten ids nm }

/-- What is asked of a port whose references are all resolved. -/
structure ResolvedPort (n : Node) (p : Port) : Prop where
  elem : p.elem.ResolvedIn n.named n.ids
  ref : p.elem.isReference = true → ∃ d, p.elem.resolveDataElement = .ok d
  attr : ∀ a, p.attr = some a → portAttribute a.str = .ok a
  writable : p.Writable

theorem stored_line {n : Node} (p : Port) (hp : ResolvedPort n p) (nm : Bool) (side : Side) :
    ∃ l, p.toStr n.ids nm side = .ok l ∧ '\n' ∉ l ∧ ∀ m cs, m.named = n.named → cs ≠ .start →
      Parser.processLine ⟨some m, cs⟩ l =
        (⟨some (m.setPorts side (m.ports side ++ [{ p.stored n.ids nm with id := some (m.ports side).length }])), side.section⟩,
          .ok ()) := by
  obtain ⟨hw1, hw2, hw3, hw5⟩ := hp.writable
  obtain ⟨s, h1, h2⟩ := Elem.parse_toStr_data n.ids nm p.elem hw2
  have ha : optArg portAttribute (p.attr.map PortAttr.str) = .ok p.attr := by
    cases hpa : p.attr with
    | none => rfl
    | some a => simp [optArg, hp.attr a hpa]
  obtain ⟨hl, hnl⟩ := splitLine_lineText side.letter p.name s (p.attr.map PortAttr.str) (by cases side <;> decide)
    (by cases side <;> decide) hw1
    (Elem.toStr_ends _ _ _ _ h1) (fun c hc => Elem.toStr_no_cut n.ids nm p.elem hw3 hw2 s h1 c hc)
    (by
      intro a ha
      rw [Option.map_eq_some_iff] at ha
      obtain ⟨b, hb, rfl⟩ := ha
      exact hw5 b hb)
  refine ⟨lineText side.letter p.name s (p.attr.map PortAttr.str), ?_, hnl, ?_⟩
  · simp [Port.toStr, h1]
  intro m cs hm hcs
  have hmk : mkPort p.name s (p.attr.map PortAttr.str) = .ok ⟨p.name, p.elem.asWritten n.ids nm, p.attr, none⟩ := by
    simp [mkPort, h2, ha]
  have hadd : m.addPort side ⟨p.name, p.elem.asWritten n.ids nm, p.attr, none⟩ =
      .ok (m.setPorts side (m.ports side ++ [{ p.stored n.ids nm with id := some (m.ports side).length }]),
        { p.stored n.ids nm with id := some (m.ports side).length }) := by
    have : resolvePort n.named ⟨p.name, p.elem.asWritten n.ids nm, p.attr, some (m.ports side).length⟩ =
        .ok { p.stored n.ids nm with id := some (m.ports side).length } := by
      unfold resolvePort Port.stored
      simp only [asWritten_isReference]
      cases hr : p.elem.isReference with
      | false => simp
      | true =>
        obtain ⟨d, hd⟩ := hp.ref hr
        simp [resolveDsg, Elem.resolve_asWritten n.named n.ids nm p.elem hp.elem, hd]
    unfold Node.addPort
    rw [hm]
    simp only [this]
    rfl
  have key : ∀ cs', Parser.portLine ⟨some m, cs'⟩ side (.full [side.letter] (some p.name) s (p.attr.map PortAttr.str)) =
      (⟨some (m.setPorts side (m.ports side ++ [{ p.stored n.ids nm with id := some (m.ports side).length }])), cs'⟩, .ok ()) := by
    intro cs'
    unfold Parser.portLine
    simp only [Line.args, lineName, Option.getD_some, ok_bind, hmk, hadd]
  unfold Parser.processLine
  rw [hl]
  unfold Parser.processParts
  rw [if_neg (by simp)]
  cases side <;> cases cs <;> first
    | exact absurd rfl hcs
    | simp only [Side.letter] at key ⊢; simp [Line.kind, key, Side.section]

theorem stored_lines {n : Node} (nm : Bool) (side : Side) (ps : List Port) (hp : ∀ p ∈ ps, ResolvedPort n p) :
    ∃ ls, mapPy (Port.toStr n.ids nm side) ps = .ok ls ∧ OneLiners ls ∧
      ∀ m cs, m.named = n.named → cs ≠ .start → ∃ cs', cs' ≠ .start ∧
        Parser.processLines ⟨some m, cs⟩ ls =
          (⟨some (m.setPorts side (m.ports side ++ numbered (m.ports side).length (ps.map (Port.stored n.ids nm)))), cs'⟩,
            .ok ()) := by
  induction ps with
  | nil =>
    refine ⟨[], rfl, by intro l hl; simp at hl, ?_⟩
    intro m cs hm hcs
    refine ⟨cs, hcs, ?_⟩
    have : m.setPorts side (m.ports side ++ numbered (m.ports side).length []) = m := by
      cases side <;> simp [numbered, Node.setPorts, Node.ports]
    simp only [List.map_nil]
    rw [this]; rfl
  | cons p ps ih =>
    obtain ⟨ls, h1, h2, h3⟩ := ih (fun q hq => hp q (by simp [hq]))
    obtain ⟨l, h4, h5, h6⟩ := stored_line p (hp p (by simp)) nm side
    refine ⟨l :: ls, by simp [mapPy, h4, h1], ?_, ?_⟩
    · intro x hx
      rcases List.mem_cons.mp hx with rfl | hx
      · exact h5
      · exact h2 x hx
    · intro m cs hm hcs
      simp only [Parser.processLines, h6 m cs hm hcs]
      obtain ⟨cs', hcs', h7⟩ := h3 (m.setPorts side (m.ports side ++ [{ p.stored n.ids nm with id := some (m.ports side).length }]))
        side.section (by rw [setPorts_named, hm]) (by cases side <;> simp [Side.section])
      refine ⟨cs', hcs', ?_⟩
      rw [h7]
      congr 3
      cases side <;> simp [Node.setPorts, Node.ports, numbered]

/-- The node after its node data has been made, loaded again. -/
def Node.storedAgain (n : Node) : Node :=
  ⟨n.name, false, n.types.map TypeObj.fresh, numbered 0 (n.requires.map (Port.stored n.ids false)),
    numbered 0 (n.provides.map (Port.stored n.ids false))⟩

/-- Loading the text of a node whose references are all resolved. -/
theorem stored_reload {n n' : Node} (hi : NodeInv n) (ho : n.Ordered) (hw : n.Writable) (r p : List Port)
    (hn : n' = { n with requires := r, provides := p }) (hr : ∀ q ∈ r, ResolvedPort n q) (hp : ∀ q ∈ p, ResolvedPort n q) :
    ∃ ls, n'.lines false = .ok ls ∧ OneLiners ls ∧ ∀ o, ∃ cs,
      Parser.processLines ⟨o, .start⟩ ls = (⟨some n'.storedAgain, cs⟩, .ok ()) := by
  obtain ⟨hsl, hnl⟩ := splitLine_node n.name hw.name
  obtain ⟨tl, t1, t2, t3⟩ := type_lines hi ho hw.types false n.types [] rfl
  obtain ⟨pl, p1, p2, p3⟩ := stored_lines false .provide p hp
  obtain ⟨rl, r1, r2, r3⟩ := stored_lines false .require r hr
  have hids : n'.ids = n.ids := by subst hn; rfl
  refine ⟨('N' :: '"' :: (n.name ++ ['"'])) :: (tl ++ pl ++ rl), ?_, ?_, ?_⟩
  · subst hn
    simp only [Node.lines, hids, t1, p1, r1, ok_bind]
  · intro l hl
    rcases List.mem_cons.mp hl with rfl | hl
    · exact hnl
    · rcases List.mem_append.mp hl with hl | hl
      · rcases List.mem_append.mp hl with hl | hl
        · exact t2 l hl
        · exact p2 l hl
      · exact r2 l hl
  · intro o
    have h0 : Parser.processLine ⟨o, .start⟩ ('N' :: '"' :: (n.name ++ ['"'])) =
        (⟨some (Node.new n.name), .node⟩, .ok ()) := by
      unfold Parser.processLine
      rw [hsl]
      simp [Parser.processParts, Line.kind, Line.nodeName, lineName]
    obtain ⟨c1, hc1, e1⟩ := t3 (Node.new n.name) .node rfl (Or.inl rfl)
    obtain ⟨c2, hc2, e2⟩ := p3 { Node.new n.name with types := n.types.map TypeObj.fresh } c1
      (by unfold Node.named; exact fresh_named _) (by rcases hc1 with rfl | rfl <;> simp)
    obtain ⟨c3, hc3, e3⟩ := r3 (Node.setPorts { Node.new n.name with types := n.types.map TypeObj.fresh } .provide
      (Node.ports { Node.new n.name with types := n.types.map TypeObj.fresh } .provide ++ numbered
        (Node.ports { Node.new n.name with types := n.types.map TypeObj.fresh } .provide).length (p.map (Port.stored n.ids false)))) c2
      (by rw [setPorts_named]; unfold Node.named; exact fresh_named _) hc2
    refine ⟨c3, ?_⟩
    simp only [Parser.processLines, h0]
    rw [processLines_append, processLines_append, e1]
    simp only [e2, e3]
    subst hn
    simp [Node.storedAgain, Node.setPorts, Node.ports, Node.new, hids]

mutual
theorem Elem.resolved_wellFormed (types : List NamedType) (e e' : Elem) (h : e.resolveType types = .ok e') (hw : e.WellFormed)
    (hc : e.Clean) : e'.WellFormed ∧ e'.Clean := by
  match e with
  | .prim _ _ _ _ => simp only [Elem.resolveType, Except.ok.injEq] at h; subst h; exact ⟨hw, hc⟩
  | .refType _ _ => simp only [Elem.resolveType, Except.ok.injEq] at h; subst h; exact ⟨hw, hc⟩
  | .refId _ => exact hw.elim
  | .refName m =>
    simp only [Elem.resolveType] at h
    split at h
    · rename_i t ht
      simp only [Except.ok.injEq] at h
      subst h
      rw [(findType_name ht).2]
      exact ⟨hw, hc⟩
    · cases h
  | .record fs a =>
    simp only [Elem.resolveType, bind_ok_iff, Except.ok.injEq] at h
    obtain ⟨gs, hg, rfl⟩ := h
    have := Fields.resolved_wellFormed types fs gs hg hw.2 hc
    exact ⟨⟨hw.1, this.1⟩, this.2⟩
theorem Fields.resolved_wellFormed (types : List NamedType) (fs gs : Fields) (h : fs.resolveType types = .ok gs)
    (hw : fs.WellFormed) (hc : fs.Clean) : gs.WellFormed ∧ gs.Clean := by
  match fs with
  | .nil => simp only [Fields.resolveType, Except.ok.injEq] at h; subst h; exact ⟨hw, hc⟩
  | .cons n e r =>
    simp only [Fields.resolveType, bind_ok_iff, Except.ok.injEq] at h
    obtain ⟨e', he, r', hr, rfl⟩ := h
    have h1 := Elem.resolved_wellFormed types e e' he hw.2.1 hc.2.1
    have h2 := Fields.resolved_wellFormed types r r' hr hw.2.2 hc.2.2
    exact ⟨⟨hw.1, h1.1, h2.1⟩, ⟨hc.1, h1.2, h2.2⟩⟩
end

theorem resolve_isReference {types : List NamedType} {e e' : Elem} (h : e.resolveType types = .ok e') :
    e'.isReference = e.isReference := by
  cases e with
  | prim _ _ _ _ => simp only [Elem.resolveType, Except.ok.injEq] at h; subst h; rfl
  | refType _ _ => simp only [Elem.resolveType, Except.ok.injEq] at h; subst h; rfl
  | refId _ =>
    simp only [Elem.resolveType, bind_ok_iff, Except.ok.injEq] at h
    obtain ⟨t, _, rfl⟩ := h
    rfl
  | refName m =>
    simp only [Elem.resolveType] at h
    split at h
    · simp only [Except.ok.injEq] at h; subst h; rfl
    · cases h
  | record fs a =>
    simp only [Elem.resolveType, bind_ok_iff, Except.ok.injEq] at h
    obtain ⟨gs, hg, rfl⟩ := h
    rfl

theorem resolvedPort_of {n : Node} (hi : NodeInv n) {p q : Port} (hp : PortInv n.named p) (hw : p.Writable)
    (h : resolveInPlace n.named p = .ok q) : ResolvedPort n q := by
  obtain ⟨e, he, rfl, _⟩ := resolveInPlace_ok h
  have hwc := Elem.resolved_wellFormed n.named p.elem e he hw.2.1 hw.2.2.1
  have href := resolve_isReference he
  cases hr : p.elem.isReference with
  | true =>
    obtain ⟨m, t, hm, hmem, d, hd⟩ := hp.ref hr
    have hee : e = p.elem := by
      rw [hm] at he
      simp only [Elem.resolveType, Except.ok.injEq] at he
      rw [hm, ← he]
    subst hee
    refine ⟨?_, fun _ => ⟨d, hd⟩, hp.attr, hw⟩
    simp only [hm]
    exact nodeInv_resolvedIn hi m t hmem
  | false =>
    refine ⟨?_, fun h => ?_, hp.attr, ⟨hw.1, hwc.1, hwc.2, hw.2.2.2⟩⟩
    · exact Elem.resolvedIn_of _ _ (fun x y hxy => nodeInv_resolvedIn hi x y hxy) _
        (Elem.resolve_refsIn n.named p.elem e (hp.raw hr) he)
    · simp only [href, hr] at h
      cases h

theorem mapPy_mem {α β : Type} {f : α → Py β} {l : List α} {r : List β} (h : mapPy f l = .ok r) :
    ∀ y ∈ r, ∃ x ∈ l, f x = .ok y := by
  induction l generalizing r with
  | nil => simp only [mapPy, Except.ok.injEq] at h; subst h; simp
  | cons x l ih =>
    simp only [mapPy, bind_ok_iff, Except.ok.injEq] at h
    obtain ⟨y, hy, r, hr, rfl⟩ := h
    intro z hz
    rcases List.mem_cons.mp hz with rfl | hz
    · exact ⟨x, by simp, hy⟩
    · obtain ⟨w, hw, hwz⟩ := ih hr z hz
      exact ⟨w, by simp [hw], hwz⟩

theorem stored_numbered (ids : Str → Option Int) (ps : List Port) (k : Nat) (h : numbered k ps = ps) :
    numbered k (ps.map (Port.stored ids false)) = ps.map (Port.stored ids false) := by
  induction ps generalizing k with
  | nil => rfl
  | cons p ps ih =>
    simp only [numbered, List.cons.injEq] at h
    simp only [List.map_cons, numbered, ih (k + 1) h.2, List.cons.injEq, and_true]
    have : p.id = some k := by rw [← h.1]
    unfold Port.stored
    split <;> (cases p; simp_all)

/-- Laying out the ports as they are loaded. -/
theorem stored_layout {n : Node} {d : Dir} (ps : List Port) (hp : ∀ p ∈ ps, ResolvedPort n p) (s : PortLayout) :
    addPorts d n.named s ((ps.map (Port.stored n.ids false)).map Port.toNPort) = addPorts d n.named s (ps.map Port.toNPort) := by
  induction ps generalizing s with
  | nil => rfl
  | cons p ps ih =>
    have h1 : addPort d n.named s (p.stored n.ids false).toNPort = addPort d n.named s p.toNPort := by
      have hr := Elem.resolve_asWritten n.named n.ids false p.elem (hp p (by simp)).elem
      have hs := Elem.resolve_again _ _ _ hr
      unfold Port.stored
      split
      · rfl
      · unfold addPort
        simp only [Port.toNPort, hr, hs]
    simp only [List.map_cons, addPorts, h1]
    congr 1
    funext s'
    exact ih (fun q hq => hp q (by simp [hq])) s'

theorem stored_values (ids : Str → Option Int) (ps : List Port) :
    ((ps.map (Port.stored ids false)).map Port.toNPort).map outPortValue = (ps.map Port.toNPort).map outPortValue := by
  simp only [List.map_map]
  apply List.map_congr_left
  intro p _
  simp only [Function.comp, Port.stored]
  split <;> rfl

theorem stored_names (ids : Str → Option Int) (k : Nat) (ps : List Port) :
    (numbered k (ps.map (Port.stored ids false))).map Port.name = ps.map Port.name := by
  induction ps generalizing k with
  | nil => rfl
  | cons p ps ih =>
    simp only [List.map_cons, numbered, ih, List.cons.injEq, and_true]
    unfold Port.stored
    split <;> rfl

/-- C86: the definition file made the second time describes the node as well as the first: decoded and loaded it gives a
node with the same name, types and ports, from which the same layout follows. -/
theorem C86_describes_partial (n : Node) (hb : n.Built) (ho : n.Ordered) (hw : n.Writable) (nd : NodeData)
    (h : n.nodeData = .ok nd) (n' : Node) (h' : n.afterNodeData = .ok n') (nd' : NodeData) (hnd : n'.nodeData = .ok nd') :
    ∃ text m, asciiDecode nd'.definitionFile.data = .ok text ∧ (∀ st : Parser, (st.loads text).2 = .ok m) ∧
      m.name = n.name ∧ m.types.map TypeObj.content = n.types.map TypeObj.content ∧
      (∀ side, (m.ports side).map Port.name = (n.ports side).map Port.name) ∧
      NodeData.build m.named (m.requires.map Port.toNPort) (m.provides.map Port.toNPort) text = .ok nd' := by
  have hi : NodeInv n := Node.Built.inv hb
  simp only [Node.afterNodeData, h, ok_bind, bind_ok_iff, Except.ok.injEq] at h'
  obtain ⟨r, hr, p, hp, hn'⟩ := h'
  have hrp : ∀ q ∈ r, ResolvedPort n q := by
    intro q hq
    obtain ⟨x, hx, hxq⟩ := mapPy_mem hr q hq
    exact resolvedPort_of hi (hi.ports .require x hx) (hw.ports .require x hx) hxq
  have hpp : ∀ q ∈ p, ResolvedPort n q := by
    intro q hq
    obtain ⟨x, hx, hxq⟩ := mapPy_mem hp q hq
    exact resolvedPort_of hi (hi.ports .provide x hx) (hw.ports .provide x hx) hxq
  obtain ⟨ls, h1, h2, h3⟩ := stored_reload hi ho hw r p hn'.symm hrp hpp
  obtain ⟨text, t1, t2⟩ := nodeData_inv hnd
  obtain ⟨i, o, df, g1, f1, g2, f2, d1, d2⟩ := build_inv t2
  have ht : text = joinLines (headerText :: ls) ++ List.replicate 1 '\n' := by
    simp only [Node.definitionText, h1, ok_bind, Except.ok.injEq] at t1
    exact t1.symm
  have hids : n'.ids = n.ids := by subst hn'; rfl
  have hnm : n'.named = n.named := by subst hn'; rfl
  have hq : n'.requires = r := by subst hn'; rfl
  have hv : n'.provides = p := by subst hn'; rfl
  rw [hnm, hq] at g1
  rw [hnm, hv] at g2
  have e2 : n'.storedAgain.requires = r.map (Port.stored n.ids false) := by
    simp only [Node.storedAgain, hids, hq]
    exact stored_numbered n.ids r 0 (addPorts_numbered r .empty i g1)
  have e3 : n'.storedAgain.provides = p.map (Port.stored n.ids false) := by
    simp only [Node.storedAgain, hids, hv]
    exact stored_numbered n.ids p 0 (addPorts_numbered p .empty o g2)
  have e1 : n'.storedAgain.named = n.named := by
    subst hn'
    simp only [Node.storedAgain, Node.named, List.map_map]; rfl
  have e4 : n'.storedAgain.types.map TypeObj.content = n.types.map TypeObj.content := by
    subst hn'
    simp only [Node.storedAgain, List.map_map]; rfl
  have hfin : ∀ cs x, Parser.finish ⟨some n'.storedAgain, cs⟩ x = (⟨some n'.storedAgain, cs⟩, .ok n'.storedAgain) := by
    intro cs x
    obtain ⟨cs', hcs⟩ := h3 none
    have hb' := processLines_built ls ⟨none, .start⟩ (fun n hn => by cases hn)
    rw [hcs] at hb'
    have hb'' := (hb' _ rfl).1
    simp only [Parser.finish, resolveTypes_id _ _ hb''.inv.ports]
  refine ⟨text, n'.storedAgain, ?_, ?_, by subst hn'; rfl, e4, ?_, ?_⟩
  · rw [d2]
    exact asciiDecode_encode text _ (createDefinitionFile_ok d1)
  · intro st
    obtain ⟨cs, hcs⟩ := h3 st.node
    have := (headed_load ls 1 h2 st).1
    rw [ht, this, hcs]
    simp only [hfin]
  · have nam : ∀ {a b : List Port}, mapPy (resolveInPlace n.named) a = .ok b → b.map Port.name = a.map Port.name := by
      intro a b hab
      induction a generalizing b with
      | nil => simp only [mapPy, Except.ok.injEq] at hab; subst hab; rfl
      | cons x a ih =>
        simp only [mapPy, bind_ok_iff, Except.ok.injEq] at hab
        obtain ⟨y, hy, c, hc, rfl⟩ := hab
        obtain ⟨e, _, rfl, _⟩ := resolveInPlace_ok hy
        simp [ih hc]
    intro side
    cases side
    · show n'.storedAgain.requires.map Port.name = _
      simp only [Node.storedAgain, stored_names, hq]
      exact nam hr
    · show n'.storedAgain.provides.map Port.name = _
      simp only [Node.storedAgain, stored_names, hv]
      exact nam hp
  · rw [e1, e2, e3]
    unfold NodeData.build
    rw [stored_layout r hrp, stored_layout p hpp, g1, g2]
    simp only [ok_bind, f1, f2, d1, stored_values]
    rw [d2, hv]

/-- What the examples below are shown to be: a node with one type, and a record port holding a reference to it. -/
def Node.agShape (n : Node) : Bool :=
  decide (n.name = ['N']) &&
  decide (n.types.map (fun t => (t.name, t.elem, t.shortName, t.attr.map TypeAttr.str)) =
      [(['A'], .prim .u8 none none none, none, none)]) &&
  decide (n.requires.length = 0) &&
  decide (n.provides.map (fun p => (p.name, p.elem, p.attr.map PortAttr.str)) =
      [(['p'], .record (.cons ['x'] (.refName ['A']) .nil) none, none)])

theorem agShape_writable {n : Node} (h : n.agShape = true) : n.Writable := by
  simp only [Node.agShape, Bool.and_eq_true, decide_eq_true_eq, List.length_eq_zero_iff] at h
  obtain ⟨⟨⟨h0, ht⟩, hr⟩, hp⟩ := h
  refine ⟨?_, ?_, ?_⟩
  · rw [h0]; simp [NameOk]
  · intro t hm
    have hm := List.mem_map_of_mem (f := fun t : TypeObj => (t.name, t.elem, t.shortName, t.attr.map TypeAttr.str)) hm
    rw [ht] at hm
    simp only [List.mem_cons, List.not_mem_nil, or_false, Prod.mk.injEq, Option.map_eq_none_iff] at hm
    obtain ⟨h1, h2, h3, h4⟩ := hm
    rw [h1, h2, h3, h4]
    simp [NameOk, Elem.WellFormed, Elem.Clean]
  · intro side p hm
    cases side with
    | require => simp [Node.ports, hr] at hm
    | provide =>
      have hm := List.mem_map_of_mem (f := fun p : Port => (p.name, p.elem, p.attr.map PortAttr.str)) hm
      simp only [Node.ports] at hm
      rw [hp] at hm
      simp only [List.mem_cons, List.not_mem_nil, or_false, Prod.mk.injEq, Option.map_eq_none_iff] at hm
      obtain ⟨h1, h2, h3⟩ := hm
      rw [h1, h2, h3]
      simp [NameOk, Elem.WellFormed, Elem.Clean, Fields.WellFormed, Fields.Clean, QuoteFree, RefNameOk]

theorem agShape_ordered {n : Node} (h : n.agShape = true) : n.Ordered := by
  simp only [Node.agShape, Bool.and_eq_true, decide_eq_true_eq] at h
  obtain ⟨⟨⟨_, ht⟩, _⟩, _⟩ := h
  intro i t hi
  have hm := List.mem_map_of_mem (f := fun t : TypeObj => (t.name, t.elem, t.shortName, t.attr.map TypeAttr.str))
    (List.mem_of_getElem? hi)
  rw [ht] at hm
  simp only [List.mem_cons, List.not_mem_nil, or_false, Prod.mk.injEq] at hm
  rw [hm.2.1]
  simp [Elem.RefsIn]

/-- A finalized node providing a record that holds a reference. -/
def agNode : Node := (Node.new ['N']).run
  [.addType ['A'] ['C'] none, .addPort .provide ['p'] "{\"x\"T[\"A\"]}".toList none, .finalize true false]

/-- The text with the reference by name. -/
def agNamed : Str := "APX/1.2\nN\"N\"\nT\"A\"C\nP\"p\"{\"x\"T[\"A\"]}\n".toList

/-- The text with the reference by number. -/
def agText : Str := "APX/1.2\nN\"N\"\nT\"A\"C\nP\"p\"{\"x\"T[0]}\n".toList

/-- What the theorems ask for; and the definition text is another one the second time. -/
example : agNode.Built ∧ agNode.Ordered ∧ agNode.Writable ∧
    (do let nd ← agNode.nodeData
        let t ← asciiDecode nd.definitionFile.data
        let n ← agNode.afterNodeData
        let nd' ← n.nodeData
        let t' ← asciiDecode nd'.definitionFile.data
        .ok (t, t') : Py (Str × Str)).toOption = some (agNamed, agText) :=
  ⟨⟨_, _, rfl⟩, agShape_ordered (by decide +kernel), agShape_writable (by decide +kernel), by decide +kernel⟩

/-! ### From a text -/

/-- The node of a parser refers to types that are there already. -/
def Parser.NodeOrdered (st : Parser) : Prop := st.NodeBuilt ∧ ∀ n, st.node = some n → n.Ordered

theorem typeLine_ordered (st : Parser) (l : Line) (h : st.NodeOrdered) : (st.typeLine l).1.NodeOrdered := by
  refine ⟨typeLine_built st l h.1, ?_⟩
  unfold Parser.typeLine
  split
  · rename_i m t he
    rw [bind_ok_iff] at he
    obtain ⟨⟨name, dsg, attr⟩, -, he⟩ := he
    simp only [bind_ok_iff] at he
    obtain ⟨c, h1, he⟩ := he
    split at he
    · cases he
    · rename_i n hn
      intro m' hm'
      cases hm'
      have hstep : n.step (.addType name dsg attr) = m := by simp [Node.step, h1, he]
      rw [← hstep]
      exact step_earlier n _ (by simp [NodeOp.Finalizes]) (h.2 n hn)
  · exact h.2

theorem portLine_ordered (st : Parser) (side : Side) (l : Line) (h : st.NodeOrdered) : (st.portLine side l).1.NodeOrdered := by
  refine ⟨portLine_built st side l h.1, ?_⟩
  unfold Parser.portLine
  split
  · rename_i m t he
    rw [bind_ok_iff] at he
    obtain ⟨⟨name, dsg, attr⟩, -, he⟩ := he
    simp only [bind_ok_iff] at he
    obtain ⟨c, h1, he⟩ := he
    split at he
    · cases he
    · rename_i n hn
      intro m' hm'
      cases hm'
      have hstep : n.step (.addPort side name dsg attr) = m := by simp [Node.step, h1, he]
      rw [← hstep]
      exact step_earlier n _ (by simp [NodeOp.Finalizes]) (h.2 n hn)
  · exact h.2

theorem processParts_ordered (st : Parser) (l : Line) (h : st.NodeOrdered) : (st.processParts l).1.NodeOrdered := by
  have hcs : ∀ c, Parser.NodeOrdered { st with cs := c } := fun c => ⟨fun n hn => h.1 n hn, fun n hn => h.2 n hn⟩
  unfold Parser.processParts
  split
  · exact h
  · split
    · split
      · refine ⟨?_, ?_⟩
        · intro n hn
          cases hn
          exact ⟨⟨_, [], rfl⟩, rfl⟩
        · intro n hn
          cases hn
          intro i t ht
          simp [Node.new] at ht
      · exact h
    all_goals
      repeat' split
      all_goals first
        | exact h
        | exact typeLine_ordered _ _ (hcs _)
        | exact portLine_ordered _ _ _ (hcs _)
        | exact typeLine_ordered _ _ h
        | exact portLine_ordered _ _ _ h

theorem processLines_ordered (ls : List Str) (st : Parser) (h : st.NodeOrdered) : (st.processLines ls).1.NodeOrdered := by
  induction ls generalizing st with
  | nil => exact h
  | cons l ls ih =>
    have h1 := processParts_ordered st (splitLine l) h
    simp only [Parser.processLines, Parser.processLine]
    split
    · rename_i st' he
      rw [he] at h1
      exact ih st' h1
    · rename_i st' x he
      rw [he] at h1
      exact h1

theorem finish_ordered (st : Parser) (x : PyErr) (h : st.NodeOrdered) (n : Node) (hn : (st.finish x).2 = .ok n) :
    n.Built ∧ n.isFinalized = false ∧ n.Ordered := by
  obtain ⟨h1, h2⟩ := (finish_built st x h.1).2 n hn
  refine ⟨h1, h2, ?_⟩
  unfold Parser.finish at hn
  split at hn
  · cases hn
  · rename_i k hk
    rw [resolveTypes_id k k.named (h.1 k hk).1.inv.ports] at hn
    cases hn
    exact h.2 _ hk

/-- A text is loaded into a node built through the API, whose types refer to types before them. -/
theorem loads_ordered (text : Str) (n : Node) (h : (Parser.new.loads text).2 = .ok n) :
    n.Built ∧ n.isFinalized = false ∧ n.Ordered := by
  have h0 : Parser.NodeOrdered ⟨none, .start⟩ := by
    constructor
    · intro n hn
      cases hn
    · intro n hn
      cases hn
  unfold Parser.loads at h
  simp only at h
  split at h
  · cases h
  · generalize (if parseHeaderLine (rstripNewline ((splitOn '\n' text).headD [])) = none then splitOn '\n' text
      else (splitOn '\n' text).tail) = ls at h
    have h1 := processLines_ordered ls ⟨none, .start⟩ h0
    split at h
    · cases h
    · rename_i st' he
      simp only [Parser.new] at he
      rw [he] at h1
      exact finish_ordered st' _ h1 n h

/-- C86: node data is never made from a definition text. -/
theorem C86_text_violated (text : Str) : (∀ nd, nodeDataOfText text ≠ .ok nd) ∧
    ∀ n nd, (Parser.new.loads text).2 = .ok n → n.nodeData = .ok nd → nodeDataOfText text = .error .attributeError := by
  constructor
  · intro nd h
    simp only [nodeDataOfText, bind_ok_iff] at h
    obtain ⟨_, _, _, _, _, _, _, _, _, _, h⟩ := h
    cases h
  · intro n nd h1 h2
    obtain ⟨t, _, h3⟩ := nodeData_inv h2
    obtain ⟨i, o, df, g1, f1, g2, f2, _⟩ := build_inv h3
    simp only [nodeDataOfText, h1, ok_bind, g1, f1, g2, f2]

/-- C86: what a client created from a text publishes describes the node of that text. -/
theorem C86_create_partial (text : Str) (n : Node) (h : (Parser.new.loads text).2 = .ok n) (hw : n.Writable) (c : Client)
    (hc : Client.create text = .ok c) :
    ∃ nd, c.attached = some (n, nd) ∧ ∃ t m, asciiDecode nd.definitionFile.data = .ok t ∧
      (∀ st : Parser, (st.loads t).2 = .ok m) ∧ m.SameDefinition n ∧
      NodeData.build m.named (m.requires.map Port.toNPort) (m.provides.map Port.toNPort) t = .ok nd := by
  simp only [Client.create, h, ok_bind, Client.attach, bind_ok_iff, Except.ok.injEq] at hc
  obtain ⟨nd, hnd, rfl⟩ := hc
  obtain ⟨hb, _, ho⟩ := loads_ordered text n h
  exact ⟨nd, rfl, C66_describes_partial n hb ho hw nd hnd⟩

/-- A text that can be loaded may be refused when a client is created from it (`C86_numbers_violated`). The text is the definition the node
of the example above publishes the second time. -/
example : (Parser.new.loads agText).2.toOption.isSome ∧
    (match Client.create agText with | .ok _ => none | .error x => some x) = some .runtimeError := by
  decide +kernel

/-- A text from which a client is created. -/
example : ∃ n, (Parser.new.loads agNamed).2 = .ok n ∧ n.Writable ∧ (Client.create agNamed).toOption.isSome := by
  have h : (match (Parser.new.loads agNamed).2 with | .ok n => n.agShape | .error _ => false) = true := by decide +kernel
  have hc : (Client.create agNamed).toOption.isSome := by decide +kernel
  cases hn : (Parser.new.loads agNamed).2 with
  | error x => rw [hn] at h; cases h
  | ok n =>
    rw [hn] at h
    exact ⟨n, rfl, agShape_writable h, hc⟩

end Apx
