import Verif.Spec.Context
import Verif.Proofs.RoundTrip
import Verif.Proofs.Context
import Verif.Proofs.Tools3
import Verif.Props.Parser
import Verif.Props.RoundTrip

/-! C85: writing contexts. -/

namespace Apx

/-! ### Files -/

theorem contextWrite_ok (dir : Str) (nm : Bool) (nodes : List Node) (texts : Node → Str)
    (h : ∀ n ∈ nodes, n.fileText nm = (texts n, .ok ())) :
    contextWrite dir nm nodes = ⟨nodes.map fun n => (Dest.file (contextFile dir n), texts n), .ok ()⟩ := by
  induction nodes with
  | nil => rfl
  | cons n l ih =>
    unfold contextWrite
    rw [ih (fun x hx => h x (by simp [hx])), h n (by simp)]
    rfl

theorem fileAfter_unique (l : List (Dest × Str)) (name text : Str) (h : (l.map Prod.fst).Nodup)
    (hm : (Dest.file name, text) ∈ l) : fileAfter l name = some text := by
  unfold fileAfter
  have : l.filter (fun w => w.1 = .file name) = [(Dest.file name, text)] := by
    induction l with
    | nil => cases hm
    | cons x l ih =>
      simp only [List.map_cons, List.nodup_cons] at h
      rcases List.mem_cons.mp hm with rfl | hm
      · have hn : l.filter (fun w => w.1 = .file name) = [] := by
          rw [List.filter_eq_nil_iff]
          intro y hy he
          simp only [decide_eq_true_eq] at he
          exact h.1 (List.mem_map.mpr ⟨y, hy, he⟩)
        simp [hn]
      · have hx : x.1 ≠ .file name := fun he => h.1 (List.mem_map.mpr ⟨_, hm, he.symm⟩)
        simp [hx, ih h.2 hm]
  simp [this]

theorem contextFile_inj {dir : Str} {a b : Node} (h : contextFile dir a = contextFile dir b) : a.name = b.name := by
  unfold contextFile at h
  have h := List.append_cancel_left h
  simp only [List.cons.injEq, true_and] at h
  exact List.append_cancel_right h

/-- A node whose text can be loaded again. -/
structure Node.Printable (n : Node) : Prop where
  built : n.Built
  ordered : n.Ordered
  writable : n.Writable

/-- C85: a context of nodes with distinct names, each built through the API, writes one file for each, named after it;
the files are listed in order, and each can be loaded by either function, whatever the state of the parser, and has the
name, types and ports of its node. -/
theorem C85_save_partial (dir : Str) (nodes : List Node) (hp : ∀ n ∈ nodes, n.Printable)
    (hd : (nodes.map Node.name).Nodup) (normalized : Bool) :
    ∃ run, contextSave dir true nodes normalized = (run, .ok (nodes.map fun n => dir ++ ['/'] ++ n.name ++ ".apx".toList)) ∧
      run.result = .ok () ∧ run.written.length = nodes.length ∧
      ∀ n ∈ nodes, ∃ text m, fileAfter run.written (dir ++ ['/'] ++ n.name ++ ".apx".toList) = some text ∧
        m.SameDefinition n ∧ ∀ st : Parser, (st.loads text).2 = .ok m ∧ (st.load text).2 = .ok m := by
  have hr : ∀ n ∈ nodes, ∃ ls, n.lines normalized = .ok ls ∧
      ∀ st : Parser, (st.loads (joinLines (headerText :: ls) ++ ['\n', '\n'])).2 = .ok n.reloaded ∧
        (st.load (joinLines (headerText :: ls) ++ ['\n', '\n'])).2 = .ok n.reloaded := by
    intro n hn
    have hi := (hp n hn).built.inv
    obtain ⟨ls, h1, _, h2, h3⟩ := lines_reload hi (hp n hn).ordered (hp n hn).writable normalized
    refine ⟨ls, h1, ?_⟩
    intro st
    obtain ⟨cs, hcs⟩ := h3 st.node
    have := headed_load ls 2 h2 st
    simp only [show List.replicate 2 '\n' = ['\n', '\n'] from rfl, hcs, reloaded_finish hi] at this
    exact ⟨by rw [this.1], by rw [this.2]⟩
  have hf : ∀ n ∈ nodes, n.fileText normalized = ((n.fileText normalized).1, .ok ()) := by
    intro n hn
    obtain ⟨ls, h1, _⟩ := hr n hn
    rw [fileText_ok n normalized ls h1]
  have hw := contextWrite_ok dir normalized nodes (fun n => (n.fileText normalized).1) hf
  refine ⟨contextWrite dir normalized nodes, ?_, by rw [hw], by rw [hw]; simp, ?_⟩
  · unfold contextSave contextFiles
    rw [if_pos rfl, hw]
    simp only [Except.map, Prod.mk.injEq, true_and, Except.ok.injEq]
    apply List.map_congr_left
    intro n _
    simp [contextFile]
  · intro n hn
    obtain ⟨ls, h1, h2⟩ := hr n hn
    refine ⟨(n.fileText normalized).1, n.reloaded, ?_, reloaded_same n, ?_⟩
    · rw [hw]
      have e : dir ++ ['/'] ++ n.name ++ ".apx".toList = contextFile dir n := by simp [contextFile]
      rw [e]
      apply fileAfter_unique
      · simp only [List.map_map]
        have hnd : (nodes.map fun n => Dest.file (contextFile dir n)).Nodup := by
          rw [List.nodup_iff_pairwise_ne, List.pairwise_map] at hd ⊢
          exact hd.imp fun hab he => hab (contextFile_inj (Dest.file.inj he))
        exact hnd
      · exact List.mem_map.mpr ⟨n, hn, rfl⟩
    · rw [fileText_ok n normalized ls h1]
      exact h2

/-- C85: nothing is written if the directory does not exist. -/
theorem C85_no_directory (dir : Str) (nodes : List Node) (normalized : Bool) :
    contextSave dir false nodes normalized = (⟨[], .ok ()⟩, .error .valueError) := rfl

/-! ### The text of a context -/

theorem contextLines_one {nm : Bool} {nodes : List Node} {ls : List Str} (hp : ∀ n ∈ nodes, n.Printable)
    (h : contextLines nm nodes = .ok ls) : OneLiners ls := by
  induction nodes generalizing ls with
  | nil => simp only [contextLines, Except.ok.injEq] at h; subst h; intro l hl; simp at hl
  | cons n nodes ih =>
    simp only [contextLines, bind_ok_iff, Except.ok.injEq] at h
    obtain ⟨a, ha, r, hr, rfl⟩ := h
    have hn := hp n (by simp)
    have h1 := (lines_section hn.built.inv hn.ordered hn.writable nm a ha none).1
    have h2 := ih (fun x hx => hp x (by simp [hx])) hr
    intro l hl
    rcases List.mem_append.mp hl with hl | hl
    · exact h1 l hl
    · exact h2 l hl

theorem contextLines_ok (nm : Bool) (nodes : List Node) (hp : ∀ n ∈ nodes, n.Printable) : ∃ ls, contextLines nm nodes = .ok ls := by
  induction nodes with
  | nil => exact ⟨[], rfl⟩
  | cons n nodes ih =>
    have hn := hp n (by simp)
    obtain ⟨a, ha, _⟩ := lines_reload hn.built.inv hn.ordered hn.writable nm
    obtain ⟨r, hr⟩ := ih (fun x hx => hp x (by simp [hx]))
    exact ⟨a ++ r, by simp [contextLines, ha, hr]⟩

/-- C85: the text of a context with one node can be loaded by either function and has the name, types and ports of the
node. -/
theorem C85_dumps_partial (n : Node) (hp : n.Printable) (normalized : Bool) :
    ∃ text m, contextDumps [n] normalized = .ok text ∧ m.SameDefinition n ∧
      ∀ st : Parser, (st.loads text).2 = .ok m ∧ (st.load text).2 = .ok m := by
  have hi := hp.built.inv
  obtain ⟨ls, h1, h2⟩ := text_reload hi hp.ordered hp.writable normalized
  refine ⟨_, n.reloaded, ?_, reloaded_same n, h2 _ rfl⟩
  simp [contextDumps, contextLines, h1]

/-- C85 fails: whatever the nodes are, if the first of several has a require port or no port at all, the text of the
context is refused by both functions of the parser. -/
theorem C85_refused_violated (n m : Node) (rest : List Node) (hp : ∀ x ∈ n :: m :: rest, x.Printable)
    (hn : n.requires ≠ [] ∨ n.provides = []) (normalized : Bool) :
    ∃ text, contextDumps (n :: m :: rest) normalized = .ok text ∧
      ∀ st : Parser, (st.loads text).2 = .error .parseError ∧ (st.load text).2 = .error .parseError := by
  obtain ⟨ls, hls⟩ := contextLines_ok normalized _ hp
  refine ⟨joinLines (headerText :: ls) ++ ['\n'], by simp [contextDumps, hls], ?_⟩
  intro st
  have h1 := contextLines_one hp hls
  have hx := headed_load ls 1 h1 st
  have key : ∃ st', Parser.processLines ⟨st.node, .start⟩ ls = (st', .error .parseError) := by
    simp only [contextLines, bind_ok_iff, Except.ok.injEq] at hls
    obtain ⟨a, ha, r, ⟨b, hb, c, _, rfl⟩, rfl⟩ := hls
    have hpn := hp n (by simp)
    obtain ⟨cs, hcs, he⟩ := (lines_section hpn.built.inv hpn.ordered hpn.writable normalized a ha st.node).2
    rw [processLines_append, hcs]
    simp only
    have hpm := hp m (by simp)
    obtain ⟨hm, _⟩ := splitLine_node m.name hpm.writable.name
    unfold Node.lines at hb
    simp only [bind_ok_iff, Except.ok.injEq] at hb
    obtain ⟨tl, _, pl, _, rl, _, rfl⟩ := hb
    have hc : cs = .require ∨ cs = .node ∨ cs = .type := by
      unfold Node.endSection at he
      rcases hn with hn | hn
      · rw [if_pos hn] at he; exact Or.inl he
      · split at he
        · exact Or.inl he
        · rw [if_neg (by simp [hn])] at he
          exact Or.inr he
    have h0 : Parser.processLine ⟨some n.reloaded, cs⟩ ('N' :: '"' :: (m.name ++ ['"'])) =
        (⟨some n.reloaded, cs⟩, .error .parseError) := by
      unfold Parser.processLine
      rw [hm]
      rcases hc with rfl | rfl | rfl <;> simp [Parser.processParts, Line.kind]
    refine ⟨⟨some n.reloaded, cs⟩, ?_⟩
    simp only [List.cons_append, Parser.processLines, h0]
  obtain ⟨st', hk⟩ := key
  simp only [hk, show List.replicate 1 '\n' = ['\n'] from rfl] at hx
  exact ⟨by rw [hx.1], by rw [hx.2]⟩

theorem rest_grown (nm : Bool) (nodes : List Node) (hp : ∀ n ∈ nodes, n.Printable) (ls : List Str)
    (hl : contextLines nm nodes = .ok ls) (k : Node) (st : Parser)
    (hok : Parser.processLines ⟨some k, .provide⟩ ls = (st, .ok ())) :
    ∃ k', st.node = some k' ∧ k'.name = k.name ∧ k'.types = k.types ∧
      ∀ side, (k'.ports side).map Port.name = (k.ports side).map Port.name ++ nodes.flatMap fun n => (n.ports side).map Port.name := by
  induction nodes generalizing k ls with
  | nil =>
    simp only [contextLines, Except.ok.injEq] at hl
    subst hl
    simp only [Parser.processLines, Prod.mk.injEq, and_true] at hok
    exact ⟨k, by rw [← hok], rfl, rfl, by simp⟩
  | cons n nodes ih =>
    simp only [contextLines, bind_ok_iff, Except.ok.injEq] at hl
    obtain ⟨a, ha, r, hr, rfl⟩ := hl
    obtain ⟨s1, b1, b2⟩ := processLines_append_ok hok
    have hn := hp n (by simp)
    obtain ⟨k1, rfl, e1, e2, e3⟩ := node_lines_grown hn.built.inv hn.writable nm a ha k s1 b1
    by_cases hq : n.requires = []
    · rw [if_pos hq] at b2
      obtain ⟨k2, f0, f1, f2, f3⟩ := ih (fun x hx => hp x (by simp [hx])) r hr k1 b2
      refine ⟨k2, f0, f1.trans e1, f2.trans e2, ?_⟩
      intro side
      rw [f3, e3]
      simp
    · rw [if_neg hq] at b2
      cases nodes with
      | nil =>
        simp only [contextLines, Except.ok.injEq] at hr
        subst hr
        simp only [Parser.processLines, Prod.mk.injEq, and_true] at b2
        exact ⟨k1, by rw [← b2], e1, e2, by intro side; rw [e3]; simp⟩
      | cons m nodes =>
        exfalso
        simp only [contextLines, bind_ok_iff, Except.ok.injEq] at hr
        obtain ⟨b, hb, c, _, rfl⟩ := hr
        have hm := hp m (by simp)
        obtain ⟨hsp, _⟩ := splitLine_node m.name hm.writable.name
        unfold Node.lines at hb
        simp only [bind_ok_iff, Except.ok.injEq] at hb
        obtain ⟨tl, _, pl, _, rl, _, rfl⟩ := hb
        have h0 : Parser.processLine ⟨some k1, .require⟩ ('N' :: '"' :: (m.name ++ ['"'])) =
            (⟨some k1, .require⟩, .error .parseError) := by
          unfold Parser.processLine
          rw [hsp]
          simp [Parser.processParts, Line.kind]
        simp only [List.cons_append, Parser.processLines, h0] at b2
        simp at b2

/-- C85 fails: whenever the text of a context with several nodes is accepted, the node it gives has the name and the
types of the first node only, and the ports of all the nodes. -/
theorem C85_merged_violated (n : Node) (rest : List Node) (hp : ∀ x ∈ n :: rest, x.Printable) (normalized : Bool) (text : Str)
    (ht : contextDumps (n :: rest) normalized = .ok text) (st : Parser) (k : Node)
    (hk : (st.loads text).2 = .ok k ∨ (st.load text).2 = .ok k) :
    k.name = n.name ∧ k.types.map TypeObj.content = n.types.map TypeObj.content ∧
      ∀ side, (k.ports side).map Port.name = (n :: rest).flatMap fun x => (x.ports side).map Port.name := by
  simp only [contextDumps, bind_ok_iff, Except.ok.injEq] at ht
  obtain ⟨ls, hls, rfl⟩ := ht
  have hx := headed_load ls 1 (contextLines_one hp hls) st
  simp only [show List.replicate 1 '\n' = ['\n'] from rfl] at hx
  have hfin : ∃ st' e, Parser.processLines ⟨st.node, .start⟩ ls = (st', .ok ()) ∧ (st'.finish e).2 = .ok k := by
    rw [hx.1, hx.2] at hk
    generalize Parser.processLines ⟨st.node, .start⟩ ls = r at hk
    obtain ⟨st', x⟩ := r
    cases x with
    | error x => simp at hk
    | ok u =>
      rcases hk with hk | hk
      · exact ⟨st', _, rfl, hk⟩
      · exact ⟨st', _, rfl, hk⟩
  obtain ⟨st', e, h1, h2⟩ := hfin
  have key : ∃ k', st'.node = some k' ∧ k'.name = n.name ∧ k'.types.map TypeObj.content = n.types.map TypeObj.content ∧
      ∀ side, (k'.ports side).map Port.name = (n :: rest).flatMap fun x => (x.ports side).map Port.name := by
    have hpn := hp n (by simp)
    simp only [contextLines, bind_ok_iff, Except.ok.injEq] at hls
    obtain ⟨a, ha, r, hr, rfl⟩ := hls
    obtain ⟨cs, hcs, he⟩ := (lines_section hpn.built.inv hpn.ordered hpn.writable normalized a ha st.node).2
    obtain ⟨s1, b1, b2⟩ := processLines_append_ok h1
    rw [hcs] at b1
    simp only [Prod.mk.injEq, and_true] at b1
    subst b1
    have hsame := reloaded_same n
    have hnames : ∀ side, (n.reloaded.ports side).map Port.name = (n.ports side).map Port.name := by
      intro side
      have h := congrArg (List.map Prod.fst) (hsame.2.2 side)
      simpa [List.map_map, Function.comp_def, Port.content] using h
    cases rest with
    | nil =>
      simp only [contextLines, Except.ok.injEq] at hr
      subst hr
      simp only [Parser.processLines, Prod.mk.injEq, and_true] at b2
      exact ⟨n.reloaded, by rw [← b2], hsame.1, hsame.2.1, by intro side; rw [hnames]; simp⟩
    | cons m rest =>
      by_cases hn : n.requires ≠ [] ∨ n.provides = []
      · exfalso
        obtain ⟨text, ht, hbad⟩ := C85_refused_violated n m rest hp hn normalized
        simp only [contextDumps, contextLines, ha, ok_bind] at ht
        simp only [contextLines] at hr
        rw [hr] at ht
        simp only [ok_bind, Except.ok.injEq] at ht
        subst ht
        rcases hk with hk | hk
        · rw [(hbad st).1] at hk; cases hk
        · rw [(hbad st).2] at hk; cases hk
      · have hn1 : n.requires = [] := by
          by_cases h : n.requires = []
          · exact h
          · exact absurd (Or.inl h) hn
        have hn2 : n.provides ≠ [] := fun h => hn (Or.inr h)
        unfold Node.endSection at he
        rw [if_neg (by simp [hn1]), if_pos hn2] at he
        subst he
        obtain ⟨k', f0, f1, f2, f3⟩ := rest_grown normalized (m :: rest) (fun x hx => hp x (List.mem_cons_of_mem _ hx)) r hr _ _ b2
        refine ⟨k', f0, f1.trans hsame.1, by rw [f2]; exact hsame.2.1, ?_⟩
        intro side
        rw [f3, hnames]
        simp
  obtain ⟨k', g0, g1, g2, g3⟩ := key
  unfold Parser.finish at h2
  rw [g0] at h2
  simp only at h2
  cases hr : k'.resolveTypes with
  | error x => rw [hr] at h2; simp at h2
  | ok k'' =>
    rw [hr] at h2
    simp only [Except.ok.injEq] at h2
    subst h2
    obtain ⟨e1, e2, e3, e4⟩ := resolveTypes_names _ _ hr
    refine ⟨e1.trans g1, by rw [e2]; exact g2, ?_⟩
    intro side
    cases side
    · exact e4.trans (g3 .require)
    · exact e3.trans (g3 .provide)

/-- C85 fails: of two nodes with the same name only the second is in the directory afterwards, although the list names a
file for each. -/
theorem C85_overwrite_violated (dir : Str) (a b : Node) (ha : a.Printable) (hb : b.Printable) (h : a.name = b.name)
    (normalized : Bool) :
    ∃ run file, contextSave dir true [a, b] normalized = (run, .ok [file, file]) ∧
      (∀ w ∈ run.written, w.1 = .file file) ∧
      ∃ text m, fileAfter run.written file = some text ∧ m.SameDefinition b ∧
        ∀ st : Parser, (st.loads text).2 = .ok m ∧ (st.load text).2 = .ok m := by
  have hi := hb.built.inv
  obtain ⟨la, h1, _⟩ := lines_reload ha.built.inv ha.ordered ha.writable normalized
  obtain ⟨lb, h2, _, h3, h4⟩ := lines_reload hi hb.ordered hb.writable normalized
  have e : contextFile dir a = contextFile dir b := by unfold contextFile; rw [h]
  have hw : contextWrite dir normalized [a, b] = ⟨[(.file (contextFile dir b), joinLines (headerText :: la) ++ ['\n', '\n']),
      (.file (contextFile dir b), joinLines (headerText :: lb) ++ ['\n', '\n'])], .ok ()⟩ := by
    rw [contextWrite_ok dir normalized [a, b] (fun n => (n.fileText normalized).1)]
    · simp [fileText_ok a normalized la h1, fileText_ok b normalized lb h2, e]
    · intro n hn
      simp only [List.mem_cons, List.not_mem_nil, or_false] at hn
      rcases hn with rfl | rfl
      · rw [fileText_ok n normalized la h1]
      · rw [fileText_ok n normalized lb h2]
  refine ⟨contextWrite dir normalized [a, b], contextFile dir b, ?_, ?_, ?_⟩
  · unfold contextSave
    rw [if_pos rfl, hw]
    simp [contextFiles, e, Except.map]
  · intro w hm
    rw [hw] at hm
    simp only [List.mem_cons, List.not_mem_nil, or_false] at hm
    rcases hm with rfl | rfl <;> rfl
  · refine ⟨joinLines (headerText :: lb) ++ ['\n', '\n'], b.reloaded, by simp [hw, fileAfter], reloaded_same b, ?_⟩
    intro st
    obtain ⟨cs, hcs⟩ := h4 st.node
    have := headed_load lb 2 h3 st
    simp only [show List.replicate 2 '\n' = ['\n', '\n'] from rfl, hcs, reloaded_finish hi] at this
    exact ⟨by rw [this.1], by rw [this.2]⟩

/-! ### Examples -/

/-- Two nodes: one with a type, provide ports and require ports, the other with a provide port only. -/
def cxNode : Node := (Node.new ['N']).run rtOps

def cxOps : List NodeOp := [.addPort .provide ['q'] ['S'] none]

def cxFirst : Node := (Node.new ['F']).run cxOps

theorem cxNode_printable : cxNode.Printable :=
  ⟨⟨_, _, rfl⟩, fun i t h => C46_earlier ['N'] rtOps rtOps_not_final i t h, rtOps_writable⟩

theorem cxFirst_printable : cxFirst.Printable := by
  refine ⟨⟨_, _, rfl⟩, fun i t h => C46_earlier ['F'] cxOps (by simp [cxOps, NodeOp.Finalizes]) i t h, ?_⟩
  have ht : cxFirst.types = [] := by
    have : cxFirst.types.length = 0 := by decide +kernel
    simpa using this
  have hr : cxFirst.requires = [] := by
    have : cxFirst.requires.length = 0 := by decide +kernel
    simpa using this
  have hp : cxFirst.provides.map (fun p => (p.name, p.elem, p.attr.map PortAttr.str)) =
      [(['q'], .prim .u16 none none none, none)] := by decide +kernel
  refine ⟨?_, by simp [ht], ?_⟩
  · have : cxFirst.name = ['F'] := by decide +kernel
    rw [this]; simp [NameOk]
  · intro side p hm
    cases side
    · simp [Node.ports, hr] at hm
    · have hm' := List.mem_map_of_mem (f := fun p => (p.name, p.elem, p.attr.map PortAttr.str)) hm
      rw [show cxFirst.ports .provide = cxFirst.provides from rfl, hp] at hm'
      simp only [List.mem_singleton, Prod.mk.injEq] at hm'
      obtain ⟨h1, h2, h3⟩ := hm'
      rw [h1, h2]
      simp only [Option.map_eq_none_iff] at h3
      simp [NameOk, Elem.WellFormed, Elem.Clean, h3]

example : (∀ n ∈ [cxNode, cxFirst], n.Printable) ∧ ([cxNode, cxFirst].map Node.name).Nodup ∧
    cxNode.requires ≠ [] ∧ cxFirst.requires = [] ∧ cxFirst.provides ≠ [] := by
  refine ⟨?_, by decide +kernel, ?_, ?_, ?_⟩
  · intro n hn
    simp only [List.mem_cons, List.not_mem_nil, or_false] at hn
    rcases hn with rfl | rfl
    · exact cxNode_printable
    · exact cxFirst_printable
  · have : cxNode.requires.length = 2 := by decide +kernel
    intro h; rw [h] at this; cases this
  · have : cxFirst.requires.length = 0 := by decide +kernel
    simpa using this
  · have : cxFirst.provides.length = 1 := by decide +kernel
    intro h; rw [h] at this; cases this

/-- A second node with a port of a type without references. -/
def cxSecond : Node := (Node.new ['S']).run [.addType ['A'] ['C'] none, .addPort .require ['r'] ['L'] none]

/-- The text of two nodes that is accepted: the name and the type of the second are lost, its port is given to the
first. -/
example : ∃ text, contextDumps [cxFirst, cxSecond] false = .ok text ∧
    text = "APX/1.2\nN\"F\"\nP\"q\"S\nN\"S\"\nT\"A\"C\nR\"r\"L\n".toList ∧
    (match (Parser.new.loads text).2 with
     | .ok k => decide (k.name = ['F'] ∧ k.types.length = 0 ∧ k.provides.map Port.name = [['q']] ∧ k.requires.map Port.name = [['r']])
     | .error _ => false) = true := by
  refine ⟨_, ?_, rfl, ?_⟩
  · have h : (contextDumps [cxFirst, cxSecond] false).toOption =
        some "APX/1.2\nN\"F\"\nP\"q\"S\nN\"S\"\nT\"A\"C\nR\"r\"L\n".toList := by decide +kernel
    cases hx : contextDumps [cxFirst, cxSecond] false with
    | error e => rw [hx] at h; cases h
    | ok t => rw [hx] at h; simpa [Except.toOption] using h
  · decide +kernel

end Apx
