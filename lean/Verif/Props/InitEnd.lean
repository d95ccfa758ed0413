import Verif.Props.NodeData
import Verif.Props.PortAttr
import Verif.Props.RoundTrip

/-! C71: from the text of an init value to the data of the node. -/

namespace Apx

/-- The initial bytes of each provide port, when all init values have the declared lengths. -/
theorem initial_out_bytes {types : List NamedType} {rq pv : List NPort} {text : Str} {nd : NodeData}
    (h : NodeData.build types rq pv text = .ok nd) (hfit : ∀ p ∈ pv, p.InitFits types) (k : Nat) (p : NPort)
    (hk : pv[k]? = some p) :
    ∃ r de b c n, nd.outRanges[k]? = some r ∧ p.type types = .ok de ∧ compileElem .pack de = .ok (c, n) ∧
      de.packLen = .ok r.len ∧ portInit de r.len p.init = .ok b ∧ portBytes nd.outRanges nd.outFile k = some b := by
  obtain ⟨i, o, df, _, _, h1, h2, _, h5⟩ := build_inv h
  obtain ⟨rs, cs, bs, a1, a2, a3, a4, a5⟩ := addPorts_ok h1
  obtain ⟨f1, f2, f3⟩ := createPortFile_ok h2
  simp only [PortLayout.empty, List.nil_append, List.length_nil] at a1 a2 a3 a4
  obtain ⟨r, c, b, b1, b2, b3, b4⟩ := a5.get hk
  obtain ⟨e, de, e1, e2, e3, e4, e5⟩ := b4.ex
  have hr : nd.outRanges = rs := by rw [h5]; exact a1
  obtain ⟨code, m, hce, _⟩ := compileProg_inv e4
  refine ⟨r, de, b, code, m, by rw [hr]; exact b1, by simp only [NPort.type, e1, ok_bind, e2], hce,
    port_len e2 e3 e4, e5, ?_⟩
  simp only [portBytes, hr, b1, Option.map_some, f1, a3, Option.some.injEq]
  have hlen : ∀ (i : Nat) (r : PortRange) (b : Bytes), rs[i]? = some r → bs[i]? = some b → b.length = r.len := by
    intro i r b hri hbi
    have hil : i < pv.length := by rw [← a5.length.1]; exact (List.getElem?_eq_some_iff.mp hri).1
    obtain ⟨r', c', b', c1, c2, c3, c4⟩ := a5.get (List.getElem?_eq_getElem hil)
    rw [hri] at c1
    rw [hbi] at c3
    simp only [Option.some.injEq] at c1 c3
    subst c1 c3
    obtain ⟨e', de', d1, d2, d3, d4, d5⟩ := c4.ex
    refine portInit_length d4 (port_len d2 d3 d4) _ ?_ b d5
    intro iv hiv
    exact hfit pv[i] (List.getElem_mem hil) iv de' hiv (by simp only [NPort.type, d1, ok_bind, d2])
  have := flatten_at a4 hlen (by rw [a5.length.1, a5.length.2.2]) b1 b3
  simpa using this.1

/-- The data type of a port of the node, with references replaced. -/
def Node.portType (n : Node) (p : Port) : Py Elem := do
  let e ← p.elem.resolveType n.named
  e.resolveDataElement

/-- The init values of these ports have the lengths of their types. -/
def Node.InitsFit (n : Node) (ports : List Port) : Prop :=
  ∀ q ∈ ports, ∀ a iv de, q.attr = some a → a.initValue = some iv → n.portType q = .ok de → de.InitFits iv

theorem initsFit_map {n : Node} {ports : List Port} (h : n.InitsFit ports) :
    ∀ p ∈ ports.map Port.toNPort, p.InitFits n.named := by
  intro p hp iv de h1 h2
  obtain ⟨q, hq, rfl⟩ := List.mem_map.mp hp
  simp only [Port.toNPort, Option.bind_eq_some_iff] at h1
  obtain ⟨a, h1, h3⟩ := h1
  exact h q hq a iv de h1 h3 h2

theorem attr_spelled {s a : Str} {iv : InitVal} (hs : Spells iv s) (ha : Blank a) {p : Port} {at_ : PortAttr}
    (hat : portAttribute ('=' :: (a ++ s)) = .ok at_) (hp : p.attr = some at_) : p.toNPort.init = some iv := by
  rw [C51_every_spelling iv s a hs ha, Except.ok.injEq] at hat
  simp only [Port.toNPort, hp, Option.bind_some, ← hat]

/-- C71: if the attributes of a require port spell an init value, then the port reads as this value until
a remote write, whatever is done locally. Same restrictions as for C35. -/
theorem C71_require_partial (n : Node) (nd : NodeData) (h : n.nodeData = .ok nd) (hfit : n.InitsFit n.requires)
    (as : List Access) (hloc : ∀ a ∈ as, a.Local) (hlock : (nd.run as).locked = false)
    (k : Nat) (p : Port) (hk : n.requires[k]? = some p)
    (s b : Str) (iv : InitVal) (hs : Spells iv s) (hb : Blank b) (at_ : PortAttr)
    (hat : portAttribute ('=' :: (b ++ s)) = .ok at_) (hp : p.attr = some at_) (hascii : iv.Ascii)
    (de : Elem) (hde : n.portType p = .ok de) (hlens : de.LensOk) (hnames : de.NamesOk) (hnest : de.NoNested)
    (v : PyVal) (hden : de.Denotes iv v) (hx : de.Exact v) (hpos : nd.inFile.isSome) :
    ∃ v', (nd.run as).readRequire k = (nd.run as, .ok v') ∧ v'.Same v := by
  obtain ⟨text, _, h⟩ := bind_ok_iff.mp h
  exact C35_init_partial n.named _ _ text nd h (initsFit_map hfit) as hloc hlock k p.toNPort
    (by rw [List.getElem?_map, hk]; rfl) iv (attr_spelled hs hb hat hp) hascii de hde hlens hnames hnest v hden hx hpos

/-- C71: if the attributes of a provide port spell an init value, then the encoding of this value is what
the data file of the provide ports contains in the range of the port before any write. -/
theorem C71_provide_partial (n : Node) (nd : NodeData) (h : n.nodeData = .ok nd) (hfit : n.InitsFit n.provides)
    (k : Nat) (p : Port) (hk : n.provides[k]? = some p)
    (s b : Str) (iv : InitVal) (hs : Spells iv s) (hb : Blank b) (at_ : PortAttr)
    (hat : portAttribute ('=' :: (b ++ s)) = .ok at_) (hp : p.attr = some at_) (hascii : iv.Ascii)
    (de : Elem) (hde : n.portType p = .ok de) (v : PyVal) (hden : de.Denotes iv v) (hx : de.Exact v) :
    ∃ bs, de.layout v = some bs ∧ portBytes nd.outRanges nd.outFile k = some bs := by
  obtain ⟨text, _, h⟩ := bind_ok_iff.mp h
  have hk' : (n.provides.map Port.toNPort)[k]? = some p.toNPort := by rw [List.getElem?_map, hk]; rfl
  obtain ⟨bs, hlay⟩ := de.exact_layout v hx
  obtain ⟨r, de', b', c, m, h1, h2, h3, h4, h5, h6⟩ := initial_out_bytes h (initsFit_map hfit) k p.toNPort hk'
  have : de' = de := by
    have : (Except.ok de' : Py Elem) = .ok de := by rw [← h2, ← hde]; rfl
    simpa using this
  subst this
  have hiv := attr_spelled hs hb hat hp
  refine ⟨bs, hlay, ?_⟩
  simp only [hiv, portInit] at h5
  have := inner_createInit (de'.init_layout iv v bs hden hascii
    (initsFit_map hfit _ (List.mem_of_getElem? hk') iv de' hiv h2) hlay)
  rw [this, Except.ok.injEq] at h5
  rw [h6, h5]

/-- C71: a provide port without init value has the encoding of zero in its range. -/
theorem C71_zero_partial (n : Node) (nd : NodeData) (h : n.nodeData = .ok nd) (hfit : n.InitsFit n.provides)
    (k : Nat) (p : Port) (hk : n.provides[k]? = some p) (hp : ∀ a, p.attr = some a → a.initValue = none)
    (de : Elem) (hde : n.portType p = .ok de) (v : PyVal) (hz : de.IsZero v) (hx : de.Exact v) :
    ∃ bs, de.layout v = some bs ∧ portBytes nd.outRanges nd.outFile k = some bs := by
  obtain ⟨text, _, h⟩ := bind_ok_iff.mp h
  have hk' : (n.provides.map Port.toNPort)[k]? = some p.toNPort := by rw [List.getElem?_map, hk]; rfl
  obtain ⟨bs, hlay⟩ := de.exact_layout v hx
  obtain ⟨r, de', b', c, m, h1, h2, h3, h4, h5, h6⟩ := initial_out_bytes h (initsFit_map hfit) k p.toNPort hk'
  have : de' = de := by
    have : (Except.ok de' : Py Elem) = .ok de := by rw [← h2, ← hde]; rfl
    simpa using this
  subst this
  have hiv : p.toNPort.init = none := by
    simp only [Port.toNPort]
    cases ha : p.attr with
    | none => rfl
    | some a => simp [hp a ha]
  refine ⟨bs, hlay, ?_⟩
  simp only [hiv, portInit, Except.ok.injEq] at h5
  have hbl : bs.length = r.len := by
    have e1 := Elem.layout_length' de' c m h3 v bs hlay
    have e2 := compile_packLen de' c m h3
    rw [h4] at e2
    simp only [Except.ok.injEq] at e2
    omega
  rw [h6, ← h5, ← hbl, ← List.eq_replicate_of_mem (de'.zero_layout v bs hz hlay)]

/-- C71: the attribute of a port made from text (by the constructors, by the parser or by appending a
line) is what its text means. -/
theorem C71_made (n : Node) (side : Side) (name dsg s b : Str) (iv : InitVal) (hs : Spells iv s) (hb : Blank b)
    (n' : Node) (p : Port) (h : (mkPort name dsg (some ('=' :: (b ++ s))) >>= n.addPort side) = .ok (n', p)) :
    ∃ a, p.attr = some a ∧ portAttribute ('=' :: (b ++ s)) = .ok a ∧ a.initValue = some iv ∧
      (n'.ports side).getLast? = some p := by
  have hat := C51_every_spelling iv s b hs hb
  obtain ⟨q, h1, h2⟩ := bind_ok_iff.mp h
  unfold mkPort at h1
  obtain ⟨e, _, h1⟩ := bind_ok_iff.mp h1
  simp only [optArg, hat, ok_bind, Except.ok.injEq] at h1
  unfold Node.addPort at h2
  obtain ⟨q', h3, h2⟩ := bind_ok_iff.mp h2
  simp only [Except.ok.injEq, Prod.mk.injEq] at h2
  obtain ⟨rfl, rfl⟩ := h2
  have h4 : q'.attr = q.attr := by
    unfold resolvePort at h3
    split at h3
    · obtain ⟨e', _, h3⟩ := bind_ok_iff.mp h3
      simp only [Except.ok.injEq] at h3
      rw [← h3]
    · simp only [Except.ok.injEq] at h3
      rw [← h3]
  refine ⟨_, by rw [h4, ← h1], hat, rfl, ?_⟩
  cases side <;> simp [Node.ports, Node.setPorts]

/-- A node with init values on both sides. -/
def ieNode : Node := (Node.new ['N']).run
  [.addPort .provide ['O'] ['C'] none, .addPort .provide ['P'] ['S'] (some "= 258".toList),
   .addPort .require ['Q'] ['a', '[', '4', ']'] (some "=\"ab\"".toList)]

theorem ieNode_provides : ieNode.provides.map (fun p => (p.elem, p.attr.map PortAttr.str)) =
    [(.prim .u8 none none none, none), (.prim .u16 none none none, some "= 258".toList)] := by decide +kernel

section Examples

/-- The hypotheses of `C71_provide_partial` can be met, and what it says of the example. -/
example : ∃ nd p at_, ieNode.nodeData = .ok nd ∧ ieNode.InitsFit ieNode.provides ∧ ieNode.provides[1]? = some p ∧
    Spells (.int 258) ['2', '5', '8'] ∧ Blank [' '] ∧ portAttribute ('=' :: ([' '] ++ ['2', '5', '8'])) = .ok at_ ∧
    p.attr = some at_ ∧ ieNode.portType p = .ok (.prim .u16 none none none) ∧
    (Elem.prim .u16 none none none).Denotes (.int 258) (.int 258) ∧ (Elem.prim .u16 none none none).Exact (.int 258) ∧
    portBytes nd.outRanges nd.outFile 1 = some [2, 1] := by
  have hsp : Spells (.int 258) ['2', '5', '8'] := by
    have h258 : natStr 258 = ['2', '5', '8'] := by decide +kernel
    exact Spells.dec _ _ (h258 ▸ numeral_natStr 258)
  have hbl : Blank [' '] := by simp [Blank]
  have hat := C51_every_spelling (.int 258) _ _ hsp hbl
  have hnd : (match ieNode.nodeData with
    | .ok nd => decide (portBytes nd.outRanges nd.outFile 1 = some [2, 1])
    | .error _ => false) = true := by decide +kernel
  cases hx : ieNode.nodeData with
  | error e => rw [hx] at hnd; cases hnd
  | ok nd =>
    rw [hx] at hnd
    have hn := ieNode_provides
    match hps : ieNode.provides with
    | [] => rw [hps] at hn; simp at hn
    | [_] => rw [hps] at hn; simp at hn
    | _ :: _ :: _ :: _ => rw [hps] at hn; simp at hn
    | [q, p] =>
      rw [hps] at hn
      simp only [List.map_cons, List.map_nil, List.cons.injEq, Prod.mk.injEq, Option.map_eq_none_iff,
        Option.map_eq_some_iff, and_true] at hn
      obtain ⟨⟨q1, q2⟩, p1, a, p2, p3⟩ := hn
      have hbuilt : ieNode.Built := ⟨_, _, rfl⟩
      have hpa := ((Node.Built.inv hbuilt).ports .provide p (by simp only [Node.ports]; rw [hps]; simp)).attr a p2
      rw [p3] at hpa
      have htype : ∀ r : Port, r.elem = .prim .u16 none none none → ieNode.portType r = .ok (.prim .u16 none none none) := by
        intro r hr
        unfold Node.portType
        rw [hr]
        rfl
      refine ⟨nd, p, a, rfl, ?_, rfl, hsp, hbl, hpa, p2, htype p p1, by simp [Elem.Denotes], ?_, of_decide_eq_true hnd⟩
      · intro r hr b iv de h1 h2 h3
        simp only [List.mem_cons, List.not_mem_nil, or_false] at hr
        rcases hr with rfl | rfl
        · rw [q2] at h1; cases h1
        · rw [p2, Option.some.injEq] at h1
          subst h1
          have : a.initValue = some (.int 258) := by
            have : (Except.ok a : Py PortAttr) = .ok _ := hpa.symm.trans hat
            rw [Except.ok.injEq] at this
            rw [this]
          rw [this, Option.some.injEq] at h2
          rw [htype _ p1, Except.ok.injEq] at h3
          subst h2 h3
          simp [Elem.InitFits]
      · rw [Elem.Exact]
        simp only [TypeCode.integer]
        exact ⟨_, _, rfl, rfl, by decide⟩

end Examples

end Apx
