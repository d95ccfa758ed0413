import Verif.Props.Endpoint
import Verif.Props.Session
import Verif.Spec.Forward

/-! C94: a value written by one client reaches another through a server. -/

namespace Apx
open Manager

variable {H : Type}

/-! ### The node data of a client -/

theorem client_reachable {n : Node} {e0 : Endpoint H} (h0 : Endpoint.ofNode n = .ok e0) (as : List (Act H)) :
    ∃ text, NodeData.build n.named (n.requires.map Port.toNPort) (n.provides.map Port.toNPort) text = .ok e0.node ∧
      (e0.history as).node.Reachable n.named (n.requires.map Port.toNPort) (n.provides.map Port.toNPort) text := by
  obtain ⟨hnd, -, hl⟩ := client_linked h0 as
  obtain ⟨text, -, hb⟩ := nodeData_inv hnd
  obtain ⟨acc, ha⟩ := hl.node
  exact ⟨text, hb, e0.node, acc, hb, ha⟩

/-- Where a port begins is where its range begins. -/
theorem portStart_range {types : List NamedType} {ports : List NPort} {ranges : List PortRange}
    {file : Option FileData} (hp : Partitioned types ports ranges file) {k : Nat} {r : PortRange}
    (hr : ranges[k]? = some r) {lens : List Nat}
    (hl : (ports.take k).map (NPort.packLen types) = lens.map .ok) : r.offset = lens.sum := by
  have hkl : k < ports.length := by
    rw [← hp.count]; exact (List.getElem?_eq_some_iff.mp hr).1
  rw [(hp.range k ports[k] r (List.getElem?_eq_getElem hkl) hr).2.2]
  congr 1
  apply List.ext_getElem?
  intro j
  have h1 : ((ports.take k).map (NPort.packLen types))[j]? = (lens.map (Except.ok (ε := PyErr)))[j]? := by rw [hl]
  have hlen : lens.length = k := by
    have := congrArg List.length hl
    simp at this
    omega
  by_cases hj : j < k
  · have hjr : j < ranges.length := by rw [hp.count]; omega
    have h2 := (hp.range j ports[j] ranges[j] (List.getElem?_eq_getElem (by omega)) (List.getElem?_eq_getElem hjr)).2.1
    rw [List.getElem?_map, List.getElem?_map, List.getElem?_take_of_lt hj, List.getElem?_eq_getElem (by omega),
      List.getElem?_eq_getElem (by omega)] at h1
    simp only [Option.map_some, Option.some.injEq] at h1
    rw [h2, Except.ok.injEq] at h1
    rw [List.getElem?_map, List.getElem?_take_of_lt hj, List.getElem?_eq_getElem hjr,
      List.getElem?_eq_getElem (by omega)]
    simp only [Option.map_some, h1]
  · rw [List.getElem?_eq_none (by simp; omega), List.getElem?_eq_none (by omega)]

/-- The range of a provide port of a reachable node. -/
theorem provide_range {types : List NamedType} {rq pv : List NPort} {text : Str} {nd : NodeData}
    (hr : nd.Reachable types rq pv text) {k : Nat} {p : NPort} (hk : pv[k]? = some p) {de : Elem}
    (hde : p.type types = .ok de) {len : Nat} (hlen : de.packLen = .ok len) :
    ∃ r, nd.outRanges[k]? = some r ∧ r.len = len := by
  obtain ⟨bs, hp⟩ := hr.wf.outP
  obtain ⟨r, c, b, g1, -, -, g4⟩ := hp.get hk
  obtain ⟨e, de2, e1, e2, e3, e4, _⟩ := g4.ex
  have : de2 = de := by
    have := hde
    simp only [NPort.type, e1, ok_bind, e2, Except.ok.injEq] at this
    exact this
  subst this
  have := port_len e2 e3 e4
  rw [hlen] at this
  exact ⟨r, g1, (Except.ok.inj this).symm⟩

theorem require_range {types : List NamedType} {rq pv : List NPort} {text : Str} {nd : NodeData}
    (hr : nd.Reachable types rq pv text) {k : Nat} {p : NPort} (hk : rq[k]? = some p) {de : Elem}
    (hde : p.type types = .ok de) {len : Nat} (hlen : de.packLen = .ok len) :
    ∃ r, nd.inRanges[k]? = some r ∧ r.len = len ∧
      ∀ v data, de.layout v = some data → data.length = len := by
  obtain ⟨bs, hp⟩ := hr.wf.inP
  obtain ⟨r, c, b, g1, -, -, g4⟩ := hp.get hk
  obtain ⟨e, de2, e1, e2, e3, e4, _⟩ := g4.ex
  have : de2 = de := by
    have := hde
    simp only [NPort.type, e1, ok_bind, e2, Except.ok.injEq] at this
    exact this
  subst this
  have h3 := port_len e2 e3 e4
  rw [hlen] at h3
  refine ⟨r, g1, (Except.ok.inj h3).symm, ?_⟩
  intro v data hlay
  obtain ⟨code, m, hc, -⟩ := compileProg_inv e4
  have h1 := Elem.layout_length' de2 code m hc v data hlay
  obtain ⟨ls, h4, h5⟩ := de2.compile_leaves code m hc
  have h6 := packLen_leaves de2 ls h4
  rw [hlen] at h6
  cases h6
  rw [h1, h5]

/-! ### The provider -/

/-- A write of a client returns if the node data accepts it. -/
theorem write_returns {n : Node} {nd0 : NodeData} {e : Endpoint H} (hl : Linked n nd0 e) {i : Int} {v : PyVal}
    {nd : NodeData} {off : Nat} {data : Bytes} (h : e.node.writeProvide i v = (nd, .ok (off, data))) :
    (e.write i v).2 = .ok () ∧ (e.write i v).1.node = nd := by
  obtain ⟨o0, o1, o2, hs⟩ := hl.shape
  have ho1 : e.mgr.files[1]? = some o1 := by rw [hs.files]; rfl
  have hsome : nd0.outFile.isSome = true := by
    have hw := (writeProvide_files e.node i v).2
    rw [h] at hw
    obtain ⟨f, hf, -⟩ := hw
    have := hs.content1
    rw [hf] at this
    cases hh : nd0.outFile with
    | none => rw [hh] at this; cases this
    | some x => rfl
  have hloc : ∀ off data, (writeLocal e.mgr e.outFile off data).2.1 = none := by
    intro off data
    unfold writeLocal
    rw [hl.outFile, ho1]
    simp only [FileData.outputWrite]
    split
    · rfl
    · simp only [outPortDataWriteNotify, update]
      rw [modify_get _ _ _ o1 ho1]
      simp only [(hs.address1 hsome).1]
      split <;> rfl
  unfold Endpoint.write
  rw [h]
  simp only
  have := hloc off data
  split <;> rename_i hm
  · rw [hm] at this; cases this
  · exact ⟨rfl, rfl⟩

theorem writeProvide_ranges (nd : NodeData) (i : Int) (v : PyVal) :
    (nd.writeProvide i v).1.outRanges = nd.outRanges := by
  unfold NodeData.writeProvide
  (repeat' split) <;> first | rfl | (simp only; split <;> rfl)

/-- An act that is not a write of port `i` that returns leaves the data of that port. -/
theorem act_keeps_port {n : Node} {e0 : Endpoint H} (h0 : Endpoint.ofNode n = .ok e0) (as : List (Act H)) (a : Act H)
    (i : Nat) (hno : ∀ u, a = .write i u → ((e0.history as).write i u).2 ≠ .ok ()) :
    portBytes ((e0.history as).act a).node.outRanges ((e0.history as).act a).node.outFile i =
      portBytes (e0.history as).node.outRanges (e0.history as).node.outFile i := by
  obtain ⟨text, -, hr⟩ := client_reachable h0 as
  obtain ⟨-, -, hl⟩ := client_linked h0 as
  generalize e0.history as = e at hno hr hl ⊢
  cases a with
  | connected c => rfl
  | stop => rfl
  | read k =>
    simp only [Endpoint.act]
    rcases NodeData.readRequire_state e.node k with h | h <;> rw [h]
  | write j u =>
    cases hw : e.node.writeProvide j u with
    | mk nd o =>
      cases o with
      | ok w =>
        obtain ⟨off, data⟩ := w
        obtain ⟨h1, h2⟩ := write_returns hl hw
        simp only [Endpoint.act, h2]
        obtain ⟨k', p', r, data', de', c1, -, -, -, -, -, -, -, c9, -⟩ := C32_write _ _ _ _ _ _ hr _ _ _ hw
        refine c9 i ?_
        intro hk
        subst hk
        subst c1
        exact hno u rfl h1
      | raised x =>
        have hn : (e.act (.write j u)).node = nd := by simp only [Endpoint.act, Endpoint.write, hw]
        have hf := writeProvide_files e.node j u
        have hR := writeProvide_ranges e.node j u
        rw [hw] at hf hR
        rw [hn, hf.2, hR]
      | blocked =>
        have hn : (e.act (.write j u)).node = nd := by simp only [Endpoint.act, Endpoint.write, hw]
        have hf := writeProvide_files e.node j u
        have hR := writeProvide_ranges e.node j u
        rw [hw] at hf hR
        rw [hn, hf.2, hR]
  | message msg =>
    have hwf : ∀ o, (Endpoint.withFile e.node o).outRanges = e.node.outRanges ∧
        (Endpoint.withFile e.node o).outFile = e.node.outFile := by
      intro o
      unfold Endpoint.withFile
      split
      · split <;> exact ⟨rfl, rfl⟩
      · exact ⟨rfl, rfl⟩
    simp only [Endpoint.act, Endpoint.receive]
    split
    · rfl
    · split
      · rfl
      · rename_i m note hm
        simp only [Endpoint.notify]
        split
        · simp only [(hwf _).1, (hwf _).2]
        · rename_i nt
          split
          · generalize hN : NodeData.inPortNotify _ _ _ _ = r
            have hst := NodeData.inPortNotify_state (Endpoint.withFile e.node m.files[e.inFile]?) true
              nt.notification.offset.toNat nt.notification.len
            rw [hN] at hst
            obtain ⟨nd', l, oc⟩ := r
            simp only at hst
            have : nd'.outRanges = e.node.outRanges ∧ nd'.outFile = e.node.outFile := by
              rcases hst with h | h <;> rw [h] <;> exact hwf _
            cases oc <;> simp only [this.1, this.2]
          · simp only [(hwf _).1, (hwf _).2]

theorem history_append (e : Endpoint H) (xs ys : List (Act H)) : e.history (xs ++ ys) = (e.history xs).history ys := by
  simp [Endpoint.history]

theorem noWrite_keeps {n : Node} {e0 : Endpoint H} (h0 : Endpoint.ofNode n = .ok e0) (i : Nat) (ys : List (Act H)) :
    ∀ as : List (Act H), (e0.history as).NoWrite ys i →
    portBytes (e0.history (as ++ ys)).node.outRanges (e0.history (as ++ ys)).node.outFile i =
      portBytes (e0.history as).node.outRanges (e0.history as).node.outFile i := by
  induction ys with
  | nil => intro as _; simp
  | cons a ys ih =>
    intro as hno
    have h1 := act_keeps_port h0 as a i fun u hu => hno [] u ys (by rw [hu]; rfl)
    have h2 : e0.history (as ++ [a]) = (e0.history as).act a := by rw [history_append]; rfl
    have h3 := ih (as ++ [a]) (by
      intro xs u zs hys
      have := hno (a :: xs) u zs (by rw [hys]; rfl)
      rw [h2]
      exact this)
    rw [List.append_assoc] at h3
    rw [← h1, ← h2]
    exact h3

/-- The data of a provide port is the layout of the value last written. -/
theorem lastWrite_data {n : Node} {e0 : Endpoint H} (h0 : Endpoint.ofNode n = .ok e0) {as : List (Act H)} {i : Nat}
    {v : PyVal} (hw : e0.LastWrite as i v) {de : Elem} (hde : n.PortType .provide i de) (hlens : de.LensOk)
    (hnames : de.NamesOk) (hne : de.NoEmptyInside) :
    ∃ data, de.layout v = some data ∧
      portBytes (e0.history as).node.outRanges (e0.history as).node.outFile i = some data := by
  obtain ⟨xs, ys, rfl, h1, h2⟩ := hw
  obtain ⟨p, hp, hde⟩ := hde
  have hk := noWrite_keeps h0 i ys _ h2
  rw [List.append_assoc, List.singleton_append] at hk
  rw [hk]
  obtain ⟨text, -, hr⟩ := client_reachable h0 xs
  obtain ⟨-, -, hl⟩ := client_linked h0 xs
  have h3 : e0.history (xs ++ [.write i v]) = ((e0.history xs).write i v).1 := by rw [history_append]; rfl
  rw [h3]
  generalize e0.history xs = e at h1 hr hl ⊢
  cases hwp : e.node.writeProvide i v with
  | mk nd o =>
    cases o with
    | raised x => simp only [Endpoint.write, hwp] at h1; cases h1
    | blocked => simp only [Endpoint.write, hwp] at h1; cases h1
    | ok w =>
      obtain ⟨off, data⟩ := w
      rw [(write_returns hl hwp).2]
      obtain ⟨k', p', r, data', de', c1, c2, -, -, c5, c6, c7, -⟩ := C32_write _ _ _ _ _ _ hr _ _ _ hwp
      have hkk : k' = i := by omega
      subst hkk
      rw [List.getElem?_map, show n.provides[k']? = some p from hp] at c2
      cases c2
      rw [hde] at c5
      cases c5
      exact ⟨data', c7 hlens hnames hne, c6⟩

/-- The initial bytes of each provide port, when all init values have the declared lengths. -/
theorem initial_provided {types : List NamedType} {rq pv : List NPort} {text : Str} {nd : NodeData}
    (h : NodeData.build types rq pv text = .ok nd) (hfit : ∀ p ∈ pv, p.InitFits types) (k : Nat) (p : NPort)
    (hk : pv[k]? = some p) :
    ∃ r de b, nd.outRanges[k]? = some r ∧ p.type types = .ok de ∧ de.packLen = .ok r.len ∧
      portInit de r.len p.init = .ok b ∧ portBytes nd.outRanges nd.outFile k = some b := by
  obtain ⟨i, o, df, _, _, h1, h2, _, h5⟩ := build_inv h
  obtain ⟨rs, cs, bs, a1, a2, a3, a4, a5⟩ := addPorts_ok h1
  obtain ⟨f1, f2, f3⟩ := createPortFile_ok h2
  simp only [PortLayout.empty, List.nil_append, List.length_nil] at a1 a2 a3 a4
  obtain ⟨r, c, b, b1, b2, b3, b4⟩ := a5.get hk
  obtain ⟨e, de, e1, e2, e3, e4, e5⟩ := b4.ex
  have hr : nd.outRanges = rs := by rw [h5]; exact a1
  refine ⟨r, de, b, by rw [hr]; exact b1, by simp only [NPort.type, e1, ok_bind, e2], port_len e2 e3 e4, e5, ?_⟩
  simp only [portBytes, hr, b1, Option.map_some, f1, a3, Option.some.injEq]
  have hlen : ∀ (i : Nat) (r : PortRange) (b : Bytes), rs[i]? = some r → bs[i]? = some b → b.length = r.len := by
    intro i r b hri hbi
    have hil : i < pv.length := by rw [← a5.length.1]; exact (List.getElem?_eq_some_iff.mp hri).1
    obtain ⟨r', c', b', c1, c2, c3, c4⟩ := a5.get (List.getElem?_eq_getElem hil)
    rw [hri] at c1
    rw [hbi] at c3
    simp only [Option.some.injEq] at c1 c3
    subst c1 c3
    obtain ⟨e', de', d1, d2, d3, d4, d5⟩ := c4.ex
    refine portInit_length d4 (port_len d2 d3 d4) _ ?_ b d5
    intro iv hiv
    exact hfit pv[i] (List.getElem_mem hil) iv de' hiv (by simp only [NPort.type, d1, ok_bind, d2])
  have := flatten_at a4 hlen (by rw [a5.length.1, a5.length.2.2]) b1 b3
  simpa using this.1

/-- The data of a provide port that was never written is the layout of its init value. -/
theorem noWrite_data {n : Node} {e0 : Endpoint H} (h0 : Endpoint.ofNode n = .ok e0) {as : List (Act H)} {i : Nat}
    (hno : e0.NoWrite as i) (hfit : ∀ p ∈ n.provides, p.toNPort.InitFits n.named) {p : Port}
    (hp : n.provides[i]? = some p) {de : Elem} (hde : p.toNPort.type n.named = .ok de) {iv : InitVal}
    (hiv : p.toNPort.init = some iv) (hascii : iv.Ascii) {v : PyVal} (hden : de.Denotes iv v) (hx : de.Exact v) :
    ∃ data, de.layout v = some data ∧
      portBytes (e0.history as).node.outRanges (e0.history as).node.outFile i = some data := by
  have hk := noWrite_keeps h0 i as [] hno
  rw [List.nil_append] at hk
  rw [hk]
  change ∃ data, _ ∧ portBytes e0.node.outRanges e0.node.outFile i = some data
  obtain ⟨text, hb, -⟩ := client_reachable h0 []
  have hfit' : ∀ p ∈ n.provides.map Port.toNPort, p.InitFits n.named := by
    intro q hq
    obtain ⟨q', h1, rfl⟩ := List.mem_map.mp hq
    exact hfit q' h1
  obtain ⟨r, de', b, h1, h2, h3, h4, h5⟩ := initial_provided hb hfit' i p.toNPort (by rw [List.getElem?_map, hp]; rfl)
  rw [hde] at h2
  cases h2
  obtain ⟨bs, hlay⟩ := de.exact_layout v hx
  simp only [hiv, portInit] at h4
  rw [inner_createInit (de.init_layout iv v bs hden hascii (hfit p (List.mem_of_getElem? hp) iv de hiv hde) hlay)] at h4
  cases h4
  exact ⟨_, hlay, h5⟩

/-- The server's copy of a port is the port's data. -/
theorem serverCopy_port {n : Node} {e0 : Endpoint H} (h0 : Endpoint.ofNode n = .ok e0) {as : List (Act H)}
    (hop : e0.Opened as) {i : Nat} {de : Elem} (hde : n.PortType .provide i de) {len : Nat}
    (hlen : de.packLen = .ok len) (hpos : 0 < len) {off : Nat} (hoff : n.PortStart .provide i off) (copy : Bytes)
    (hcopy : copy.length = (fileBytes (e0.history as).node.outFile).length) :
    portBytes (e0.history as).node.outRanges (e0.history as).node.outFile i =
      some (serverCopy copy (e0.history as) off len) := by
  obtain ⟨xs, frame, ys, has, h1, h2⟩ := hop
  obtain ⟨p, hp, hde⟩ := hde
  obtain ⟨lens, hl, rfl⟩ := hoff
  obtain ⟨text, -, hr⟩ := client_reachable h0 as
  have hk : (n.provides.map Port.toNPort)[i]? = some p.toNPort := by
    rw [List.getElem?_map, show n.provides[i]? = some p from hp]; rfl
  obtain ⟨r, hr1, rfl⟩ := provide_range hr hk hde hlen
  have hro := portStart_range (C31_partition _ _ _ _ _ hr).2 hr1 (lens := lens) (by
    rw [← List.map_take, List.map_map]; exact hl)
  have hin := (hr.wf.outC.get hr1).2.2
  cases hf : (e0.history as).node.outFile with
  | none => rw [hf] at hin; simp only [fileBytes, List.length_nil] at hin; omega
  | some f =>
    rw [hf] at hcopy
    have := C73_copy n e0 (e0.history xs) (e0.history as) h0 xs ys rfl h2 frame h1 (by rw [has]) f hf copy hcopy
    simp only [portBytes, hr1, Option.map_some, fileBytes, serverCopy, this, hro]

/-! ### The reader -/

/-- Data for the open in-port data file of a client: the file is changed and the node data is notified. -/
theorem data_notifies {n : Node} {e0 : Endpoint H} (h0 : Endpoint.ofNode n = .ok e0) (as : List (Act H))
    (hst : (e0.history as).stuck = false) (g : FileData) (hin : (e0.history as).node.inFile = some g)
    (hopen : (e0.history as).inOpen = true) (a : Nat) (ha : (e0.history as).inAddress = some (a : Int))
    (hend : a + g.data.length ≤ Rmf.cmdStartAddr) (off : Nat) (data frame : Bytes) (hd : data ≠ [])
    (hfit : off + data.length ≤ g.data.length) (hfr : DataFrame (a + off) data frame) :
    ∃ m', ∀ v' k, NodeData.inPortNotify { (e0.history as).node with inFile := some ⟨put g.data off data⟩ } true off data.length =
        ({ (e0.history as).node with inFile := some ⟨put g.data off data⟩ }, [(k, v')], .ok ()) →
      (e0.history as).receive frame = (⟨m', { (e0.history as).node with inFile := some ⟨put g.data off data⟩ },
        (e0.history as).inFile, (e0.history as).outFile, (e0.history as).calls ++ [(k, v')], false⟩, none) := by
  obtain ⟨hnd, hf, hl⟩ := client_linked h0 as
  generalize e0.history as = e at hl hst hin hopen ha ⊢
  obtain ⟨o, o1, o2, hs⟩ := hl.shape
  have ho : e.mgr.files[0]? = some o := by rw [hs.files]; rfl
  have hcont : o.content = g := by
    have := hs.content0
    rw [hin] at this
    cases hh : e0.node.inFile with
    | none => rw [hh] at this; cases this
    | some x => rw [hh] at this; simpa using this.symm
  have ha : o.address = some (a : Int) := by
    unfold Endpoint.inAddress at ha
    rw [hl.inFile, ho] at ha
    exact ha
  have hids : e.mgr.remoteMap.ids = [0] := by
    unfold Endpoint.inOpen at hopen
    rw [hl.inFile, ho] at hopen
    simp only [Option.map_some, Option.getD_some] at hopen
    rcases hs.status with ⟨_, ⟨_, _, h1⟩ | ⟨_, h1, _⟩⟩ | ⟨h1, _⟩
    · rw [h1] at hopen; cases hopen
    · exact h1
    · have := hs.content0; rw [h1, hin] at this; cases this
  have hlen : o.length = g.data.length := by unfold FObj.length; rw [hcont]
  have hdl : 0 < data.length := List.length_pos_iff.mpr hd
  obtain ⟨hdr, hh, rfl⟩ := hfr
  have hmax : a + off < 1073741824 := by
    have := cmdStart_lt
    omega
  obtain ⟨hdr', hh', hun⟩ := Rmf.C05_header_roundtrip_exact (a + off) false hmax
  rw [hh] at hh'; cases hh'
  have hun := hun data
  rw [if_neg (fun hc => hd hc.2)] at hun
  have hpos : 0 < hdr.length := header_pos hmax hh
  obtain ⟨ops, r1, rn, r2⟩ := hl.run
  obtain ⟨m', o', q1, q2, q3⟩ := C36_accepted clientLocal _ (fresh_client n.name e0.node) '<' ops r1 rn e.mgr r2
    (by rw [hids]; simp) (by rw [hids]; intro i hi; simp at hi; subst hi; rw [ent_some ho]; simp only; omega)
    0 (by rw [hids]; simp) o ho hs.kind0 (hdr ++ data) hdr.length (a + off) false a off hun hpos (by omega) ha
    (by omega) (by omega) (by rw [List.drop_left]; omega)
  rw [List.drop_left] at q1 q3
  rw [if_pos ⟨rfl, hs.handler0⟩] at q1
  have hput : o'.content = ⟨put g.data off data⟩ := by
    have := overwrites_put q3
    rw [hcont] at this
    cases ho : o'.content
    rw [ho] at this
    rw [← this]
  refine ⟨m', ?_⟩
  intro v' k hnote
  unfold Endpoint.receive
  rw [hst, q1]
  simp only [Endpoint.notify, Endpoint.withFile, hl.inFile, q2, hin, hput, Option.isSome_some, if_true, Int.toNat_natCast,
    Bool.false_eq_true, if_false, hnote]

/-- After the announcement the in-port data file is open at the announced address. -/
theorem announced_open {n : Node} {e0 : Endpoint H} (h0 : Endpoint.ofNode n = .ok e0) {as : List (Act H)} {a : Nat}
    (han : e0.Announced n as a) (hsome : (e0.history as).node.inFile.isSome = true) :
    (e0.history as).inOpen = true ∧ (e0.history as).inAddress = some (a : Int) := by
  obtain ⟨xs, f, frame, ys, has, h1, h2, h3, h4, h5, h6, h7⟩ := han
  obtain ⟨-, -, hl1⟩ := client_linked h0 xs
  obtain ⟨-, -, hl⟩ := client_linked h0 as
  have hin : ∃ g, (e0.history xs).node.inFile = some g := by
    obtain ⟨o0, o1, o2, hs⟩ := hl.shape
    obtain ⟨p0, p1, p2, hp⟩ := hl1.shape
    have c1 := hs.content0
    have c2 := hp.content0
    cases hh : e0.node.inFile with
    | none => rw [hh] at c1; rw [c1] at hsome; cases hsome
    | some x => rw [hh] at c2; exact ⟨_, c2⟩
  obtain ⟨g, hg⟩ := hin
  rw [hg] at h5
  obtain ⟨e', g1', -, g3, g4, -, -⟩ := C73_requested n e0 (e0.history xs) h0 xs rfl h6 g hg h7 f h2 h3 h5 a h4 frame h1
  have hact : (e0.history xs).act (.message frame) = e' := by simp only [Endpoint.act, g1']
  have hl' := hl1.act (.message frame)
  rw [hact] at hl'
  have hee : e0.history as = e'.history ys := by
    rw [has, ← hact, history_append]; rfl
  obtain ⟨k1, k2⟩ := history_keeps_address ys hl' g3
  rw [hee]
  exact ⟨k1, k2.trans g4⟩

/-- Reading another port is not affected. -/
theorem read_other {types : List NamedType} {rq pv : List NPort} {text : Str} {nd : NodeData}
    (hr : nd.Reachable types rq pv text) (g : FileData) (hg : nd.inFile = some g) (k : Nat) (r : PortRange)
    (hk : nd.inRanges[k]? = some r) (data : Bytes) (hd : data.length = r.len) (j : Int) (hj : j ≠ k) :
    (NodeData.readRequire { nd with inFile := some ⟨put g.data r.offset data⟩ } j).2 = (nd.readRequire j).2 := by
  have hin := (hr.wf.inC.get hk).2.2
  rw [hg] at hin
  simp only [fileBytes] at hin
  simp only [NodeData.readRequire]
  cases hlk : NodeData.lookupRange nd.inRanges j with
  | error x => rfl
  | ok s =>
    obtain ⟨k', rfl, hk'⟩ := (lookupRange_ok hr.wf.inC j s).mp hlk
    have hne : k' ≠ k := fun h => hj (by rw [h])
    have hdis : s.offset + s.len ≤ r.offset ∨ r.offset + r.len ≤ s.offset := by
      rcases Nat.lt_or_gt_of_ne hne with h | h
      · exact .inl (hr.wf.inC.disjoint hk' hk h)
      · exact .inr (hr.wf.inC.disjoint hk hk' h)
    have hread : FileData.read ⟨put g.data r.offset data⟩ s.offset s.len = g.read s.offset s.len := by
      unfold FileData.read
      simp only [put_length _ _ _ (show r.offset + data.length ≤ g.data.length by omega)]
      split
      · rfl
      · simp only [FileData.slice, Option.some.injEq, Int.toNat_natCast]
        rw [if_neg (by omega), if_neg (by omega), show ((s.offset : Int) + s.len - s.offset).toNat = s.len by omega]
        exact drop_take_put_other _ _ _ _ _ (by omega) (by omega)
    simp only [NodeData.unpackRequire, hg, hread]
    split
    · rfl
    · split
      · rfl
      · split
        · rfl
        · split <;> rfl

/-- The reader is told, and reads, what the server sends. -/
theorem sent_arrives {n : Node} {e0 : Endpoint H} (h0 : Endpoint.ofNode n = .ok e0) (as : List (Act H)) (a : Nat)
    (han : e0.Announced n as a) (hst : (e0.history as).stuck = false) (hlock : (e0.history as).node.locked = false)
    (hend : a + (fileBytes (e0.history as).node.inFile).length ≤ Rmf.cmdStartAddr)
    (k : Nat) (de : Elem) (hde : n.PortType .require k de) (off : Nat) (hoff : n.PortStart .require k off)
    (hlens : de.LensOk) (hnames : de.NamesOk) (hnest : de.NoNested) (len : Nat) (hlen : de.packLen = .ok len)
    (hpos : 0 < len) (v : PyVal) (hx : de.Exact v) (data : Bytes) (hlay : de.layout v = some data) (frame : Bytes)
    (hfr : DataFrame (a + off) data frame) :
    ∃ (R' : Endpoint H) (v' : PyVal), (e0.history as).receive frame = (R', none) ∧
      R'.calls = (e0.history as).calls ++ [(k, v')] ∧ R'.node.readRequire k = (R'.node, .ok v') ∧ v'.Same v ∧
      R'.stuck = false ∧ (∀ j : Int, j ≠ k → (R'.node.readRequire j).2 = ((e0.history as).node.readRequire j).2) ∧
      R'.node.locked = false ∧ (fileBytes R'.node.inFile).length = (fileBytes (e0.history as).node.inFile).length := by
  obtain ⟨p, hp, hde⟩ := hde
  obtain ⟨lens, hl, rfl⟩ := hoff
  obtain ⟨text, -, hr⟩ := client_reachable h0 as
  have hk : (n.requires.map Port.toNPort)[k]? = some p.toNPort := by
    rw [List.getElem?_map, show n.requires[k]? = some p from hp]; rfl
  obtain ⟨r, hr1, rfl, hdl⟩ := require_range hr hk hde hlen
  have hdl := hdl v data hlay
  have hro := portStart_range (C31_partition _ _ _ _ _ hr).1 hr1 (lens := lens) (by
    rw [← List.map_take, List.map_map]; exact hl)
  have hin := (hr.wf.inC.get hr1).2.2
  cases hf : (e0.history as).node.inFile with
  | none => rw [hf] at hin; simp only [fileBytes, List.length_nil] at hin; omega
  | some g =>
    rw [hf] at hin hend
    simp only [fileBytes] at hin hend
    obtain ⟨ho, ha⟩ := announced_open h0 han (by rw [hf]; rfl)
    rw [← hro] at hfr
    obtain ⟨m', hm⟩ := data_notifies h0 as hst g hf ho a ha hend r.offset data frame
      (by intro h; rw [h] at hdl; simp at hdl; omega) (by omega) hfr
    obtain ⟨v', t1, t2, t3⟩ := arrives hr hlock g hf k _ hk de hde hlens hnames hnest v hx r hr1 hpos data hlay hdl
    refine ⟨_, v', hm v' k t1, rfl, t2, t3, rfl, ?_, hlock, ?_⟩
    · intro j hj
      exact read_other hr g hf k r hr1 data hdl j hj
    · simp only [fileBytes]
      exact put_length _ _ _ (by omega)

/-! ### C94 -/

/-- C94: two clients made for nodes, after any histories.  The server has at some time opened the
provider's out-port data file and announced the reader's in-port data file; it has kept a copy of the
former up to date with the provider's messages and sends from it the bytes of provide port `i` to where
require port `k`, of the same type, begins in the reader's file.  Then the reader's client is called once,
for port `k`, with a value equal to the one last written; reading the port gives it; the other ports read
as before.  The reader must not be waiting for ever on its lock (C33); the type has no nested records and
is not empty. -/
theorem C94_forwarded (nP nR : Node) (P0 R0 P R : Endpoint H) (hP0 : Endpoint.ofNode nP = .ok P0)
    (hR0 : Endpoint.ofNode nR = .ok R0) (asP asR : List (Act H)) (hP : P = P0.history asP) (hR : R = R0.history asR)
    (hopen : P0.Opened asP) (a : Nat) (hann : R0.Announced nR asR a) (hst : R.stuck = false)
    (hlock : R.node.locked = false) (hend : a + (fileBytes R.node.inFile).length ≤ Rmf.cmdStartAddr)
    (i k : Nat) (de : Elem) (hi : nP.PortType .provide i de) (hk : nR.PortType .require k de) (offP offR : Nat)
    (hoffP : nP.PortStart .provide i offP) (hoffR : nR.PortStart .require k offR)
    (hlens : de.LensOk) (hnames : de.NamesOk) (hnest : de.NoNested) (len : Nat) (hlen : de.packLen = .ok len)
    (hpos : 0 < len) (v : PyVal) (hw : P0.LastWrite asP i v) (hx : de.Exact v) (copy : Bytes)
    (hcopy : copy.length = (fileBytes P.node.outFile).length) (frame : Bytes)
    (hfr : DataFrame (a + offR) (serverCopy copy P offP len) frame) :
    ∃ (R' : Endpoint H) (v' : PyVal), R.receive frame = (R', none) ∧ R'.calls = R.calls ++ [(k, v')] ∧
      R'.node.readRequire k = (R'.node, .ok v') ∧ v'.Same v ∧ R'.stuck = false ∧
      ∀ j : Int, j ≠ k → (R'.node.readRequire j).2 = (R.node.readRequire j).2 := by
  subst hP hR
  obtain ⟨data, hlay, hb⟩ := lastWrite_data hP0 hw hi hlens hnames (noNested_noEmpty de hnest)
  rw [serverCopy_port hP0 hopen hi hlen hpos hoffP copy hcopy] at hb
  cases hb
  obtain ⟨R', v', h1, h2, h3, h4, h5, h6, -⟩ := sent_arrives hR0 asR a hann hst hlock hend k de hk offR hoffR hlens hnames
    hnest len hlen hpos v hx _ hlay frame hfr
  exact ⟨R', v', h1, h2, h3, h4, h5, h6⟩

/-- C94: the same for a provide port that was never written, or to which every write raised: what arrives
is the value of the init value in the provider's definition (ASCII text, lists of the declared lengths). -/
theorem C94_initial (nP nR : Node) (P0 R0 P R : Endpoint H) (hP0 : Endpoint.ofNode nP = .ok P0)
    (hR0 : Endpoint.ofNode nR = .ok R0) (asP asR : List (Act H)) (hP : P = P0.history asP) (hR : R = R0.history asR)
    (hopen : P0.Opened asP) (a : Nat) (hann : R0.Announced nR asR a) (hst : R.stuck = false)
    (hlock : R.node.locked = false) (hend : a + (fileBytes R.node.inFile).length ≤ Rmf.cmdStartAddr)
    (i k : Nat) (p : Port) (hp : nP.provides[i]? = some p) (de : Elem) (hi : p.toNPort.type nP.named = .ok de)
    (hk : nR.PortType .require k de) (offP offR : Nat)
    (hoffP : nP.PortStart .provide i offP) (hoffR : nR.PortStart .require k offR)
    (hlens : de.LensOk) (hnames : de.NamesOk) (hnest : de.NoNested) (len : Nat) (hlen : de.packLen = .ok len)
    (hpos : 0 < len) (hno : P0.NoWrite asP i) (hfit : ∀ q ∈ nP.provides, q.toNPort.InitFits nP.named)
    (iv : InitVal) (hiv : p.toNPort.init = some iv) (hascii : iv.Ascii) (v : PyVal) (hden : de.Denotes iv v)
    (hx : de.Exact v) (copy : Bytes)
    (hcopy : copy.length = (fileBytes P.node.outFile).length) (frame : Bytes)
    (hfr : DataFrame (a + offR) (serverCopy copy P offP len) frame) :
    ∃ (R' : Endpoint H) (v' : PyVal), R.receive frame = (R', none) ∧ R'.calls = R.calls ++ [(k, v')] ∧
      R'.node.readRequire k = (R'.node, .ok v') ∧ v'.Same v ∧ R'.stuck = false ∧
      ∀ j : Int, j ≠ k → (R'.node.readRequire j).2 = (R.node.readRequire j).2 := by
  subst hP hR
  obtain ⟨data, hlay, hb⟩ := noWrite_data hP0 hno hfit hp hi hiv hascii hden hx
  rw [serverCopy_port hP0 hopen ⟨p, hp, hi⟩ hlen hpos hoffP copy hcopy] at hb
  cases hb
  obtain ⟨R', v', h1, h2, h3, h4, h5, h6, -⟩ := sent_arrives hR0 asR a hann hst hlock hend k de hk offR hoffR hlens hnames
    hnest len hlen hpos v hx _ hlay frame hfr
  exact ⟨R', v', h1, h2, h3, h4, h5, h6⟩

/-! A provider with a byte and a record, a reader with four bytes and the same record. -/

def fwRec : Str := "{\"x\"C\"y\"s}".toList

def fwP : Node := (Node.new ['P']).run
  [.addPort .provide ['A'] ['C'] none, .addPort .provide ['B'] fwRec (some "={7, 8}".toList), .finalize false false]

def fwR : Node := (Node.new ['R']).run
  [.addPort .require ['Q'] ['L'] none, .addPort .require ['B'] fwRec (some "={0, 0}".toList), .finalize false false]

def fwVal (x y : Int) : PyVal := .dict [(['x'], .int x), (['y'], .int y)]

/-- The server opens the provider's file; then the program writes both ports; its last write is of a value
that is not a record, and raises. -/
def fwHistP : List (Act Unit) :=
  [.connected (), .write 1 (fwVal 1 (-2)), .message ssOpen, .write 1 (fwVal 3 (-4)), .write 0 (.int 5), .write 1 (.int 0)]

def fwInfo : Rmf.FileInfo := ⟨"R.in".toList, 7, 0, some 256, 0, List.replicate 32 0⟩

def fwInfoMsg : Bytes :=
  [0xbf, 0xff, 0xfc, 0, 3, 0, 0, 0, 0, 1, 0, 0, 7, 0, 0, 0, 0, 0, 0, 0] ++ List.replicate 32 0 ++ [82, 46, 105, 110]

def fwHistR : List (Act Unit) := [.connected (), .message fwInfoMsg, .read 0, .message [1, 2, 9]]

def fwP0 : Py (Endpoint Unit) := Endpoint.ofNode fwP
def fwR0 : Py (Endpoint Unit) := Endpoint.ofNode fwR


def fwDe : Elem := .record (.cons (some ['x']) (.prim .u8 none none none) (.cons (some ['y']) (.prim .s16 none none none) .nil)) none

def fwCheckP (e : Endpoint Unit) : Bool :=
  decide ((e.history (fwHistP.take 2)).stuck = false) &&
  (match (e.history (fwHistP.take 3)).write 1 (fwVal 3 (-4)) with | (_, .ok ()) => true | _ => false) &&
  (match (e.history (fwHistP.take 5)).write 1 (.int 0) with | (_, .ok ()) => false | _ => true) &&
  decide (serverCopy [9, 9, 9, 9] (e.history fwHistP) 1 3 = [3, 252, 255]) &&
  decide ((fileBytes (e.history fwHistP).node.outFile).length = 4)

def fwCheckR (e : Endpoint Unit) : Bool :=
  let e1 := e.history (fwHistR.take 1)
  let e2 := e.history fwHistR
  decide ((fileBytes e1.node.inFile).length = 7 ∧ e1.stuck = false ∧ e1.inOpen = false ∧
    e2.stuck = false ∧ e2.node.locked = false ∧ (fileBytes e2.node.inFile).length = 7)

theorem fwP_checked : ∃ P0, Endpoint.ofNode fwP = .ok P0 ∧ fwCheckP P0 = true := by
  have : (match (Endpoint.ofNode fwP : Py (Endpoint Unit)) with | .ok e => fwCheckP e | .error _ => false) = true := by
    decide +kernel
  cases h : (Endpoint.ofNode fwP : Py (Endpoint Unit)) with
  | error x => rw [h] at this; cases this
  | ok e => rw [h] at this; exact ⟨e, rfl, this⟩

theorem fwR_checked : ∃ R0, Endpoint.ofNode fwR = .ok R0 ∧ fwCheckR R0 = true := by
  have : (match (Endpoint.ofNode fwR : Py (Endpoint Unit)) with | .ok e => fwCheckR e | .error _ => false) = true := by
    decide +kernel
  cases h : (Endpoint.ofNode fwR : Py (Endpoint Unit)) with
  | error x => rw [h] at this; cases this
  | ok e => rw [h] at this; exact ⟨e, rfl, this⟩

theorem fwPort (n : Node) (side : Side) (k : Nat) (de : Elem)
    (h : (match (n.ports side)[k]? with
      | some p => decide (p.toNPort.type n.named = .ok de)
      | none => false) = true) : n.PortType side k de := by
  cases hp : (n.ports side)[k]? with
  | none => rw [hp] at h; cases h
  | some p => rw [hp] at h; exact ⟨p, hp, by simpa using h⟩

theorem fwExact : fwDe.Exact (fwVal 3 (-4)) := by
  simp only [fwDe, fwVal, Elem.Exact, Fields.Exact, Fields.names]
  refine ⟨by decide, ?_, ⟨_, _, rfl, rfl, _, _, rfl, rfl, by decide⟩, ⟨_, _, rfl, rfl, _, _, rfl, rfl, by decide⟩, trivial⟩
  intro k
  simp only [List.lookup]
  by_cases h1 : k = ['x']
  · subst h1; simp
  · by_cases h2 : k = ['y']
    · subst h2; simp
    · simp [h1, h2, show (k == ['x']) = false by simp [h1], show (k == ['y']) = false by simp [h2]]

theorem fwP_history (P0 : Endpoint Unit) (hcP : fwCheckP P0 = true) :
    P0.Opened fwHistP ∧ P0.LastWrite fwHistP 1 (fwVal 3 (-4)) ∧
      (fileBytes (P0.history fwHistP).node.outFile).length = 4 := by
  simp only [fwCheckP, Bool.and_eq_true, decide_eq_true_eq] at hcP
  obtain ⟨⟨⟨⟨p1, p2⟩, p3⟩, p4⟩, p5⟩ := hcP
  have hopen : P0.Opened fwHistP :=
    ⟨fwHistP.take 2, ssOpen, fwHistP.drop 3, rfl,
      ⟨ssOpen.drop 4, by decide +kernel, ssOpen.take 4, false, by decide +kernel, by decide +kernel⟩, p1⟩
  have hw : P0.LastWrite fwHistP 1 (fwVal 3 (-4)) := by
    refine ⟨fwHistP.take 3, [.write 0 (.int 5), .write 1 (.int 0)], rfl, ?_, ?_⟩
    · show ((P0.history (fwHistP.take 3)).write 1 _).2 = _
      generalize (P0.history (fwHistP.take 3)).write 1 _ = r at p2
      obtain ⟨e, o⟩ := r
      cases o with
      | ok u => rfl
      | raised x => cases p2
      | blocked => cases p2
    · intro xs u ys h
      cases xs with
      | nil => simp at h
      | cons a xs =>
        cases xs with
        | nil =>
          simp only [List.cons_append, List.nil_append, List.cons.injEq, Act.write.injEq] at h
          obtain ⟨rfl, ⟨-, rfl⟩, -⟩ := h
          change ((P0.history (fwHistP.take 5)).write 1 _).2 ≠ _
          generalize (P0.history (fwHistP.take 5)).write 1 _ = r at p3
          obtain ⟨e, o⟩ := r
          cases o with
          | ok u => cases p3
          | raised x => simp
          | blocked => simp
        | cons b xs => simp at h
  exact ⟨hopen, hw, p5⟩

/-- All hypotheses of `C94_forwarded` hold: the record last written arrives. -/
example : ∃ P0 R0 : Endpoint Unit, Endpoint.ofNode fwP = .ok P0 ∧ Endpoint.ofNode fwR = .ok R0 ∧
    ∃ (R' : Endpoint Unit) (v' : PyVal), (R0.history fwHistR).receive [1, 4, 3, 252, 255] = (R', none) ∧
      R'.calls = (R0.history fwHistR).calls ++ [(1, v')] ∧ v'.Same (fwVal 3 (-4)) := by
  obtain ⟨P0, hP0, hcP⟩ := fwP_checked
  obtain ⟨R0, hR0, hcR⟩ := fwR_checked
  refine ⟨P0, R0, hP0, hR0, ?_⟩
  obtain ⟨hopen, hw, -⟩ := fwP_history P0 hcP
  simp only [fwCheckP, Bool.and_eq_true, decide_eq_true_eq] at hcP
  obtain ⟨⟨⟨⟨p1, p2⟩, p3⟩, p4⟩, p5⟩ := hcP
  simp only [fwCheckR, decide_eq_true_eq] at hcR
  obtain ⟨r1, r2, r3, r4, r5, r6⟩ := hcR
  have hann : R0.Announced fwR fwHistR 256 :=
    ⟨fwHistR.take 1, fwInfo, fwInfoMsg, fwHistR.drop 2, rfl,
      ⟨fwInfoMsg.drop 4, by decide +kernel, fwInfoMsg.take 4, false, by decide +kernel, by decide +kernel⟩,
      ⟨⟨256, rfl, by decide⟩, by decide, by decide, by decide, by decide, by decide⟩,
      by decide +kernel, rfl, by rw [r1]; rfl, r2, r3⟩
  obtain ⟨R', v', h1, h2, -, h4, -⟩ := C94_forwarded fwP fwR P0 R0 _ _ hP0 hR0 fwHistP fwHistR rfl rfl hopen 256 hann r4 r5
    (by rw [r6]; decide) 1 1 fwDe (fwPort _ _ _ _ (by decide +kernel)) (fwPort _ _ _ _ (by decide +kernel)) 1 4
    ⟨[1], by decide +kernel, rfl⟩ ⟨[4], by decide +kernel, rfl⟩
    (by simp [fwDe, Elem.LensOk, Fields.LensOk]) (by simp [fwDe, Elem.NamesOk, Fields.NamesOk])
    (by simp [fwDe, Elem.NoNested, Fields.AllFlat, Elem.IsFlat]) 3 (by decide +kernel) (by decide) (fwVal 3 (-4)) hw
    fwExact [9, 9, 9, 9] (by rw [p5]; rfl) [1, 4, 3, 252, 255]
    (by rw [p4]; exact ⟨[1, 4], by decide +kernel, rfl⟩)
  exact ⟨R', v', h1, h2, h4⟩

/-- The further hypotheses of `C94_initial` hold for the record, whose init value is `{7, 8}`. -/
example : ∃ p, fwP.provides[1]? = some p ∧ p.toNPort.init = some (.list [.int 7, .int 8]) ∧
    fwDe.Denotes (.list [.int 7, .int 8]) (fwVal 7 8) ∧ (InitVal.list [.int 7, .int 8]).Ascii := by
  have h : (match fwP.provides[1]?.bind (fun p => p.toNPort.init) with
      | some (.list [.int 7, .int 8]) => true
      | _ => false) = true := by decide +kernel
  cases hp : fwP.provides[1]? with
  | none => rw [hp] at h; cases h
  | some p =>
    rw [hp] at h
    simp only [Option.bind_some] at h
    split at h
    · rename_i hq
      exact ⟨p, rfl, hq, by simp [fwDe, fwVal, Elem.Denotes, Fields.Denotes, List.lookup],
        by simp [InitVal.Ascii, InitVal.AsciiList]⟩
    · cases h

end Apx
