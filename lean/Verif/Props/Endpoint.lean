import Verif.Model.Endpoint
import Verif.Props.NodeData
import Verif.Props.FileManager

/-! C55: a written value arrives at a connected reader. -/

namespace Apx

/-- Provide ports on one side and require ports on the other side with the same types, one by one. -/
def SameTypes (typesP : List NamedType) (pv : List NPort) (typesR : List NamedType) (rq : List NPort) : Prop :=
  pv.map (NPort.type typesP) = rq.map (NPort.type typesR)

theorem sameTypes_ranges {typesP typesR : List NamedType} (pv rq : List NPort) :
    ∀ (rs rs' : List PortRange) (cs bs cs' bs' : List Bytes) (off k stop stop' : Nat),
      SameTypes typesP pv typesR rq → PortsOk .pack typesP pv rs cs bs → PortsOk .unpack typesR rq rs' cs' bs' →
      Consecutive off k rs stop → Consecutive off k rs' stop' → rs = rs' := by
  induction pv generalizing rq with
  | nil =>
    intro rs rs' cs bs cs' bs' off k stop stop' hs h1 h2 _ _
    have : rq = [] := by simpa [SameTypes] using hs.symm
    subst this
    cases rs <;> cases cs <;> cases bs <;> simp [PortsOk] at h1
    cases rs' <;> cases cs' <;> cases bs' <;> simp [PortsOk] at h2
    rfl
  | cons p pv ih =>
    intro rs rs' cs bs cs' bs' off k stop stop' hs h1 h2 hc hc'
    cases rq with
    | nil => simp [SameTypes] at hs
    | cons q rq =>
      simp only [SameTypes, List.map_cons, List.cons.injEq] at hs
      cases rs <;> cases cs <;> cases bs <;> simp only [PortsOk] at h1
      cases rs' <;> cases cs' <;> cases bs' <;> simp only [PortsOk] at h2
      rename_i r rs c cs b bs r' rs' c' cs' b' bs'
      obtain ⟨e, de, e1, e2, e3, e4, _⟩ := h1.1.ex
      obtain ⟨e', de', f1, f2, f3, f4, _⟩ := h2.1.ex
      have hde : de = de' := by
        have := hs.1
        simp only [NPort.type, e1, f1, ok_bind, e2, f2, Except.ok.injEq] at this
        exact this
      subst hde
      have hl := port_len e2 e3 e4
      have hl' := port_len f2 f3 f4
      rw [hl] at hl'
      have hlen : r.len = r'.len := Except.ok.inj hl'
      have hr : r = r' := by
        obtain ⟨o, l, i⟩ := r
        obtain ⟨o', l', i'⟩ := r'
        obtain ⟨a1, a2, _⟩ := hc
        obtain ⟨b1, b2, _⟩ := hc'
        simp only at a1 a2 b1 b2 hlen
        subst a1 a2 b1 b2 hlen
        rfl
      subst hr
      rw [ih rq rs rs' cs bs cs' bs' _ _ _ _ hs.2 h1.2 h2.2 hc.2.2 hc'.2.2]

/-- Of consecutive ranges only the one that is written overlaps the write. -/
theorem filter_own {ranges : List PortRange} {k stop : Nat} {off : Nat} (h : Consecutive off k ranges stop) :
    ∀ (i : Nat) (r : PortRange), ranges[i]? = some r → 0 < r.len →
      ranges.filter (PortRange.overlapsB r.offset r.len) = [r] := by
  intro i r hi hpos
  have hmem : r ∈ ranges := List.mem_of_getElem? hi
  have hsplit : ranges = ranges.take i ++ r :: ranges.drop (i + 1) := by
    obtain ⟨hlt, rfl⟩ := List.getElem?_eq_some_iff.mp hi
    rw [List.getElem_cons_drop, List.take_append_drop]
  have hno : ∀ s, s ∈ ranges.take i ∨ s ∈ ranges.drop (i + 1) → PortRange.overlapsB r.offset r.len s = false := by
    intro s hs
    have : r.offset + r.len ≤ s.offset ∨ s.offset + s.len ≤ r.offset := by
      rcases hs with hs | hs
      · obtain ⟨j, hj, hsj⟩ := List.getElem_of_mem hs
        have hj' : j < i := by simp at hj; omega
        refine .inr (h.disjoint (i := j) (j := i) ?_ hi hj')
        rw [← hsj, List.getElem_take]
        exact List.getElem?_eq_getElem _
      · obtain ⟨j, hj, hsj⟩ := List.getElem_of_mem hs
        refine .inl (h.disjoint (i := i) (j := i + 1 + j) hi ?_ (by omega))
        rw [← hsj, List.getElem_drop]
        exact List.getElem?_eq_getElem _
    simp only [PortRange.overlapsB, decide_eq_false_iff_not]
    omega
  conv => lhs; rw [hsplit]
  rw [List.filter_append, List.filter_cons]
  have hr : PortRange.overlapsB r.offset r.len r = true := by
    simp only [PortRange.overlapsB, decide_eq_true_eq]; omega
  rw [if_pos hr, List.filter_eq_nil_iff.mpr fun s hs => by simp [hno s (.inl hs)],
    List.filter_eq_nil_iff.mpr fun s hs => by simp [hno s (.inr hs)]]
  rfl

/-- What the reader's node data does when a value written by the provider arrives. -/
theorem arrives {types : List NamedType} {rq pv : List NPort} {text : Str} {nd : NodeData}
    (hr : nd.Reachable types rq pv text) (hl : nd.locked = false) (f : FileData) (hf : nd.inFile = some f)
    (k : Nat) (p : NPort) (hk : rq[k]? = some p) (de : Elem) (hde : p.type types = .ok de) (hlens : de.LensOk)
    (hnames : de.NamesOk) (hnest : de.NoNested) (v : PyVal) (hx : de.Exact v) (r : PortRange)
    (hrk : nd.inRanges[k]? = some r) (hpos : 0 < r.len) (data : Bytes) (hlay : de.layout v = some data)
    (hdl : data.length = r.len) :
    ∃ v', NodeData.inPortNotify { nd with inFile := some ⟨put f.data r.offset data⟩ } true r.offset data.length =
        ({ nd with inFile := some ⟨put f.data r.offset data⟩ }, [(k, v')], .ok ()) ∧
      NodeData.readRequire { nd with inFile := some ⟨put f.data r.offset data⟩ } k =
        ({ nd with inFile := some ⟨put f.data r.offset data⟩ }, .ok v') ∧ v'.Same v := by
  have hin := (hr.wf.inC.get hrk).2.2
  rw [hf] at hin
  simp only [fileBytes] at hin
  have hfit : r.offset + data.length ≤ f.data.length := by omega
  have hnew : ({ nd with inFile := some ⟨put f.data r.offset data⟩ } : NodeData) =
      nd.run [.remote false r.offset data false] := by
    simp only [NodeData.run, NodeData.step, NodeData.remoteWrite, hf, FileData.inputWrite]
    rw [FileData.write_fits _ _ _ hfit]
    simp only [put]
    unfold NodeData.afterRemote
    split
    · rfl
    · simp [NodeData.inPortNotify]
  have hr' := run_reachable hr [.remote false r.offset data false]
  rw [← hnew] at hr'
  generalize hN : ({ nd with inFile := some ⟨put f.data r.offset data⟩ } : NodeData) = new at hr' ⊢
  have hR : new.inRanges = nd.inRanges := by rw [← hN]
  have hF : new.inFile = some ⟨put f.data r.offset data⟩ := by rw [← hN]
  have hL : new.locked = false := by rw [← hN]; exact hl
  have hb : portBytes new.inRanges new.inFile k = some data := by
    simp only [portBytes, hR, hrk, Option.map_some, hF, fileBytes, Option.some.injEq]
    rw [← hdl]
    exact drop_take_put_same _ _ _ hfit
  obtain ⟨v', h1, h2⟩ := read_layout hr'.wf hL k p hk de hde hlens hnames hnest v hx data hlay (by rw [hF]; rfl) hb
  refine ⟨v', ?_, h1, h2⟩
  have hports := (C34_ports types rq pv text new hr' r.offset data.length).1 (by
    rw [hF]; simp only [fileBytes]; rw [put_length _ _ _ hfit]; exact hfit)
  rw [hR, hdl, filter_own hr.wf.inC k r hrk hpos] at hports
  have hid : r.id = k := by have := (hr.wf.inC.get hrk).1; omega
  have hun : new.unpackRequire r = (new, .ok v') := by
    unfold NodeData.readRequire at h1
    rw [(lookupRange_ok hr'.wf.inC k r).mpr ⟨k, rfl, by rw [hR]; exact hrk⟩] at h1
    exact h1
  unfold NodeData.inPortNotify
  rw [if_pos rfl, hdl, hports]
  simp only [NodeData.notifyLoop, hun, hid]

theorem overwrites_put {old new data : Bytes} {off : Nat} (h : Manager.Overwrites old off data new) :
    new = put old off data := by
  obtain ⟨h1, h2, h3⟩ := h
  apply List.ext_getElem?
  intro k
  rw [h3 k]
  unfold put
  by_cases hk : off ≤ k ∧ k < off + data.length
  · rw [if_pos hk, List.append_assoc, List.getElem?_append_right (by simp; omega),
      List.getElem?_append_left (by simp; omega)]
    congr 1
    simp; omega
  · rw [if_neg hk]
    by_cases hk2 : k < off
    · rw [List.append_assoc, List.getElem?_append_left (by simp; omega), List.getElem?_take, if_pos hk2]
    · rw [List.getElem?_append_right (by simp; omega), List.getElem?_drop]
      congr 1
      simp; omega

theorem each_frame_unique {H : Type} {msgs : List (Manager.Msg H)} {fs fs' : List Bytes}
    (h : Manager.Each Manager.FrameOf msgs fs) (h' : Manager.Each Manager.FrameOf msgs fs') : fs = fs' := by
  induction h generalizing fs' with
  | nil => cases h'; rfl
  | cons hf _ ih =>
    cases h' with
    | cons hf' t' =>
      rw [ih t']
      congr 1
      cases hf <;> cases hf' <;> simp_all

theorem cmdStart_lt : Rmf.cmdStartAddr < 1073741824 := by decide

theorem header_pos {n : Nat} {hdr : Bytes} (hmax : n < 1073741824) (hh : Rmf.packHeader (n : Int) false = .ok hdr) :
    0 < hdr.length := by
  have h6 := Rmf.C06_header_length (n : Int) false
  by_cases hc : (n : Int) < 16384
  · obtain ⟨b1, b2, h7⟩ := h6.1 hc
    rw [hh] at h7; cases h7; simp
  · obtain ⟨b1, b2, b3, b4, h7⟩ := h6.2.1 (by omega) (by omega)
    rw [hh] at h7; cases h7; simp

theorem worker_one {H : Type} (h : H) {x : Int} {data hdr : Bytes} (hh : Rmf.packHeader x false = .ok hdr) :
    Manager.worker (some h) [.writeData x data] = ([(h, hdr ++ data)], none) := by
  simp only [Manager.worker, hh]

/-- C55, the part that holds. A provider writes `v` to provide port `k` of its node, whose out-port data
file is open in its file manager. The reader has an in-port data file of the same ports mapped at the
same address. Then exactly one message is queued, which the worker sends as one frame, and however the
frame is cut into chunks on the way, when it has arrived the reader's client has been called exactly
once, for require port `k` and with a value equal to `v`, and reading that port gives the value.

Assumed: the port's type has no nested records, its array lengths can be encoded and it is not empty,
`v` is a value that the type represents exactly; neither node's lock has been leaked (C33). -/
theorem C55_arrives_partial {H : Type}
    -- the provider
    (typesP : List NamedType) (rqP pvP : List NPort) (textP : Str) (P : Endpoint H)
    (hP : P.node.Reachable typesP rqP pvP textP)
    (isLocalP : Nat → Bool) (filesP : List Manager.FObj) (hfP : Manager.Fresh filesP) (boP : Char)
    (opsP : List (Manager.Op H)) (hopsP : ∀ op ∈ opsP, op.Respects isLocalP)
    (hmP : P.mgr = Manager.run (Manager.start filesP boP) opsP) (hlP : isLocalP P.outFile = true)
    (oP : Manager.FObj) (hoP : P.mgr.files[P.outFile]? = some oP) (hkP : oP.kind = .output)
    (hopenP : oP.isOpen = true) (hcP : P.node.outFile = some oP.content)
    -- its connection
    (h : H) (before sent : List (Manager.Msg H)) (hq : P.mgr.queue = before ++ .connect h :: sent)
    (hb : ∀ m ∈ before, m.Sendable) (hs : ∀ m ∈ sent, m.Sendable)
    -- the reader
    (typesR : List NamedType) (rqR pvR : List NPort) (textR : Str) (R : Endpoint H)
    (hR : R.node.Reachable typesR rqR pvR textR) (hstuck : R.stuck = false) (hlock : R.node.locked = false)
    (isLocalR : Nat → Bool) (filesR : List Manager.FObj) (hfR : Manager.Fresh filesR) (boR : Char)
    (opsR : List (Manager.Op H)) (hopsR : ∀ op ∈ opsR, op.Respects isLocalR)
    (hndR : (opsR.filterMap Manager.Op.requests).Nodup)
    (hmR : R.mgr = Manager.run (Manager.start filesR boR) opsR)
    (hdis : R.mgr.remoteMap.ids.Pairwise fun i j => FileMap.Disjoint (Manager.ent R.mgr.files i) (Manager.ent R.mgr.files j))
    (hpos : ∀ i ∈ R.mgr.remoteMap.ids, 0 < (Manager.ent R.mgr.files i).length)
    (hmem : R.inFile ∈ R.mgr.remoteMap.ids) (oR : Manager.FObj) (hoR : R.mgr.files[R.inFile]? = some oR)
    (hkR : oR.kind = .input) (hhR : oR.hasHandler = true) (hcR : R.node.inFile = some oR.content)
    -- both
    (hsame : SameTypes typesP pvP typesR rqR) (haddr : oP.address = oR.address)
    (a : Nat) (ha : oR.address = some (a : Int)) (hend : a + oR.length ≤ Rmf.cmdStartAddr)
    -- the write
    (k : Nat) (p : NPort) (hp : pvP[k]? = some p) (de : Elem) (hde : p.type typesP = .ok de) (hlens : de.LensOk)
    (hnames : de.NamesOk) (hnest : de.NoNested) (n : Nat) (hn : de.packLen = .ok n) (hn0 : 0 < n)
    (v : PyVal) (hx : de.Exact v) (P' : Endpoint H) (hw : P.write k v = (P', .ok ())) :
    ∃ (msg : Manager.Msg H) (frame : Bytes), P'.mgr.queue = P.mgr.queue ++ [msg] ∧
      Manager.worker none P'.mgr.queue =
        ((Manager.worker none P.mgr.queue).1 ++ [(h, frame)], (Manager.worker none P.mgr.queue).2) ∧
      ∀ stream, Socket.sendAll [frame] = .ok stream → ∀ cs, Socket.Chunking stream cs →
        ∃ R' v', Socket.worker (Endpoint.handler h) (⟨true, true, R⟩, .waiting []) cs =
            (⟨true, true, R'⟩, .waiting []) ∧
          R'.calls = R.calls ++ [(k, v')] ∧ R'.node.readRequire k = (R'.node, .ok v') ∧ v'.Same v := by
  unfold Endpoint.write at hw
  split at hw
  · cases hw
  · cases hw
  rename_i nd off data hwp
  obtain ⟨k', p', r, data', de', c1, c2, c3, c4, c5, c6, c7, c8, c9, c10, c11, -⟩ := C32_write _ _ _ _ _ _ hP _ _ _ hwp
  have hkk : k' = k := by omega
  subst hkk
  rw [hp] at c2
  cases c2
  rw [hde] at c5
  cases c5
  cases c4
  have hlay := c7 hlens hnames (noNested_noEmpty de hnest)
  -- ranges of both sides agree
  obtain ⟨bsP, hpP⟩ := hP.wf.outP
  obtain ⟨bsR, hpR⟩ := hR.wf.inP
  have hranges : P.node.outRanges = R.node.inRanges :=
    sameTypes_ranges pvP rqR _ _ _ _ _ _ _ _ _ _ hsame hpP hpR hP.wf.outC hR.wf.inC
  have hrk : R.node.inRanges[k']? = some r := by rw [← hranges]; exact c3
  obtain ⟨q, hqk, hqt⟩ : ∃ q, rqR[k']? = some q ∧ q.type typesR = .ok de := by
    have h1 : (pvP.map (NPort.type typesP))[k']? = some (.ok de) := by
      rw [List.getElem?_map, hp]; simp [hde]
    rw [hsame, List.getElem?_map, Option.map_eq_some_iff] at h1
    exact h1
  have hrlen : r.len = n := by
    obtain ⟨r', c, b, g1, -, -, g4⟩ := hpP.get hp
    rw [c3] at g1
    cases g1
    obtain ⟨e, de2, e1, e2, e3, e4, _⟩ := g4.ex
    have : de2 = de := by
      have := hde
      simp only [NPort.type, e1, ok_bind, e2, Except.ok.injEq] at this
      exact this
    subst this
    have := port_len e2 e3 e4
    rw [hn] at this
    exact (Except.ok.inj this).symm
  have hpb := c6
  have hfileR : r.offset + r.len ≤ oR.length := by
    have := (hR.wf.inC.get hrk).2.2
    rw [hcR] at this
    exact this
  have hfileP : r.offset + r.len ≤ oP.length := by
    have := (hP.wf.outC.get c3).2.2
    rw [hcP] at this
    exact this
  have hdl : data.length = r.len := by
    obtain ⟨r', c, b, g1, -, -, g4⟩ := hpP.get hp
    obtain ⟨e, de2, e1, e2, e3, e4, _⟩ := g4.ex
    have : de2 = de := by
      have := hde
      simp only [NPort.type, e1, ok_bind, e2, Except.ok.injEq] at this
      exact this
    subst this
    obtain ⟨code, m, hc, -⟩ := compileProg_inv e4
    have h1 := Elem.layout_length' de2 code m hc v data hlay
    obtain ⟨ls, h4, h5⟩ := de2.compile_leaves code m hc
    have h6 := packLen_leaves de2 ls h4
    rw [hn] at h6
    cases h6
    rw [h1, hrlen, h5]
  -- the provider's manager
  obtain ⟨a', m', e, ret, g1, g2, g3, -⟩ := Manager.C39_write_queues isLocalP filesP hfP boP opsP hopsP P.mgr hmP
    P.outFile hlP oP hoP hkP hopenP r.offset data
  rw [haddr, ha] at g1
  cases g1
  obtain ⟨g4, -, g5, -⟩ := g3 ⟨by omega, by rw [hdl]; exact_mod_cast hfileP⟩
  subst g4
  rw [g2] at hw
  simp only [Prod.mk.injEq, and_true] at hw
  subst hw
  have hmax : a + r.offset < 1073741824 := by
    have := cmdStart_lt
    omega
  obtain ⟨hdr, hh, hun⟩ := Rmf.C05_header_roundtrip_exact (a + r.offset) false hmax
  have hne : data ≠ [] := by
    intro h0
    rw [h0] at hdl
    simp at hdl
    omega
  have hun := hun data
  rw [if_neg (fun hc => hne hc.2)] at hun
  have hlen : 0 < hdr.length := header_pos hmax hh
  have hcmd : a + r.offset < Rmf.cmdStartAddr := by omega
  have hh' : Rmf.packHeader ((a : Int) + r.offset) false = .ok hdr := by
    rw [← hh, Int.natCast_add]
  refine ⟨.writeData (a + r.offset) data, hdr ++ data, g5, ?_, ?_⟩
  · obtain ⟨frames, f1, f2⟩ := Manager.worker_sends h sent [] hs
    obtain ⟨frames', f1', f2'⟩ := Manager.worker_sends h sent [.writeData (a + r.offset) data] hs
    rw [g5, hq, List.append_assoc, Manager.worker_dropped before _ hb, Manager.worker_dropped before _ hb]
    simp only [List.cons_append, Manager.worker]
    rw [List.append_nil] at f2
    rw [f2', f2, each_frame_unique f1 f1']
    rw [worker_one h hh']
    have hnil : Manager.worker (some h) [] = ([], none) := rfl
    simp [hnil]
  intro stream hst cs hcs
  have hrec : ∃ R' v', Endpoint.receive R (hdr ++ data) = (R', none) ∧ R'.calls = R.calls ++ [(k', v')] ∧
      R'.node.readRequire k' = (R'.node, .ok v') ∧ v'.Same v := by
    obtain ⟨s', o', q1, q2, q3⟩ := Manager.C36_accepted isLocalR filesR hfR boR opsR hopsR hndR R.mgr hmR hdis hpos
      R.inFile hmem oR hoR hkR (hdr ++ data) hdr.length (a + r.offset) false a r.offset hun hlen hcmd ha
      (by omega) (by omega) (by rw [List.drop_left]; omega)
    rw [List.drop_left] at q1 q3
    rw [if_pos ⟨rfl, hhR⟩] at q1
    have hput : o'.content = ⟨put oR.content.data r.offset data⟩ := by
      have := overwrites_put q3
      cases ho : o'.content
      rw [ho] at this
      rw [← this]
    obtain ⟨v', t1, t2, t3⟩ := arrives hR hlock oR.content hcR k' q hqk de hqt hlens hnames hnest v hx r hrk (by omega)
      data hlay hdl
    refine ⟨⟨s', { R.node with inFile := some ⟨put oR.content.data r.offset data⟩ }, R.inFile, R.outFile,
      R.calls ++ [(k', v')], R.stuck⟩, v', ?_, rfl, t2, t3⟩
    unfold Endpoint.receive
    rw [hstuck, q1]
    simp only [Endpoint.notify, Endpoint.withFile, q2, hcR, hput, Option.isSome_some, if_true, Int.toNat_natCast,
      Bool.false_eq_true, if_false, t1]
  obtain ⟨R', v', h1, h2, h3, h4⟩ := hrec
  refine ⟨R', v', ?_, h2, h3, h4⟩
  rw [Socket.C11_any_handler (Endpoint.handler h) R [hdr ++ data] stream hst cs hcs]
  have : Socket.deliverAll (Endpoint.handler h) R [hdr ++ data] = (R', none) := by
    simp only [Socket.deliverAll, Endpoint.handler, h1]
  rw [this]

/-! ### Example and the part that fails -/

/-- The file info command announcing `n.out` of `len` bytes at address 0. -/
def epInfo (len : UInt8) : Bytes :=
  [0xbf, 0xff, 0xfc, 0, 3, 0, 0, 0, 0, 0, 0, 0, len, 0, 0, 0, 0, 0, 0, 0] ++ List.replicate 32 0 ++
    [110, 46, 111, 117, 116]

/-- The command opening the file at address 0. -/
def epOpen : Bytes := [0xbf, 0xff, 0xfc, 0, 10, 0, 0, 0, 0, 0, 0, 0]

def epProviderOps : List (Manager.Op Unit) := [.attach 0, .connected (), .message epOpen]
def epReaderOps (len : UInt8) : List (Manager.Op Unit) := [.request 0, .connected (), .message (epInfo len)]

def epProviderFiles (c : FileData) : List Manager.FObj := [.create .output "n.out".toList c]
def epReaderFiles (c : FileData) : List Manager.FObj := [.create .input "n.out".toList c true]

def epProvider (types : List NamedType) (pv : List NPort) : Option (Endpoint Unit) :=
  match NodeData.build types [] pv [] with
  | .ok nd => nd.outFile.map fun c => ⟨Manager.run (Manager.start (epProviderFiles c) '<') epProviderOps, nd, 7, 0, [], false⟩
  | .error _ => none

def epReader (types : List NamedType) (rq : List NPort) (len : UInt8) : Option (Endpoint Unit) :=
  match NodeData.build types rq [] [] with
  | .ok nd => nd.inFile.map fun c =>
      ⟨Manager.run (Manager.start (epReaderFiles c) '<') (epReaderOps len), nd, 0, 7, [], false⟩
  | .error _ => none

/-- Writes `v` to provide port `k` and hands the frames that this adds to the reader, in chunks of three
bytes: the values the reader's client is called with, the value read, how the receive thread stands. -/
def epRun (P R : Option (Endpoint Unit)) (k : Nat) (v : PyVal) :
    Option (List (Nat × PyVal) × Outcome PyVal × Bool × Outcome Unit) :=
  match P, R with
  | some P, some R =>
    let w := P.write k v
    let frames := ((Manager.worker none w.1.mgr.queue).1.drop (Manager.worker none P.mgr.queue).1.length).map (·.2)
    match Socket.sendAll frames with
    | .error _ => none
    | .ok stream =>
      let s := Socket.worker (Endpoint.handler ()) (⟨true, true, R⟩, .waiting []) [stream.take 3, stream.drop 3]
      some (s.1.handler.calls, (s.1.handler.node.readRequire k).2, s.2 = .waiting [], w.2)
  | _, _ => none

/-- `P"p"C`, `P"q"T[0]`, `P"r"S`, read as `R"a"C`, `R"b"T["Point"]`, `R"c"S`. -/
def epRq : List NPort :=
  [⟨"a".toList, some 0, .prim .u8 none none none, none⟩,
   ⟨"b".toList, some 1, .refName "Point".toList, none⟩,
   ⟨"c".toList, some 2, .prim .u16 none none none, none⟩]

example : SameTypes ndTypes ndPv ndTypes epRq := rfl

example : epRun (epProvider ndTypes ndPv) (epReader ndTypes epRq 6) 1
    (.dict [("x".toList, .int 200), ("y".toList, .int (-300))]) =
      some ([(1, .dict [("x".toList, .int 200), ("y".toList, .int (-300))])],
        .ok (.dict [("x".toList, .int 200), ("y".toList, .int (-300))]), true, .ok ()) := by decide +kernel

/-- The hypotheses about the two managers hold: the file is open on both sides at the same address. -/
example : (∀ op ∈ epProviderOps, op.Respects fun i => i == 0) ∧
    (∀ op ∈ epReaderOps 6, op.Respects fun i => i != 0) ∧ ((epReaderOps 6).filterMap Manager.Op.requests).Nodup := by
  refine ⟨?_, ?_, by decide +kernel⟩ <;> intro op h <;>
    simp only [epProviderOps, epReaderOps, List.mem_cons, List.not_mem_nil, or_false] at h <;>
    rcases h with rfl | rfl | rfl <;> simp [Manager.Op.Respects]

def epHyps : Bool :=
  match epProvider ndTypes ndPv, epReader ndTypes epRq 6 with
  | some P, some R =>
    decide (P.mgr.files[0]?.map (fun o => (o.address, o.isOpen, some o.content)) = some (some 0, true, P.node.outFile)) &&
    decide (R.mgr.files[0]?.map (fun o => (o.address, o.isOpen, some o.content)) = some (some 0, true, R.node.inFile)) &&
    decide (R.mgr.remoteMap.ids = [0]) && !R.node.locked
  | _, _ => false

example : epHyps = true := by decide +kernel

/-- `{"a"{"b"C}}` -/
def epNested : Elem :=
  .record (.cons (some "a".toList) (.record (.cons (some "b".toList) (.prim .u8 none none none) .nil) none) .nil) none

/-- What happens with such a port: the value is written, sent and stored, but the reader's receive thread ends with an
exception, its client is not called and the port cannot be read, now because the lock has been leaked. -/
example :
    epRun (epProvider [] [⟨"p".toList, some 0, epNested, none⟩]) (epReader [] [⟨"a".toList, some 0, epNested, none⟩] 1) 0
      (.dict [("a".toList, .dict [("b".toList, .int 5)])]) = some ([], .blocked, false, .ok ()) := by
  decide +kernel

/-- A port with a record in a record cannot be read, whatever its bytes. -/
theorem nested_unreadable {types : List NamedType} {rq pv : List NPort} {nd : NodeData}
    (hw : nd.Wf types rq pv) (hl : nd.locked = false) (k : Nat) (p : NPort) (hk : rq[k]? = some p) (de : Elem)
    (hde : p.type types = .ok de) (hnames : de.NamesOk) (hnest : ¬de.NoNested) (hf : nd.inFile.isSome) (r : PortRange)
    (hrk : nd.inRanges[k]? = some r) :
    ∃ x, nd.unpackRequire r = ({ nd with locked := true }, .raised x) := by
  obtain ⟨bb, hp⟩ := hw.inP
  obtain ⟨r', c, b, h1, h2, _, h4⟩ := hp.get hk
  rw [hrk] at h1
  cases h1
  obtain ⟨e, de', e1, e2, e3, e4, _⟩ := h4.ex
  have : de' = de := by
    simp only [NPort.type, e1, ok_bind, e2, Except.ok.injEq] at hde
    exact hde
  subst this
  have hid : r.id = k := by have := (hw.inC.get hrk).1; omega
  obtain ⟨f, hf⟩ := Option.isSome_iff_exists.mp hf
  have hin := (hw.inC.get hrk).2.2
  rw [hf] at hin
  simp only [fileBytes] at hin
  obtain ⟨d, hread, _⟩ := (FileData.C19_read f (r.offset : Int) r.len).1 ⟨by omega, by omega⟩
  obtain ⟨x, hx⟩ := C26_nested_violated de' c e4 hnames hnest d 0
  refine ⟨x, ?_⟩
  simp only [NodeData.unpackRequire, hid, h2, hf, hread, hl, hx]
  rfl

/-- C55 fails for every port with a record in a record: whatever data a peer sends for it is stored, but the reader's
client is not called, the receive thread ends with an exception whatever other messages follow, and from then on no port
of the node can be read or written, whatever happens. -/
theorem C55_nested_violated {H : Type} (h : H) (types : List NamedType) (rq pv : List NPort) (text : Str)
    (R : Endpoint H) (hR : R.node.Reachable types rq pv text) (hstuck : R.stuck = false)
    (hlock : R.node.locked = false)
    (isLocal : Nat → Bool) (files : List Manager.FObj) (hf : Manager.Fresh files) (bo : Char)
    (ops : List (Manager.Op H)) (hops : ∀ op ∈ ops, op.Respects isLocal)
    (hnd : (ops.filterMap Manager.Op.requests).Nodup)
    (hm : R.mgr = Manager.run (Manager.start files bo) ops)
    (hdis : R.mgr.remoteMap.ids.Pairwise fun i j => FileMap.Disjoint (Manager.ent R.mgr.files i) (Manager.ent R.mgr.files j))
    (hpos : ∀ i ∈ R.mgr.remoteMap.ids, 0 < (Manager.ent R.mgr.files i).length)
    (hmem : R.inFile ∈ R.mgr.remoteMap.ids) (o : Manager.FObj) (ho : R.mgr.files[R.inFile]? = some o)
    (hk : o.kind = .input) (hh : o.hasHandler = true) (hc : R.node.inFile = some o.content)
    (a : Nat) (ha : o.address = some (a : Int)) (hend : a + o.length ≤ Rmf.cmdStartAddr)
    -- the port
    (k : Nat) (p : NPort) (hp : rq[k]? = some p) (de : Elem) (hde : p.type types = .ok de) (hnames : de.NamesOk)
    (hnest : ¬de.NoNested) (r : PortRange) (hrk : R.node.inRanges[k]? = some r)
    -- the message
    (data : Bytes) (hd : data ≠ []) (hdl : data.length = r.len)
    (hdr : Bytes) (hhdr : Rmf.packHeader ((a + r.offset : Nat) : Int) false = .ok hdr) :
    ∃ (R' : Endpoint H) (x : PyErr), R'.calls = R.calls ∧
      R'.node.inFile = some ⟨put o.content.data r.offset data⟩ ∧
      (∀ (rest : List Bytes) (stream : Bytes), Socket.sendAll ((hdr ++ data) :: rest) = .ok stream →
        ∀ cs, Socket.Chunking stream cs →
          Socket.worker (Endpoint.handler h) (⟨true, true, R⟩, .waiting []) cs = (⟨true, true, R'⟩, .ended (some x))) ∧
      ∀ as : List Access, (∀ (j : Nat) u, j < pv.length → ((R'.node.run as).writeProvide j u).2 = .blocked) ∧
        (∀ j : Nat, j < rq.length → (R'.node.run as).inFile.isSome → ((R'.node.run as).readRequire j).2 = .blocked) := by
  have hdl0 : 0 < data.length := List.length_pos_iff.mpr hd
  have hin := (hR.wf.inC.get hrk).2.2
  rw [hc] at hin
  simp only [fileBytes] at hin
  have hfit : r.offset + data.length ≤ o.content.data.length := by omega
  have hfit' : r.offset + data.length ≤ o.length := hfit
  have hmax : a + r.offset < 1073741824 := by
    have := cmdStart_lt
    omega
  obtain ⟨hdr', hh', hun⟩ := Rmf.C05_header_roundtrip_exact (a + r.offset) false hmax
  rw [hhdr] at hh'; cases hh'
  have hun := hun data
  rw [if_neg (fun hc => hd hc.2)] at hun
  have hlen : 0 < hdr.length := header_pos hmax hhdr
  obtain ⟨s', o', q1, q2, q3⟩ := Manager.C36_accepted isLocal files hf bo ops hops hnd R.mgr hm hdis hpos
    R.inFile hmem o ho hk (hdr ++ data) hdr.length (a + r.offset) false a r.offset hun hlen (by omega) ha
    (by omega) (by omega) (by rw [List.drop_left]; omega)
  rw [List.drop_left] at q1 q3
  rw [if_pos ⟨rfl, hh⟩] at q1
  have hput : o'.content = ⟨put o.content.data r.offset data⟩ := by
    have := overwrites_put q3
    cases ho : o'.content
    rw [ho] at this
    rw [← this]
  have hnew : ({ R.node with inFile := some ⟨put o.content.data r.offset data⟩ } : NodeData) =
      R.node.run [.remote false r.offset data false] := by
    simp only [NodeData.run, NodeData.step, NodeData.remoteWrite, hc, FileData.inputWrite]
    rw [FileData.write_fits _ _ _ hfit]
    simp only [put]
    unfold NodeData.afterRemote
    split
    · rfl
    · simp [NodeData.inPortNotify]
  have hr' := run_reachable hR [.remote false r.offset data false]
  rw [← hnew] at hr'
  obtain ⟨x, hx⟩ := nested_unreadable hr'.wf hlock k p hp de hde hnames hnest rfl r hrk
  have hnote : NodeData.inPortNotify { R.node with inFile := some ⟨put o.content.data r.offset data⟩ } true r.offset
      data.length = ({ R.node with inFile := some ⟨put o.content.data r.offset data⟩, locked := true }, [], .raised x) := by
    have hports := (C34_ports types rq pv text _ hr' r.offset data.length).1 (by
      simp only [fileBytes]; rw [put_length _ _ _ hfit]; exact hfit)
    simp only at hports
    rw [hdl, filter_own hR.wf.inC k r hrk (by omega)] at hports
    unfold NodeData.inPortNotify
    rw [if_pos rfl, hdl, hports]
    simp only [NodeData.notifyLoop, hx]
  have hreach : NodeData.Reachable types rq pv text
      { R.node with inFile := some ⟨put o.content.data r.offset data⟩, locked := true } := by
    have h1 := run_reachable hr' [.read k]
    have h2 : NodeData.run { R.node with inFile := some ⟨put o.content.data r.offset data⟩ } [.read k] =
        { R.node with inFile := some ⟨put o.content.data r.offset data⟩, locked := true } := by
      simp only [NodeData.run, NodeData.step, NodeData.readRequire]
      rw [(lookupRange_ok hr'.wf.inC k r).mpr ⟨k, rfl, hrk⟩]
      simp only [hx]
    rw [h2] at h1
    exact h1
  refine ⟨⟨s', { R.node with inFile := some ⟨put o.content.data r.offset data⟩, locked := true }, R.inFile, R.outFile,
    R.calls, R.stuck⟩, x, rfl, rfl, ?_, ?_⟩
  · intro rest stream hs cs hcs
    rw [Socket.C11_any_handler (Endpoint.handler h) R _ stream hs cs hcs]
    have hrec : Endpoint.receive R (hdr ++ data) =
        (⟨s', { R.node with inFile := some ⟨put o.content.data r.offset data⟩, locked := true }, R.inFile, R.outFile,
          R.calls, R.stuck⟩, some x) := by
      unfold Endpoint.receive
      rw [hstuck, q1]
      simp only [Endpoint.notify, Endpoint.withFile, q2, hc, hput, Option.isSome_some, if_true, Int.toNat_natCast,
        Bool.false_eq_true, if_false, hnote, List.append_nil]
    simp only [Socket.deliverAll, Endpoint.handler, hrec]
  · intro as
    have hlk := run_locked as { R.node with inFile := some ⟨put o.content.data r.offset data⟩, locked := true } rfl
    have := locked_blocks (run_reachable hreach as) hlk
    exact ⟨fun j u hj => by rw [this.1 j u hj], fun j hj hf => by rw [this.2 j hj hf]⟩

example : epNested.NamesOk ∧ ¬epNested.NoNested := by
  simp [epNested, Elem.NamesOk, Fields.NamesOk, Elem.NoNested, Fields.AllFlat, Elem.IsFlat]

/-! ### After the lock has been leaked -/

/-- The notification of a node whose lock has been leaked waits for ever. -/
theorem notify_blocks {types : List NamedType} {rq pv : List NPort} {text : Str} {nd : NodeData}
    (hr : nd.Reachable types rq pv text) (hl : nd.locked = true) (f : FileData) (hf : nd.inFile = some f)
    (off len : Nat) (hlen : 0 < len) (hfit : off + len ≤ f.data.length) :
    nd.inPortNotify true off len = (nd, [], .blocked) := by
  have hw := hr.wf
  have hports := (C34_ports types rq pv text nd hr off len).1 (by rw [hf]; exact hfit)
  unfold NodeData.inPortNotify
  rw [if_pos rfl, hports]
  simp only
  cases hfil : nd.inRanges.filter (PortRange.overlapsB off len) with
  | nil =>
    exfalso
    have hin := hw.inC
    obtain ⟨i, r, h1, h2⟩ := hin.owner (o := off) (by omega) (by rw [hf]; simp only [fileBytes]; omega)
    have : r ∈ nd.inRanges.filter (PortRange.overlapsB off len) := by
      rw [List.mem_filter]
      exact ⟨List.mem_of_getElem? h1, (r.overlapsB_iff off len).mpr ⟨off, by omega, by omega, h2⟩⟩
    rw [hfil] at this
    simp at this
  | cons r rs =>
    have hmem : r ∈ nd.inRanges := by
      have : r ∈ nd.inRanges.filter (PortRange.overlapsB off len) := by rw [hfil]; simp
      exact (List.mem_filter.mp this).1
    obtain ⟨k, hk⟩ := List.getElem?_of_mem hmem
    have hid : r.id = k := by have := (hw.inC.get hk).1; omega
    obtain ⟨bs, hp⟩ := hw.inP
    have hkl : k < rq.length := by
      obtain ⟨h, -⟩ := List.getElem?_eq_some_iff.mp hk
      rw [hp.length.1] at h; exact h
    have := (locked_blocks hr hl).2 k hkl (by rw [hf]; rfl)
    unfold NodeData.readRequire at this
    rw [(lookupRange_ok hw.inC k r).mpr ⟨k, rfl, hk⟩] at this
    simp only at this
    simp only [NodeData.notifyLoop, this]

theorem write_queue {H : Type} (s : Manager.Mgr H) (x : Nat) (more : Bool) (data : Bytes) :
    (Manager.processFileWrite s x more data).1.queue = s.queue := by
  unfold Manager.processFileWrite
  split
  · rfl
  split
  · rfl
  split
  · split
    · rfl
    · simp only
      split
      · unfold Manager.writeRemote
        split <;> rfl
      · rfl
  · rfl

/-- C55 fails for ever once a node's lock has been leaked (C33), say by an earlier read that raised: the
next data message for the node, whatever value it carries, is stored but the client is not called, and
no message after it, of whatever kind, has any effect on the node, its client or its file manager: the
receive thread waits for the lock. -/
theorem C55_leaked_violated {H : Type} (h : H) (types : List NamedType) (rq pv : List NPort) (text : Str)
    (R : Endpoint H) (hR : R.node.Reachable types rq pv text) (hstuck : R.stuck = false)
    (hlock : R.node.locked = true)
    (isLocal : Nat → Bool) (files : List Manager.FObj) (hf : Manager.Fresh files) (bo : Char)
    (ops : List (Manager.Op H)) (hops : ∀ op ∈ ops, op.Respects isLocal)
    (hnd : (ops.filterMap Manager.Op.requests).Nodup)
    (hm : R.mgr = Manager.run (Manager.start files bo) ops)
    (hdis : R.mgr.remoteMap.ids.Pairwise fun i j => FileMap.Disjoint (Manager.ent R.mgr.files i) (Manager.ent R.mgr.files j))
    (hpos : ∀ i ∈ R.mgr.remoteMap.ids, 0 < (Manager.ent R.mgr.files i).length)
    (hmem : R.inFile ∈ R.mgr.remoteMap.ids) (o : Manager.FObj) (ho : R.mgr.files[R.inFile]? = some o)
    (hk : o.kind = .input) (hh : o.hasHandler = true) (hc : R.node.inFile = some o.content)
    (a : Nat) (ha : o.address = some (a : Int)) (hend : a + o.length ≤ Rmf.cmdStartAddr)
    (off : Nat) (data : Bytes) (hd : data ≠ []) (hfit : off + data.length ≤ o.length)
    (hdr : Bytes) (hhdr : Rmf.packHeader ((a + off : Nat) : Int) false = .ok hdr) :
    ∃ R' : Endpoint H, R'.calls = R.calls ∧ R'.mgr.queue = R.mgr.queue ∧
      R'.node.inFile = some ⟨put o.content.data off data⟩ ∧
      ∀ (rest : List Bytes) (stream : Bytes), Socket.sendAll ((hdr ++ data) :: rest) = .ok stream →
        ∀ cs, Socket.Chunking stream cs →
          (Socket.worker (Endpoint.handler h) (⟨true, true, R⟩, .waiting []) cs).1.handler = R' := by
  have hdl : 0 < data.length := List.length_pos_iff.mpr hd
  have hmax : a + off < 1073741824 := by
    have : Rmf.cmdStartAddr = 0x3FFFFC00 := rfl
    omega
  obtain ⟨hdr', hh', hun⟩ := Rmf.C05_header_roundtrip_exact (a + off) false hmax
  rw [hhdr] at hh'; cases hh'
  have hun := hun data
  rw [if_neg (fun hc => hd hc.2)] at hun
  have hlen : 0 < hdr.length := header_pos hmax hhdr
  obtain ⟨s', o', q1, q2, q3⟩ := Manager.C36_accepted isLocal files hf bo ops hops hnd R.mgr hm hdis hpos
    R.inFile hmem o ho hk (hdr ++ data) hdr.length (a + off) false a off hun hlen (by omega) ha
    (by omega) (by omega) (by rw [List.drop_left]; omega)
  rw [List.drop_left] at q1 q3
  rw [if_pos ⟨rfl, hh⟩] at q1
  have hput : o'.content = ⟨put o.content.data off data⟩ := by
    have := overwrites_put q3
    cases ho : o'.content
    rw [ho] at this
    rw [← this]
  have hfit' : off + data.length ≤ o.content.data.length := hfit
  have hnew : ({ R.node with inFile := some ⟨put o.content.data off data⟩ } : NodeData) =
      R.node.run [.remote false off data false] := by
    simp only [NodeData.run, NodeData.step, NodeData.remoteWrite, hc, FileData.inputWrite]
    rw [FileData.write_fits _ _ _ hfit']
    simp only [put]
    unfold NodeData.afterRemote
    split
    · rfl
    · simp [NodeData.inPortNotify]
  have hr' := run_reachable hR [.remote false off data false]
  rw [← hnew] at hr'
  have hblock := notify_blocks hr' hlock _ rfl off data.length hdl (by
    simp only; rw [put_length _ _ _ hfit']; exact hfit')
  have hq : s'.queue = R.mgr.queue := by
    have he : (Manager.onMsgReceived R.mgr (hdr ++ data)).1.queue = R.mgr.queue := by
      unfold Manager.onMsgReceived
      rw [hun]
      simp only
      rw [if_pos hlen, if_neg (by omega), if_pos (by omega)]
      exact write_queue _ _ _ _
    rw [q1] at he
    exact he
  refine ⟨⟨s', { R.node with inFile := some ⟨put o.content.data off data⟩ }, R.inFile, R.outFile, R.calls, true⟩,
    rfl, hq, rfl, ?_⟩
  intro rest stream hs cs hcs
  rw [Socket.C11_any_handler (Endpoint.handler h) R _ stream hs cs hcs]
  have hrec : Endpoint.receive R (hdr ++ data) =
      (⟨s', { R.node with inFile := some ⟨put o.content.data off data⟩ }, R.inFile, R.outFile, R.calls, true⟩, none) := by
    unfold Endpoint.receive
    rw [hstuck, q1]
    simp only [Endpoint.notify, Endpoint.withFile, q2, hc, hput, Option.isSome_some, if_true, Int.toNat_natCast,
      Bool.false_eq_true, if_false, hblock, List.append_nil]
  simp only [Socket.deliverAll, Endpoint.handler, hrec]
  generalize hE : (⟨s', { R.node with inFile := some ⟨put o.content.data off data⟩ }, R.inFile, R.outFile, R.calls,
    true⟩ : Endpoint H) = E
  have hst : E.stuck = true := by rw [← hE]
  clear hs hcs hE
  induction rest with
  | nil => rfl
  | cons m rest ih =>
    have : Endpoint.receive E m = (E, none) := by
      unfold Endpoint.receive; rw [if_pos hst]
    simp only [Socket.deliverAll, this]
    exact ih

/-- A reader with `R"a"{"a"{"b"C}}` and `R"b"S` whose program reads the first port, which raises: the
next message is stored, the one after it is not, although it is for the other port. -/
def epLeaked : Bool :=
  match epReader [] [⟨"a".toList, some 0, epNested, none⟩, ⟨"b".toList, some 1, .prim .u16 none none none, none⟩] 3 with
  | some R =>
    let r := R.node.readRequire 0
    let L : Endpoint Unit := { R with node := r.1 }
    let R1 := (L.receive [0, 1, 9, 1]).1
    let R2 := (R1.receive [0, 1, 8, 2]).1
    decide (L.node.locked = true ∧ L.node.inFile = some ⟨[0, 0, 0]⟩) &&
    decide (R1.calls = [] ∧ R1.node.inFile = some ⟨[0, 9, 1]⟩) &&
    decide (R2.calls = [] ∧ R2.node.inFile = some ⟨[0, 9, 1]⟩) &&
    decide ((R.receive [0, 1, 9, 1]).1.calls = [(1, .int 265)])
  | none => false

example : epLeaked = true := by decide +kernel

/-- C55: whatever message arrives and whatever becomes of it, the calls of the client made before come
first, and new calls are made only for a message that wrote the in-port data file: those of the
notification of the node, in that order. -/
theorem C55_calls_kept {H : Type} (e : Endpoint H) (msg : Bytes) :
    (e.receive msg).1.calls = e.calls ∨
      ∃ (m : Manager.Mgr H) (n : Manager.Note), Manager.onMsgReceived e.mgr msg = (m, none, some n) ∧ n.file = e.inFile ∧
        (e.receive msg).1.calls = e.calls ++ ((Endpoint.withFile e.node m.files[e.inFile]?).inPortNotify true
          n.notification.offset.toNat n.notification.len).2.1 := by
  unfold Endpoint.receive
  split
  · exact .inl rfl
  · rcases hm : Manager.onMsgReceived e.mgr msg with ⟨m, x, note⟩
    cases x with
    | some x => exact .inl rfl
    | none =>
      cases note with
      | none => exact .inl rfl
      | some n =>
        simp only [Endpoint.notify]
        by_cases hf : n.file = e.inFile
        · rw [if_pos hf]
          right
          refine ⟨m, n, rfl, hf, ?_⟩
          rcases (Endpoint.withFile e.node m.files[e.inFile]?).inPortNotify true n.notification.offset.toNat
            n.notification.len with ⟨nd, l, o⟩
          cases o <;> rfl
        · rw [if_neg hf]
          exact .inl rfl

end Apx
