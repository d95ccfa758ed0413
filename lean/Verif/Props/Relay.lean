import Verif.Props.Forward

/-! C95: every value written reaches the reader, once and in order. -/

namespace Apx
open Manager

variable {H : Type}

/-- The message that a write that returned stands for. -/
def WriteMsg (n : Node) (w : Nat × PyVal) (m : Msg H) : Prop :=
  ∃ (off : Nat) (data : Bytes), w.1 < n.provides.length ∧ n.PortStart .provide w.1 off ∧ m = .writeData off data ∧
    ∀ de, n.PortType .provide w.1 de → de.LensOk → de.NamesOk → de.NoEmptyInside → de.layout w.2 = some data

theorem range_portStart {types : List NamedType} {ports : List Port} {ranges : List PortRange}
    {file : Option FileData} (hp : Partitioned types (ports.map Port.toNPort) ranges file) {k : Nat} {r : PortRange}
    (hr : ranges[k]? = some r) :
    (ports.take k).map (fun p => p.toNPort.packLen types) = (((ranges.take k).map (·.len)).map .ok) := by
  have hkl : k < ports.length := by
    have := hp.count
    rw [List.length_map] at this
    rw [← this]; exact (List.getElem?_eq_some_iff.mp hr).1
  have hcnt : ranges.length = ports.length := by have := hp.count; rwa [List.length_map] at this
  apply List.ext_getElem?
  intro j
  by_cases hj : j < k
  · have h2 := (hp.range j ports[j].toNPort ranges[j] (by rw [List.getElem?_map, List.getElem?_eq_getElem (by omega)]; rfl)
      (List.getElem?_eq_getElem (by omega))).2.1
    rw [List.getElem?_map, List.getElem?_map, List.getElem?_map, List.getElem?_take_of_lt hj, List.getElem?_take_of_lt hj,
      List.getElem?_eq_getElem (by omega), List.getElem?_eq_getElem (by omega)]
    simp only [Option.map_some, h2]
  · rw [List.getElem?_eq_none (by simp; omega), List.getElem?_eq_none (by simp; omega)]

/-- Data messages queue nothing. -/
theorem data_queues_nothing (s : Mgr H) (x : Nat) (data msg : Bytes) (hx : x < Rmf.cmdStartAddr) (hd : data ≠ [])
    (hf : DataFrame x data msg) : (onMsgReceived s msg).1.queue = s.queue := by
  obtain ⟨hdr, hh, rfl⟩ := hf
  have hmax : x < 1073741824 := by
    have := cmdStart_lt
    omega
  obtain ⟨hdr', hh', hun⟩ := Rmf.C05_header_roundtrip_exact x false hmax
  rw [hh] at hh'; cases hh'
  have hun := hun data
  rw [if_neg (fun hc => hd hc.2)] at hun
  have hpos : 0 < hdr.length := header_pos hmax hh
  unfold onMsgReceived
  rw [hun]
  simp only
  rw [if_pos hpos, if_neg (by omega), if_pos hx]
  unfold processFileWrite writeRemote
  (repeat' split) <;> first | rfl | (simp only []; split <;> rfl)

theorem receive_queue (e : Endpoint H) (msg : Bytes) (hq : (onMsgReceived e.mgr msg).1.queue = e.mgr.queue) :
    (e.act (.message msg)).mgr.queue = e.mgr.queue := by
  simp only [Endpoint.act, Endpoint.receive]
  split
  · rfl
  · split <;> rename_i hm <;> rw [hm] at hq
    · exact hq
    · simp only [Endpoint.notify]
      (repeat' split) <;> exact hq

/-- After the server has opened the out-port data file. -/
theorem opened_file {n : Node} {e0 : Endpoint H} (h0 : Endpoint.ofNode n = .ok e0) {as : List (Act H)}
    (hop : e0.Opened as) {f : FileData} (hout : (e0.history as).node.outFile = some f) :
    ∃ o, (e0.history as).mgr.files[1]? = some o ∧ o.isOpen = true := by
  obtain ⟨xs, frame, ys, rfl, h1, h2⟩ := hop
  obtain ⟨hnd, hf, hl1⟩ := client_linked h0 xs
  obtain ⟨-, -, hl⟩ := client_linked h0 (xs ++ .message frame :: ys)
  obtain ⟨o0, o1, o2, hs⟩ := hl.shape
  obtain ⟨p0, p1, p2, hp⟩ := hl1.shape
  have hsome : e0.node.outFile.isSome = true := by
    have := hs.content1
    rw [hout] at this
    cases hh : e0.node.outFile with
    | none => rw [hh] at this; cases this
    | some g => rfl
  obtain ⟨m', g1, g2, g3⟩ := hl1.open hnd hf h2 1 (by rw [hp.localMap, hsome]; simp) p1 (by rw [hp.files]; rfl)
    outAddress (hp.address1 hsome).1 outAddress (by decide) (Nat.le_refl _)
    (by have := (files_nonempty hnd).2.1 hsome; rw [hp.length1]; omega) frame h1
  rw [history_append]
  have hact : ((e0.history xs).act (.message frame)).mgr.files[1]? = some { p1 with isOpen := true } := by
    simp only [Endpoint.act, g1]; exact g2
  exact history_stays_open ys (hl1.act (.message frame)) 1 _ hact rfl

/-- A write that returns queues its message. -/
theorem write_queues {n : Node} {e0 : Endpoint H} (h0 : Endpoint.ofNode n = .ok e0) {as : List (Act H)}
    (hop : e0.Opened as) (i : Int) (v : PyVal) (hw : ((e0.history as).write i v).2 = .ok ()) :
    ∃ m, WriteMsg n (i.toNat, v) m ∧
      ((e0.history as).write i v).1.mgr.queue = (e0.history as).mgr.queue ++ [m] := by
  obtain ⟨text, -, hr⟩ := client_reachable h0 as
  obtain ⟨hnd, hf, hl⟩ := client_linked h0 as
  have hopf := fun f hout => opened_file h0 hop (f := f) hout
  generalize e0.history as = e at hw hr hl hopf ⊢
  cases hwp : e.node.writeProvide i v with
  | mk nd o =>
    cases o with
    | raised x => simp only [Endpoint.write, hwp] at hw; cases hw
    | blocked => simp only [Endpoint.write, hwp] at hw; cases hw
    | ok w =>
      obtain ⟨k, p, r, data, de, rfl, c2, c3, rfl, c5, c6, c7, -⟩ := C32_write _ _ _ _ _ _ hr _ _ _ hwp
      have hwf := (writeProvide_files e.node k v).2
      rw [hwp] at hwf
      obtain ⟨f, hfo, -⟩ := hwf
      obtain ⟨o1, ho1, hopen⟩ := hopf f hfo
      obtain ⟨p0, p1, p2, hs⟩ := hl.shape
      have : o1 = p1 := by rw [hs.files] at ho1; simpa using ho1.symm
      subst this
      have hcont : o1.content = f := by
        have := hs.content1
        rw [hfo] at this
        cases hh : e0.node.outFile with
        | none => rw [hh] at this; cases this
        | some x => rw [hh] at this; simpa using this.symm
      obtain ⟨q, hq1, hq2⟩ : ∃ q, n.provides[k]? = some q ∧ q.toNPort = p := by
        rw [List.getElem?_map, Option.map_eq_some_iff] at c2; exact c2
      have hfit := (hr.wf.outC.get c3).2.2
      rw [hfo] at hfit
      simp only [fileBytes] at hfit
      have hdl : data.length = r.len := by
        have hR := writeProvide_ranges e.node k v
        have hF := (writeProvide_files e.node k v).2
        rw [hwp] at hR hF
        obtain ⟨f', hf1, hf2⟩ := hF
        rw [hfo] at hf1; cases hf1
        simp only at hR hf2
        rw [hR, hf2] at c6
        simp only [portBytes, c3, Option.map_some, Option.some.injEq, fileBytes] at c6
        have hlen := congrArg List.length c6
        simp only [List.length_take, List.length_drop, FileData.write_length] at hlen
        omega
      obtain ⟨ops, r1, _, r2⟩ := hl.run
      obtain ⟨a', m', x, ret, g1, g2, g3, -⟩ := C39_write_queues clientLocal _ (fresh_client n.name e0.node) '<' ops r1
        e.mgr r2 1 rfl o1 ho1 hs.kind1 hopen r.offset data
      have hsome : e0.node.outFile.isSome = true := by
        have := hs.content1
        rw [hfo] at this
        cases hh : e0.node.outFile with
        | none => rw [hh] at this; cases this
        | some x => rfl
      rw [(hs.address1 hsome).1] at g1
      cases g1
      obtain ⟨g4, -, g5, -⟩ := g3 ⟨by omega, by unfold FObj.length; rw [hcont]; omega⟩
      subst g4
      refine ⟨.writeData r.offset data, ⟨r.offset, data, ?_, ?_, rfl, ?_⟩, ?_⟩
      · exact (List.getElem?_eq_some_iff.mp hq1).1
      · refine ⟨(e.node.outRanges.take k).map (·.len), ?_, ?_⟩
        · exact range_portStart (C31_partition _ _ _ _ _ hr).2 c3
        · have := (hr.wf.outC.get c3).2.1
          simpa using this
      · rintro de' ⟨q', h1, h2⟩ hlens hnames hne
        have : q' = q := by
          have h3 : n.provides[k]? = some q' := h1
          rw [hq1] at h3; cases h3; rfl
        subst this
        rw [hq2, c5] at h2
        cases h2
        exact c7 hlens hnames hne
      · unfold Endpoint.write
        rw [hwp]
        simp only
        rw [hl.outFile, g2]
        simp only [g5]
        simp [outAddress]

/-- Plain acts queue exactly the messages of the writes that returned. -/
theorem plain_queues {n : Node} {e0 : Endpoint H} (h0 : Endpoint.ofNode n = .ok e0) (ys : List (Act H))
    (hpl : ∀ a ∈ ys, a.Plain) : ∀ xs : List (Act H), e0.Opened xs →
    ∃ msgs, (e0.history (xs ++ ys)).mgr.queue = (e0.history xs).mgr.queue ++ msgs ∧
      Each (WriteMsg n) ((e0.history xs).written ys) msgs := by
  induction ys with
  | nil => intro xs _; exact ⟨[], by simp, .nil⟩
  | cons a ys ih =>
    intro xs hop
    have hop' : e0.Opened (xs ++ [a]) := by
      obtain ⟨us, frame, vs, rfl, h1, h2⟩ := hop
      exact ⟨us, frame, vs ++ [a], by simp, h1, h2⟩
    obtain ⟨msgs, h1, h2⟩ := ih (fun b hb => hpl b (List.mem_cons_of_mem _ hb)) (xs ++ [a]) hop'
    have h3 : e0.history (xs ++ [a]) = (e0.history xs).act a := by rw [history_append]; rfl
    rw [List.append_assoc, List.singleton_append, h3] at h1
    rw [h3] at h2
    have quiet : ((e0.history xs).act a).mgr.queue = (e0.history xs).mgr.queue →
        (e0.history xs).written (a :: ys) = ((e0.history xs).act a).written ys →
        ∃ msgs, (e0.history (xs ++ a :: ys)).mgr.queue = (e0.history xs).mgr.queue ++ msgs ∧
          Each (WriteMsg n) ((e0.history xs).written (a :: ys)) msgs := by
      intro hq hw
      exact ⟨msgs, by rw [h1, hq], by rw [hw]; exact h2⟩
    cases a with
    | connected c => exact absurd (hpl _ (List.mem_cons_self ..)) (by simp [Act.Plain])
    | stop => exact absurd (hpl _ (List.mem_cons_self ..)) (by simp [Act.Plain])
    | read k => exact quiet rfl rfl
    | message msg =>
      obtain ⟨x, data, hx, hd, hf⟩ := hpl _ (List.mem_cons_self ..)
      exact quiet (receive_queue _ _ (data_queues_nothing _ x data msg hx hd hf)) rfl
    | write i v =>
      by_cases hw : ((e0.history xs).write i v).2 = .ok ()
      · obtain ⟨m, hm, hq⟩ := write_queues h0 hop i v hw
        refine ⟨m :: msgs, ?_, ?_⟩
        · rw [h1]
          simp only [Endpoint.act, hq, List.append_assoc, List.singleton_append]
        · simp only [Endpoint.written, hw]
          exact .cons hm h2
      · refine quiet ?_ ?_
        · cases hwp : (e0.history xs).node.writeProvide i v with
          | mk nd o =>
            cases o with
            | ok w =>
              obtain ⟨off, data⟩ := w
              obtain ⟨-, -, hl⟩ := client_linked h0 xs
              exact absurd (write_returns hl hwp).1 hw
            | raised x => simp only [Endpoint.act, Endpoint.write, hwp]
            | blocked => simp only [Endpoint.act, Endpoint.write, hwp]
        · simp only [Endpoint.written]

/-- The reader of relayed messages. -/
theorem relayed_calls {nP nR : Node} {R0 : Endpoint H} (hR0 : Endpoint.ofNode nR = .ok R0) {a : Nat}
    {conn : Nat → Option Nat} {wire : Int → Option Nat} (hwire : Wired nP nR a conn wire)
    {ws : List (Nat × PyVal)} {msgs : List (Msg H)} (hws : Each (WriteMsg nP) ws msgs)
    (htypes : ∀ w ∈ ws, ∀ k, conn w.1 = some k → ∃ de, SameType nP nR w.1 k de ∧ de.Exact w.2) :
    ∀ (asR : List (Act H)) (frames : List Bytes), R0.Announced nR asR a → (R0.history asR).stuck = false →
      (R0.history asR).node.locked = false →
      a + (fileBytes (R0.history asR).node.inFile).length ≤ Rmf.cmdStartAddr →
      Relayed wire msgs frames →
      ∃ calls, (R0.history (asR ++ frames.map .message)).calls = (R0.history asR).calls ++ calls ∧
        Each (fun (w : Nat × PyVal) (c : Nat × PyVal) => conn w.1 = some c.1 ∧ c.2.Same w.2)
          (ws.filter fun w => (conn w.1).isSome) calls ∧
        (R0.history (asR ++ frames.map .message)).stuck = false ∧
        (R0.history (asR ++ frames.map .message)).node.locked = false := by
  induction hws with
  | nil =>
    intro asR frames _ hst hlock _ hrel
    cases hrel
    exact ⟨[], by simp, .nil, by simpa using hst, by simpa using hlock⟩
  | @cons w m ws msgs hm t ih =>
    intro asR frames han hst hlock hend hrel
    have ih := ih fun w' hw' => htypes w' (List.mem_cons_of_mem _ hw')
    obtain ⟨off, data, hlt, hstart, rfl, hlay⟩ := hm
    have hwi := hwire w.1 off hlt hstart
    cases hrel with
    | other h _ => exact absurd rfl (h _ _)
    | dropped h hrel =>
      cases hc : conn w.1 with
      | none =>
        obtain ⟨calls, h1, h2, h3, h4⟩ := ih asR frames han hst hlock hend hrel
        refine ⟨calls, h1, ?_, h3, h4⟩
        rw [List.filter_cons, hc]
        exact h2
      | some k =>
        rw [hc] at hwi
        obtain ⟨to, -, h2⟩ := hwi
        rw [h] at h2; cases h2
    | @sent _ _ y frame _ fs h hf hrel =>
      cases hc : conn w.1 with
      | none => rw [hc] at hwi; simp only at hwi; rw [h] at hwi; cases hwi
      | some k =>
        rw [hc] at hwi
        obtain ⟨to, hto, h2⟩ := hwi
        rw [h] at h2
        simp only [Option.some.injEq] at h2
        subst h2
        obtain ⟨de, ⟨e1, e2, e3, e4, e5, len, e6, e7⟩, hx⟩ := htypes w (List.mem_cons_self ..) k hc
        have hlay := hlay de e1 e3 e4 (noNested_noEmpty de e5)
        obtain ⟨R', v', g1, g2, -, g4, g5, -, g7, g8⟩ := sent_arrives hR0 asR a han hst hlock hend k de e2 to hto e3 e4 e5 len
          e6 e7 w.2 hx data hlay frame hf
        have hR' : R0.history (asR ++ [.message frame]) = R' := by
          rw [history_append]
          show (R0.history asR).act (.message frame) = R'
          simp only [Endpoint.act, g1]
        have han' : R0.Announced nR (asR ++ [.message frame]) a := by
          obtain ⟨xs, f, fr, ys, hh, hrest⟩ := han
          exact ⟨xs, f, fr, ys ++ [.message frame], by rw [hh]; simp, hrest⟩
        obtain ⟨calls, k1, k2, k3, k4⟩ := ih (asR ++ [.message frame]) fs han' (by rw [hR']; exact g5) (by rw [hR']; exact g7)
          (by rw [hR', g8]; exact hend) hrel
        rw [List.append_assoc, List.singleton_append, ← List.map_cons] at k1 k3 k4
        refine ⟨(k, v') :: calls, ?_, ?_, k3, k4⟩
        · rw [k1, hR', g2]; simp
        · rw [List.filter_cons, hc]
          exact .cons ⟨hc, g4⟩ k2

/-- C95: a provider whose out-port data file the server has opened does anything except connecting again,
stopping and obeying commands; a server relays its data messages to a reader, port by port; the reader
handles what it is sent.  Then the calls that the reader's client gets are those writes of connected ports
that returned: each once, in the order of the writes, with a value equal to the one written. -/
theorem C95_in_order (nP nR : Node) (P0 R0 P P' R : Endpoint H) (hP0 : Endpoint.ofNode nP = .ok P0)
    (hR0 : Endpoint.ofNode nR = .ok R0) (before during asR : List (Act H)) (hP : P = P0.history before)
    (hP' : P' = P.history during) (hR : R = R0.history asR) (hopen : P0.Opened before)
    (hplain : ∀ b ∈ during, b.Plain) (a : Nat) (hann : R0.Announced nR asR a) (hst : R.stuck = false)
    (hlock : R.node.locked = false) (hend : a + (fileBytes R.node.inFile).length ≤ Rmf.cmdStartAddr)
    (conn : Nat → Option Nat) (wire : Int → Option Nat) (hwire : Wired nP nR a conn wire)
    (htypes : ∀ w ∈ P.written during, ∀ k, conn w.1 = some k → ∃ de, SameType nP nR w.1 k de ∧ de.Exact w.2) :
    ∃ msgs, P'.mgr.queue = P.mgr.queue ++ msgs ∧ ∀ frames, Relayed wire msgs frames →
      ∃ calls, (R.history (frames.map .message)).calls = R.calls ++ calls ∧
        (R.history (frames.map .message)).stuck = false ∧
        Each (fun (w : Nat × PyVal) (c : Nat × PyVal) => conn w.1 = some c.1 ∧ c.2.Same w.2)
          ((P.written during).filter fun w => (conn w.1).isSome) calls := by
  subst hP hP' hR
  obtain ⟨msgs, h1, h2⟩ := plain_queues hP0 during hplain before hopen
  rw [history_append] at h1
  refine ⟨msgs, h1, fun frames hrel => ?_⟩
  obtain ⟨calls, k1, k2, k3, -⟩ := relayed_calls hR0 hwire h2 htypes asR frames hann hst hlock hend hrel
  rw [history_append] at k1 k3
  exact ⟨calls, k1, k3, k2⟩

/-! The nodes of C94's example: the records are connected, the provider's byte is not.  The provider writes
the record, the byte, the record again, and then something that is not a record; in between data arrive. -/

def rlBefore : List (Act Unit) := [.connected (), .write 1 (fwVal 1 (-2)), .message ssOpen]

def rlDuring : List (Act Unit) :=
  [.write 1 (fwVal 3 (-4)), .write 0 (.int 5), .message [1, 0, 77], .write 1 (fwVal 9 10), .read 0, .write 1 (.int 0)]

def rlConn (i : Nat) : Option Nat := if i = 1 then some 1 else none

def rlWire (x : Int) : Option Nat := if x = 1 then some 260 else none

def rlFrames : List Bytes := [[1, 4, 3, 252, 255], [1, 4, 9, 10, 0]]

def rlCheckP (e : Endpoint Unit) : Bool :=
  decide ((e.history (rlBefore.take 2)).stuck = false ∧
    (e.history rlBefore).written rlDuring = [(1, fwVal 3 (-4)), (0, .int 5), (1, fwVal 9 10)] ∧
    ((e.history rlBefore).history rlDuring).mgr.queue.drop (e.history rlBefore).mgr.queue.length =
      [.writeData 1 [3, 252, 255], .writeData 0 [5], .writeData 1 [9, 10, 0]])

theorem rlP_checked : ∃ P0, Endpoint.ofNode fwP = .ok P0 ∧ rlCheckP P0 = true := by
  have : (match (Endpoint.ofNode fwP : Py (Endpoint Unit)) with | .ok e => rlCheckP e | .error _ => false) = true := by
    decide +kernel
  cases h : (Endpoint.ofNode fwP : Py (Endpoint Unit)) with
  | error x => rw [h] at this; cases this
  | ok e => rw [h] at this; exact ⟨e, rfl, this⟩

theorem rlStart {n : Node} {side : Side} {k off : Nat} (lens : List Nat)
    (h : ((n.ports side).take k).map (fun p => p.toNPort.packLen n.named) = lens.map .ok)
    (hs : n.PortStart side k off) : off = lens.sum := by
  obtain ⟨ls, h1, rfl⟩ := hs
  rw [h] at h1
  rw [List.map_inj_right (fun a b hab => Except.ok.inj hab)] at h1
  rw [h1]

theorem rlExact (x y : Int) (hx : 0 ≤ x ∧ x ≤ 255) (hy : -32768 ≤ y ∧ y ≤ 32767) : fwDe.Exact (fwVal x y) := by
  simp only [fwDe, fwVal, Elem.Exact, Fields.Exact, Fields.names]
  refine ⟨by decide, ?_, ⟨_, _, rfl, rfl, _, _, rfl, rfl, hx⟩, ⟨_, _, rfl, rfl, _, _, rfl, rfl, hy⟩, trivial⟩
  intro k
  simp only [List.lookup]
  by_cases h1 : k = ['x']
  · subst h1; simp
  · by_cases h2 : k = ['y']
    · subst h2; simp
    · simp [h1, h2, show (k == ['x']) = false by simp [h1], show (k == ['y']) = false by simp [h2]]

/-- All hypotheses of `C95_in_order` hold: both records arrive. -/
example : ∃ (P0 R0 : Endpoint Unit) (c1 c2 : PyVal), Endpoint.ofNode fwP = .ok P0 ∧ Endpoint.ofNode fwR = .ok R0 ∧
    ((R0.history fwHistR).history (rlFrames.map .message)).calls = (R0.history fwHistR).calls ++ [(1, c1), (1, c2)] ∧
    c1.Same (fwVal 3 (-4)) ∧ c2.Same (fwVal 9 10) := by
  obtain ⟨P0, hP0, hcP⟩ := rlP_checked
  obtain ⟨R0, hR0, hcR⟩ := fwR_checked
  simp only [rlCheckP, decide_eq_true_eq] at hcP
  obtain ⟨p1, p2, p3⟩ := hcP
  simp only [fwCheckR, decide_eq_true_eq] at hcR
  obtain ⟨r1, r2, r3, r4, r5, r6⟩ := hcR
  have hopen : P0.Opened rlBefore :=
    ⟨rlBefore.take 2, ssOpen, [], rfl,
      ⟨ssOpen.drop 4, by decide +kernel, ssOpen.take 4, false, by decide +kernel, by decide +kernel⟩, p1⟩
  have hann : R0.Announced fwR fwHistR 256 :=
    ⟨fwHistR.take 1, fwInfo, fwInfoMsg, fwHistR.drop 2, rfl,
      ⟨fwInfoMsg.drop 4, by decide +kernel, fwInfoMsg.take 4, false, by decide +kernel, by decide +kernel⟩,
      ⟨⟨256, rfl, by decide⟩, by decide, by decide, by decide, by decide, by decide⟩,
      by decide +kernel, rfl, by rw [r1]; rfl, r2, r3⟩
  have hwire : Wired fwP fwR 256 rlConn rlWire := by
    intro i off hi hs
    have hlen : fwP.provides.length = 2 := by decide +kernel
    rw [hlen] at hi
    rcases (show i = 0 ∨ i = 1 by omega) with rfl | rfl
    · have := rlStart [] (by decide +kernel) hs
      subst this
      rfl
    · have := rlStart [1] (by decide +kernel) hs
      subst this
      exact ⟨4, ⟨[4], by decide +kernel, rfl⟩, rfl⟩
  have htypes : ∀ w ∈ (P0.history rlBefore).written rlDuring, ∀ k, rlConn w.1 = some k →
      ∃ de, SameType fwP fwR w.1 k de ∧ de.Exact w.2 := by
    have hsame : SameType fwP fwR 1 1 fwDe :=
      ⟨fwPort _ _ _ _ (by decide +kernel), fwPort _ _ _ _ (by decide +kernel),
        by simp [fwDe, Elem.LensOk, Fields.LensOk], by simp [fwDe, Elem.NamesOk, Fields.NamesOk],
        by simp [fwDe, Elem.NoNested, Fields.AllFlat, Elem.IsFlat], 3, by decide +kernel, by decide⟩
    rw [p2]
    intro w hw k hk
    simp only [List.mem_cons, List.not_mem_nil, or_false] at hw
    rcases hw with rfl | rfl | rfl
    · cases hk; exact ⟨fwDe, hsame, rlExact _ _ (by decide) (by decide)⟩
    · cases hk
    · cases hk; exact ⟨fwDe, hsame, rlExact _ _ (by decide) (by decide)⟩
  have hplain : ∀ b ∈ rlDuring, b.Plain := by
    intro b hb
    simp only [rlDuring, List.mem_cons, List.not_mem_nil, or_false] at hb
    rcases hb with rfl | rfl | rfl | rfl | rfl | rfl <;> first | exact trivial | skip
    exact ⟨256, [77], by decide, by decide, [1, 0], by decide +kernel, rfl⟩
  obtain ⟨msgs, h1, h2⟩ := C95_in_order fwP fwR P0 R0 _ _ _ hP0 hR0 rlBefore rlDuring fwHistR rfl rfl rfl hopen hplain 256
    hann r4 r5 (by rw [r6]; decide) rlConn rlWire hwire htypes
  rw [h1, List.drop_left] at p3
  subst p3
  obtain ⟨calls, k1, -, k3⟩ := h2 rlFrames (.sent rfl ⟨[1, 4], by decide +kernel, rfl⟩
    (.dropped rfl (.sent rfl ⟨[1, 4], by decide +kernel, rfl⟩ .nil)))
  rw [p2] at k3
  change Each _ [(1, fwVal 3 (-4)), (1, fwVal 9 10)] calls at k3
  cases k3 with
  | @cons _ c1 _ _ g1 t =>
    cases t with
    | @cons _ c2 _ _ g2 t =>
      cases t
      obtain ⟨n1, c1⟩ := c1
      obtain ⟨n2, c2⟩ := c2
      obtain ⟨g1, g1'⟩ := g1
      obtain ⟨g2, g2'⟩ := g2
      cases g1
      cases g2
      exact ⟨P0, R0, c1, c2, hP0, hR0, k1, g1', g2'⟩

end Apx
