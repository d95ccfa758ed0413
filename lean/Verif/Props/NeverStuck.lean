import Verif.Props.LockFree
import Verif.Props.Relay

/-! C109: clients that are never hung by what they receive. -/

namespace Apx
open Manager

variable {H : Type}

/-- The values written to existing ports have a layout by the types of the ports, and meet the condition of C29. -/
def ActsFit (n : Node) (as : List (Act H)) : Prop :=
  ∀ i v, Act.write i v ∈ as → ∀ (k : Nat) p, i = k → (n.provides.map Port.toNPort)[k]? = some p →
    ∃ de, p.type n.named = .ok de ∧ de.LensOk ∧ de.NamesOk ∧ (de.laxLayout v).isSome ∧ de.ArraysOk v

namespace NodeData

theorem readRequire_unlocked {types : List NamedType} {rq pv : List NPort} {nd : NodeData} (hw : nd.Wf types rq pv)
    (hl : nd.locked = false) (hnum : NumericPorts types rq) (i : Int) : (nd.readRequire i).1.locked = false := by
  unfold readRequire
  cases hlook : lookupRange nd.inRanges i with
  | error x => exact hl
  | ok r =>
    obtain ⟨k, rfl, hk⟩ := (lookupRange_ok hw.inC i r).mp hlook
    cases hf : nd.inFile with
    | none =>
      simp only [unpackRequire, hf]
      cases nd.inProgs[r.id]? <;> exact hl
    | some f =>
      obtain ⟨v, hv⟩ := unpackRequire_numeric hw hl hnum f hf r (List.mem_of_getElem? hk)
      simp only [hv]
      exact hl

theorem inPortNotify_numeric {types : List NamedType} {rq pv : List NPort} {nd : NodeData} (hw : nd.Wf types rq pv)
    (hl : nd.locked = false) (hnum : NumericPorts types rq) (c : Bool) (off len : Nat) :
    (nd.inPortNotify c off len).1.locked = false ∧ (nd.inPortNotify c off len).2.2 ≠ .blocked := by
  unfold inPortNotify
  cases c with
  | false => exact ⟨hl, by simp⟩
  | true =>
    simp only [if_true]
    cases hb : byteToPort nd off len with
    | error x => exact ⟨hl, by simp⟩
    | ok rs =>
      have hm : ∀ r ∈ rs, r ∈ nd.inRanges := by
        unfold byteToPort at hb
        simp only at hb
        split at hb
        · simp at hb
        · split at hb
          · simp at hb
          · exact byteToPortLoop_mem _ _ _ _ _ hb
      simp only
      cases hf : nd.inFile with
      | some f =>
        obtain ⟨l, h⟩ := notifyLoop_numeric hw hl hnum f hf rs hm
        rw [h]
        exact ⟨hl, by simp⟩
      | none =>
        cases rs with
        | nil => exact ⟨hl, by simp [notifyLoop]⟩
        | cons r rs =>
          simp only [notifyLoop, unpackRequire, hf]
          cases nd.inProgs[r.id]? <;> exact ⟨hl, by simp⟩

end NodeData

theorem act_calm {n : Node} {e : Endpoint H} (a : Act H)
    (hw : e.node.Wf n.named (n.requires.map Port.toNPort) (n.provides.map Port.toNPort))
    (hw' : (e.act a).node.Wf n.named (n.requires.map Port.toNPort) (n.provides.map Port.toNPort))
    (hnum : NumericPorts n.named (n.requires.map Port.toNPort)) (hfit : ActsFit n [a]) (hst : e.stuck = false)
    (hl : e.node.locked = false) : (e.act a).stuck = false ∧ (e.act a).node.locked = false := by
  cases a with
  | connected h => exact ⟨hst, hl⟩
  | stop => exact ⟨hst, hl⟩
  | read i => exact ⟨hst, NodeData.readRequire_unlocked hw hl hnum i⟩
  | write i v =>
    have h := NodeData.writeProvide_fits hw hl i v (hfit i v (by simp))
    simp only [Endpoint.act, Endpoint.write]
    generalize e.node.writeProvide i v = r at h
    obtain ⟨nd, o⟩ := r
    cases o with
    | raised x => exact ⟨hst, h⟩
    | blocked => exact ⟨hst, h⟩
    | ok w =>
      obtain ⟨off, data⟩ := w
      simp only
      split <;> exact ⟨hst, h⟩
  | message msg =>
    simp only [Endpoint.act, Endpoint.receive, hst, Bool.false_eq_true, if_false] at hw' ⊢
    generalize onMsgReceived e.mgr msg = r at hw' ⊢
    obtain ⟨m, x, note⟩ := r
    cases x with
    | some x => exact ⟨rfl, hl⟩
    | none =>
      simp only at hw' ⊢
      have hwl : (Endpoint.withFile e.node m.files[e.inFile]?).locked = false := by
        unfold Endpoint.withFile
        (repeat' split) <;> exact hl
      generalize Endpoint.withFile e.node m.files[e.inFile]? = nd at hw' hwl ⊢
      cases note with
      | none => exact ⟨rfl, hwl⟩
      | some note =>
        simp only [Endpoint.notify] at hw' ⊢
        split
        · rename_i hfile
          rw [if_pos hfile] at hw'
          have hwn : nd.Wf n.named (n.requires.map Port.toNPort) (n.provides.map Port.toNPort) := by
            have hs := NodeData.inPortNotify_state nd true note.notification.offset.toNat note.notification.len
            generalize nd.inPortNotify true note.notification.offset.toNat note.notification.len = r at hw' hs
            obtain ⟨nd', l, o⟩ := r
            have hw2 : nd'.Wf n.named (n.requires.map Port.toNPort) (n.provides.map Port.toNPort) := by
              cases o <;> exact hw'
            simp only at hs
            rcases hs with rfl | rfl
            · exact hw2
            · exact hw2.locked nd.locked
          have h := NodeData.inPortNotify_numeric hwn hwl hnum true note.notification.offset.toNat note.notification.len
          generalize nd.inPortNotify true note.notification.offset.toNat note.notification.len = r at h
          obtain ⟨nd', l, o⟩ := r
          cases o with
          | ok u => exact ⟨rfl, h.1⟩
          | raised x => exact ⟨rfl, h.1⟩
          | blocked => exact absurd rfl h.2
        · exact ⟨rfl, hwl⟩

theorem history_calm {n : Node} {e0 : Endpoint H} (h0 : Endpoint.ofNode n = .ok e0)
    (hnum : NumericPorts n.named (n.requires.map Port.toNPort)) (as : List (Act H)) : ∀ (pre : List (Act H)),
    ActsFit n as → (e0.history pre).stuck = false → (e0.history pre).node.locked = false →
      (e0.history (pre ++ as)).stuck = false ∧ (e0.history (pre ++ as)).node.locked = false := by
  induction as with
  | nil => intro pre _ h1 h2; simpa using ⟨h1, h2⟩
  | cons a as ih =>
    intro pre hfit h1 h2
    have hact : e0.history (pre ++ [a]) = (e0.history pre).act a := by simp [Endpoint.history]
    obtain ⟨_, -, hr⟩ := client_reachable h0 pre
    obtain ⟨_, -, hr'⟩ := client_reachable h0 (pre ++ [a])
    have hw' := hr'.wf
    rw [hact] at hw'
    obtain ⟨g1, g2⟩ := act_calm a hr.wf hw' hnum (fun i v hm => hfit i v (by simp at hm; simp [hm])) h1 h2
    have := ih (pre ++ [a]) (fun i v hm => hfit i v (by simp [hm])) (by rw [hact]; exact g1) (by rw [hact]; exact g2)
    rwa [List.append_assoc] at this

/-- C109: a client of a node whose required ports are numeric, after any history - connecting, any bytes received, reads,
and writes of values that fit or go to ports that do not exist - has its lock free and its receive thread going; no access
waits, and every required port can be read. -/
theorem C109_never_hung (n : Node) (e0 e : Endpoint H) (h0 : Endpoint.ofNode n = .ok e0)
    (hnum : NumericPorts n.named (n.requires.map Port.toNPort)) (as : List (Act H)) (hfit : ActsFit n as)
    (he : e = e0.history as) :
    e.stuck = false ∧ e.node.locked = false ∧
    (∀ frame, (e.receive frame).1.stuck = false) ∧ (∀ i v, (e.write i v).2 ≠ .blocked) ∧
    (∀ i, (e.node.readRequire i).2 ≠ .blocked) ∧
    ∀ k : Nat, k < n.requires.length → e.node.inFile.isSome → ∃ v, e.node.readRequire k = (e.node, .ok v) := by
  subst he
  have hstart : e0.stuck = false ∧ e0.node.locked = false := by
    obtain ⟨hnd, hf, -⟩ := client_linked h0 []
    obtain ⟨text, -, hb⟩ := nodeData_inv hnd
    obtain ⟨i, o, df, _, _, _, _, _, h5⟩ := build_inv hb
    refine ⟨?_, by rw [h5]⟩
    rw [ofNode_eq n _ hnd, if_pos hf, Except.ok.injEq] at h0
    rw [← h0]
  have calm := fun as' (hf' : ActsFit n as') => history_calm h0 hnum as' [] hf' hstart.1 hstart.2
  simp only [List.nil_append] at calm
  obtain ⟨c1, c2⟩ := calm as hfit
  obtain ⟨text, -, hr⟩ := client_reachable h0 as
  have hw := hr.wf
  refine ⟨c1, c2, fun frame => ?_, fun i v hb => ?_, fun i hb => ?_, fun k hk hf => ?_⟩
  · have := (calm (as ++ [.message frame]) (fun i v hm => hfit i v (by simpa using hm))).1
    simpa [Endpoint.history, Endpoint.act] using this
  · have hnb : ((e0.history as).node.writeProvide i v).2 ≠ .blocked := by
      intro hb
      simp only [NodeData.writeProvide, c2, Bool.false_eq_true, if_false] at hb
      repeat' split at hb
      all_goals simp at hb
    simp only [Endpoint.write] at hb
    generalize (e0.history as).node.writeProvide i v = r at hb hnb
    obtain ⟨nd, o⟩ := r
    cases o with
    | raised x => simp at hb
    | blocked => exact hnb rfl
    | ok w =>
      simp only at hb
      split at hb <;> simp at hb
  · simp only [NodeData.readRequire, NodeData.unpackRequire, c2, Bool.false_eq_true, if_false] at hb
    repeat' split at hb
    all_goals simp at hb
  · obtain ⟨f, hf⟩ := Option.isSome_iff_exists.mp hf
    obtain ⟨bs, hp⟩ := hw.inP
    have hk' : k < (e0.history as).node.inRanges.length := by rw [hp.length.1]; simpa using hk
    obtain ⟨v, hv⟩ := NodeData.unpackRequire_numeric hw c2 hnum f hf _ (List.getElem_mem hk')
    refine ⟨v, ?_⟩
    unfold NodeData.readRequire
    rw [(lookupRange_ok hw.inC k _).mpr ⟨k, rfl, List.getElem?_eq_getElem hk'⟩]
    exact hv

/-- C109: the node data of such a client never raises for what has been received: handling a message raises only what
the file manager itself raises for it. -/
theorem C109_no_raise (n : Node) (e0 e : Endpoint H) (h0 : Endpoint.ofNode n = .ok e0)
    (hnum : NumericPorts n.named (n.requires.map Port.toNPort)) (as : List (Act H)) (hfit : ActsFit n as)
    (he : e = e0.history as) (frame : Bytes) : (e.receive frame).2 = (onMsgReceived e.mgr frame).2.1 := by
  obtain ⟨c1, c2, -⟩ := C109_never_hung n e0 e h0 hnum as hfit he
  subst he
  obtain ⟨text, -, hr⟩ := client_reachable h0 as
  have hw := hr.wf
  obtain ⟨hnd, hf, hl⟩ := client_linked h0 as
  generalize e0.history as = e at hl c1 c2 hw ⊢
  obtain ⟨o0, o1, o2, hs⟩ := hl.shape
  unfold Endpoint.receive
  rw [c1]
  simp only [Bool.false_eq_true, if_false]
  rcases onMsg_contents e.mgr frame with ⟨nn, more, i, o, off, hi, ho, hopen, hroom, he⟩ | ⟨hn, -⟩
  · obtain ⟨rfl, hsome⟩ := hs.remoteIds hi
    have : o = o0 := by rw [hs.files] at ho; simpa using ho.symm
    subst this
    obtain ⟨f0, hf0⟩ : ∃ f0, e0.node.inFile = some f0 := Option.isSome_iff_exists.mp hsome
    have hin : e.node.inFile = some o.content := by rw [hs.content0, hf0]; rfl
    have hfile : Endpoint.withFile e.node ((e.mgr.files.modify 0 fun o' =>
        { o' with content := (o.content.inputWrite off (frame.drop nn) more true).1 })[0]?) =
        { e.node with inFile := some (o.content.inputWrite off (frame.drop nn) more true).1 } := by
      rw [hs.files]
      simp [Endpoint.withFile, hin]
    rw [he]
    simp only [hs.handler0]
    rw [hl.inFile, hfile]
    rcases hnote : (o.content.inputWrite off (frame.drop nn) more true).2.2 with _ | note
    · rfl
    · have hno : note.offset.toNat = off ∧ note.len = (frame.drop nn).length := by
        simp only [FileData.inputWrite] at hnote
        (repeat' split at hnote) <;> cases hnote
        exact ⟨by simp, rfl⟩
      simp only [Option.map_some, Endpoint.notify, if_true, hno.1, hno.2]
      have hwn : ({ e.node with inFile := some (o.content.inputWrite off (frame.drop nn) more true).1 } : NodeData).Wf
          n.named (n.requires.map Port.toNPort) (n.provides.map Port.toNPort) := hw.inWrite _ hin off (frame.drop nn)
      have hroom' : off + (frame.drop nn).length ≤ (o.content.inputWrite off (frame.drop nn) more true).1.data.length := by
        have : (o.content.inputWrite off (frame.drop nn) more true).1.data.length = o.content.data.length :=
          FileData.write_length o.content off (frame.drop nn)
        rw [this]
        exact hroom
      generalize (o.content.inputWrite off (frame.drop nn) more true).1 = g at hwn hroom' ⊢
      have hb : NodeData.byteToPort { e.node with inFile := some g } off (frame.drop nn).length =
          .ok (e.node.inRanges.filter (PortRange.overlapsB off (frame.drop nn).length)) := by
        have hm : (byteMap e.node.inRanges).length = g.data.length := by
          have := byteMap_length hwn.inC
          rw [Nat.zero_add] at this
          exact this
        unfold NodeData.byteToPort
        simp only [hm]
        rw [if_neg (by omega), if_neg (by omega), byteToPortLoop_ok hwn.inC _ _ _ hroom' (by omega)]
        simp only [Nat.add_sub_cancel_left]
      obtain ⟨l, h⟩ := NodeData.notifyLoop_numeric hwn c2 hnum g rfl _
        (fun r hr => (List.mem_filter.mp hr).1 : ∀ r ∈ e.node.inRanges.filter (PortRange.overlapsB off (frame.drop nn).length),
          r ∈ e.node.inRanges)
      simp only [NodeData.inPortNotify, hb, h, if_true]
  · generalize onMsgReceived e.mgr frame = r at hn ⊢
    obtain ⟨m, x, note⟩ := r
    simp only at hn
    subst hn
    cases x <;> rfl

/-- C109: hence everything a connected provider writes reaches a reader of this kind, whatever the reader has received
before: C95 without its conditions on the reader's lock and receive thread. -/
theorem C109_in_order (nP nR : Node) (P0 R0 P P' R : Endpoint H) (hP0 : Endpoint.ofNode nP = .ok P0)
    (hR0 : Endpoint.ofNode nR = .ok R0) (before during asR : List (Act H)) (hP : P = P0.history before)
    (hP' : P' = P.history during) (hR : R = R0.history asR) (hopen : P0.Opened before)
    (hplain : ∀ b ∈ during, b.Plain) (a : Nat) (hann : R0.Announced nR asR a)
    (hnum : NumericPorts nR.named (nR.requires.map Port.toNPort)) (hfit : ActsFit nR asR)
    (hend : a + (fileBytes R.node.inFile).length ≤ Rmf.cmdStartAddr)
    (conn : Nat → Option Nat) (wire : Int → Option Nat) (hwire : Wired nP nR a conn wire)
    (htypes : ∀ w ∈ P.written during, ∀ k, conn w.1 = some k → ∃ de, SameType nP nR w.1 k de ∧ de.Exact w.2) :
    ∃ msgs, P'.mgr.queue = P.mgr.queue ++ msgs ∧ ∀ frames, Relayed wire msgs frames →
      ∃ calls, (R.history (frames.map .message)).calls = R.calls ++ calls ∧
        Each (fun (w : Nat × PyVal) (c : Nat × PyVal) => conn w.1 = some c.1 ∧ c.2.Same w.2)
          ((P.written during).filter fun w => (conn w.1).isSome) calls := by
  obtain ⟨c1, c2, -⟩ := C109_never_hung nR R0 R hR0 hnum asR hfit hR
  obtain ⟨msgs, h1, h2⟩ := C95_in_order nP nR P0 R0 P P' R hP0 hR0 before during asR hP hP' hR hopen hplain a hann c1 c2 hend
    conn wire hwire htypes
  refine ⟨msgs, h1, fun frames hf => ?_⟩
  obtain ⟨calls, k1, -, k3⟩ := h2 frames hf
  exact ⟨calls, k1, k3⟩

section Examples

/-- The reader of the example of C95 has numeric ports, and its history fits. -/
theorem fwR_numeric : NumericPorts fwR.named (fwR.requires.map Port.toNPort) := by
  have h : (fwR.requires.map Port.toNPort).map (NPort.type fwR.named) = [.ok (.prim .u32 none none none), .ok fwDe] := by
    decide +kernel
  intro p hp
  have hm : p.type fwR.named ∈ [Except.ok (.prim .u32 none none none), .ok fwDe] := by
    rw [← h]; exact List.mem_map_of_mem hp
  simp only [List.mem_cons, List.not_mem_nil, or_false] at hm
  rcases hm with hm | hm
  · exact ⟨_, hm, by simp [Elem.Numeric, TypeCode.integer], by simp [Elem.LensOk], by simp [Elem.NamesOk]⟩
  · exact ⟨_, hm, by simp [fwDe, Elem.Numeric, Fields.AllNumeric, Fields.names, Elem.NumericLeaf, TypeCode.integer],
      by simp [fwDe, Elem.LensOk, Fields.LensOk], by simp [fwDe, Elem.NamesOk, Fields.NamesOk]⟩

example : ActsFit fwR fwHistR := by
  intro i v hm
  simp [fwHistR] at hm

/-- Whatever messages it gets, it is not hung. -/
example (frames : List Bytes) : ∃ R0, Endpoint.ofNode fwR = .ok R0 ∧
    (R0.history (frames.map (Act.message (H := Unit)))).stuck = false := by
  obtain ⟨R0, hR0, -⟩ := fwR_checked
  exact ⟨R0, hR0, (C109_never_hung fwR R0 _ hR0 fwR_numeric _ (fun i v hm => by simp at hm) rfl).1⟩

end Examples

end Apx
