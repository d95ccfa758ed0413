import Verif.Proofs.Session
import Verif.Props.FileManager
import Verif.Props.Definition

/-! C73: a client keeps its node and the server in step. -/

namespace Apx
open Manager FileMap

variable {H : Type}

/-- C73: a client can be made for a node exactly if its data fit the address ranges; it starts with the
node's data and has sent nothing. -/
theorem C73_created (n : Node) (nd : NodeData) (h : n.nodeData = .ok nd) :
    ((fileBytes nd.outFile).length ≤ 0x4000000 ∧ 0x4000000 + nd.definitionFile.data.length ≤ 0x20000000 →
      ∃ e : Endpoint H, Endpoint.ofNode n = .ok e ∧ e.node = nd ∧ e.mgr.queue = [] ∧ e.inOpen = false ∧
        e.stuck = false ∧ e.calls = []) ∧
    (¬ ((fileBytes nd.outFile).length ≤ 0x4000000 ∧ 0x4000000 + nd.definitionFile.data.length ≤ 0x20000000) →
      (Endpoint.ofNode n : Py (Endpoint H)) = .error .valueError) := by
  rw [ofNode_eq n nd h]
  constructor
  · intro hf
    rw [if_pos (show SizesFit nd from hf)]
    exact ⟨_, rfl, rfl, rfl, rfl, rfl, rfl⟩
  · intro hf
    rw [if_neg (show ¬ SizesFit nd from hf)]

/-- A client made for a node, after any history. -/
theorem client_linked {n : Node} {e0 : Endpoint H} (h0 : Endpoint.ofNode n = .ok e0) (as : List (Act H)) :
    n.nodeData = .ok e0.node ∧ SizesFit e0.node ∧ Linked n e0.node (e0.history as) := by
  cases hn : n.nodeData with
  | error x =>
    unfold Endpoint.ofNode at h0
    rw [hn] at h0
    cases h0
  | ok nd =>
    rw [ofNode_eq n nd hn] at h0
    split at h0
    · rename_i hf
      cases h0
      exact ⟨rfl, hf, (linked_start n nd hf).history as⟩
    · cases h0

theorem Linked.order {n : Node} {nd0 : NodeData} {e : Endpoint H} (h : Linked n nd0 e) : e.mgr.byteOrder = '<' := by
  obtain ⟨ops, h1, _, h2⟩ := h.run
  rw [h2]
  exact run_byteOrder ops _ h1 rfl (sep_start (fresh_client _ _) _)

/-- Port data files and the definition are never empty. -/
theorem files_nonempty {n : Node} {nd : NodeData} (h : n.nodeData = .ok nd) :
    (nd.inFile.isSome = true → 0 < (fileBytes nd.inFile).length) ∧
    (nd.outFile.isSome = true → 0 < (fileBytes nd.outFile).length) ∧ 0 < nd.definitionFile.data.length := by
  obtain ⟨text, ht, hb⟩ := nodeData_inv h
  obtain ⟨i, o, df, _, h2, _, h4, h5, h6⟩ := build_inv hb
  obtain ⟨a1, a2, a3⟩ := createPortFile_ok h2
  obtain ⟨b1, b2, b3⟩ := createPortFile_ok h4
  refine ⟨fun hs => ?_, fun hs => ?_, ?_⟩
  · rw [a1]
    have : i.offset ≠ 0 := fun hz => by rw [a3.mpr hz] at hs; cases hs
    omega
  · rw [b1]
    have : o.offset ≠ 0 := fun hz => by rw [b3.mpr hz] at hs; cases hs
    omega
  · rw [h6]
    have hl := asciiEncode_length _ _ (createDefinitionFile_ok h5)
    simp only
    rw [hl]
    unfold Node.definitionText at ht
    rw [bind_ok_iff] at ht
    obtain ⟨l, _, ht⟩ := ht
    cases ht
    simp

theorem name_ascii {n : Node} {nd : NodeData} (h : n.nodeData = .ok nd) : ∀ c ∈ n.name, c.toNat < 128 := by
  obtain ⟨text, ht, ha, -⟩ := C66_content n nd h
  intro c hc
  refine ha c ?_
  unfold Node.definitionText at ht
  rw [bind_ok_iff] at ht
  obtain ⟨l, hl, ht⟩ := ht
  cases ht
  unfold Node.lines at hl
  simp only [bind_ok_iff] at hl
  obtain ⟨t, _, p, _, r, _, hl⟩ := hl
  cases hl
  cases hrest : t ++ p ++ r <;> simp [joinLines, hc]

/-- C73: when the connection is made, at any time, the client announces its out-port data (if it has any)
and its definition, with their names, lengths and addresses, and nothing else. -/
theorem C73_announces (n : Node) (e0 e : Endpoint H) (h0 : Endpoint.ofNode n = .ok e0) (as : List (Act H))
    (he : e = e0.history as) (hz : ∀ c ∈ n.name, c ≠ '\x00') (h : H) :
    ∃ b1 b2 : Bytes, (onConnected e.mgr h).2 = none ∧
      (e.act (.connected h)).mgr.queue = e.mgr.queue ++
        .connect h :: ((if e0.node.outFile.isSome then [.fileInfo b1] else []) ++ [.fileInfo b2]) ∧
      Rmf.unpackFileInfo b1 '<' = .ok (some ⟨n.name ++ ".out".toList, (fileBytes e0.node.outFile).length, 0,
        some (outAddress : Int), 0, List.replicate 32 0⟩) ∧
      Rmf.unpackFileInfo b2 '<' = .ok (some ⟨n.name ++ ".apx".toList, e0.node.definitionFile.data.length, 0,
        some (definitionAddress : Int), 0, List.replicate 32 0⟩) := by
  subst he
  obtain ⟨hnd, hf, hl⟩ := client_linked h0 as
  obtain ⟨o0, o1, o2, hs⟩ := hl.shape
  have hname := name_ascii hnd
  have hdot : ∀ c ∈ ".out".toList ++ ".apx".toList, c.toNat < 128 ∧ c ≠ '\x00' := by decide
  have hf1 := hf.1
  have hf2 := hf.2
  simp only [definitionAddress, userDataStart] at hf1 hf2
  obtain ⟨b1, p1, -, u1, -⟩ := Rmf.C07_fileinfo_roundtrip ⟨n.name ++ ".out".toList,
    (fileBytes e0.node.outFile).length, 0, some (outAddress : Int), 0, List.replicate 32 0⟩
    ⟨⟨outAddress, rfl, by decide⟩, by constructor <;> simp only <;> omega, (show (0 : Int) ≤ 0 ∧ (0 : Int) < 2 ^ 16 by decide), (show (0 : Int) ≤ 0 ∧ (0 : Int) < 2 ^ 16 by decide),
      List.length_replicate .., by
      intro c hc
      rcases List.mem_append.mp hc with hc | hc
      · exact ⟨hname c hc, hz c hc⟩
      · exact hdot c (by simp only [List.mem_append]; exact .inl hc)⟩ '<' (.inl rfl)
  obtain ⟨b2, p2, -, u2, -⟩ := Rmf.C07_fileinfo_roundtrip ⟨n.name ++ ".apx".toList,
    e0.node.definitionFile.data.length, 0, some (definitionAddress : Int), 0, List.replicate 32 0⟩
    ⟨⟨definitionAddress, rfl, by decide⟩, by constructor <;> simp only <;> omega, (show (0 : Int) ≤ 0 ∧ (0 : Int) < 2 ^ 16 by decide), (show (0 : Int) ≤ 0 ∧ (0 : Int) < 2 ^ 16 by decide),
      List.length_replicate .., by
      intro c hc
      rcases List.mem_append.mp hc with hc | hc
      · exact ⟨hname c hc, hz c hc⟩
      · exact hdot c (by simp only [List.mem_append]; exact .inr hc)⟩ '<' (.inl rfl)
  generalize e0.history as = e at hl hs ⊢
  have key : onConnected e.mgr h =
      ({ e.mgr with queue := (e.mgr.queue ++ Msg.connect h ::
        ((if e0.node.outFile.isSome then [Msg.fileInfo b1] else []) ++ [Msg.fileInfo b2])) }, none) := by
    have i2 : o2.info = ⟨n.name ++ ".apx".toList, e0.node.definitionFile.data.length, 0,
        some (definitionAddress : Int), 0, List.replicate 32 0⟩ := by
      unfold FObj.info FObj.length
      rw [hs.name2, hs.content2, hs.info2.1, hs.info2.2.1, hs.info2.2.2, hs.address2]
    unfold onConnected
    rw [hs.localMap]
    cases hsome : e0.node.outFile.isSome with
    | false =>
      simp only [Bool.false_eq_true, if_false, announce, Mgr.put, hs.files, List.getElem?_cons_succ,
        List.getElem?_cons_zero, i2, p2]
      simp
    | true =>
      have i1 : o1.info = ⟨n.name ++ ".out".toList, (fileBytes e0.node.outFile).length, 0,
          some (outAddress : Int), 0, List.replicate 32 0⟩ := by
        unfold FObj.info
        rw [hs.name1, hs.length1, hs.info1.1, hs.info1.2.1, hs.info1.2.2, (hs.address1 hsome).1]
      simp only [if_true, announce, Mgr.put, hs.files, List.getElem?_cons_succ,
        List.getElem?_cons_zero, i1, i2, p1, p2]
      simp
  refine ⟨b1, b2, by rw [key], ?_, u1, u2⟩
  simp only [Endpoint.act, key]

/-- The local files of a client lie apart. -/
theorem Linked.apart {n : Node} {nd0 : NodeData} {e : Endpoint H} (hnd : n.nodeData = .ok nd0) (hf : SizesFit nd0)
    (hl : Linked n nd0 e) :
    (e.mgr.localMap.ids.Pairwise fun i j => Disjoint (ent e.mgr.files i) (ent e.mgr.files j)) ∧
    (∀ i ∈ e.mgr.localMap.ids, 0 < (ent e.mgr.files i).length) ∧
    (∀ i ∈ e.mgr.localMap.ids, ∀ j ∈ e.mgr.localMap.ids, i ≠ j → Disjoint (ent e.mgr.files i) (ent e.mgr.files j)) := by
  obtain ⟨o0, o1, o2, hs⟩ := hl.shape
  obtain ⟨-, hpos1, hpos2⟩ := files_nonempty hnd
  have h1 : e.mgr.files[1]? = some o1 := by rw [hs.files]; rfl
  have h2 : e.mgr.files[2]? = some o2 := by rw [hs.files]; rfl
  have l2 : 0 < (ent e.mgr.files 2).length := by
    rw [ent_some h2]; simp only [FObj.length, hs.content2]; exact hpos2
  have d12 : nd0.outFile.isSome = true → Disjoint (ent e.mgr.files 1) (ent e.mgr.files 2) := by
    intro hsome
    rw [ent_some h1, ent_some h2]
    intro x ⟨⟨a, ha, ha1, ha2⟩, ⟨b, hb, hb1, hb2⟩⟩
    simp only at ha ha2 hb
    rw [(hs.address1 hsome).1] at ha
    rw [hs.address2] at hb
    cases ha
    cases hb
    rw [hs.length1] at ha2
    have := hf.1
    simp only [outAddress] at ha2
    omega
  rw [hs.localMap]
  split
  · rename_i hsome
    have l1 : 0 < (ent e.mgr.files 1).length := by
      rw [ent_some h1]; simp only [hs.length1]; exact hpos1 hsome
    refine ⟨?_, ?_, ?_⟩
    · simp only [List.pairwise_cons, List.mem_cons, List.not_mem_nil, or_false, forall_eq, List.Pairwise.nil,
        false_implies, implies_true, and_true]
      exact d12 hsome
    · intro i hi
      simp only [List.mem_cons, List.not_mem_nil, or_false] at hi
      rcases hi with rfl | rfl
      · exact l1
      · exact l2
    · intro i hi j hj hij
      simp only [List.mem_cons, List.not_mem_nil, or_false] at hi hj
      rcases hi with rfl | rfl <;> rcases hj with rfl | rfl
      · exact absurd rfl hij
      · exact d12 hsome
      · exact fun x hx => d12 hsome x ⟨hx.2, hx.1⟩
      · exact absurd rfl hij
  · refine ⟨by simp, ?_, ?_⟩
    · intro i hi
      simp only [List.mem_cons, List.not_mem_nil, or_false] at hi
      subst hi; exact l2
    · intro i hi j hj hij
      simp only [List.mem_cons, List.not_mem_nil, or_false] at hi hj
      subst hi; subst hj; exact absurd rfl hij

/-- A message that does not concern the node data. -/
theorem receive_plain {n : Node} {nd0 : NodeData} {e : Endpoint H} (hl : Linked n nd0 e) (hst : e.stuck = false)
    (msg : Bytes) (m' : Mgr H) (hm : onMsgReceived e.mgr msg = (m', none, none))
    (o o' : FObj) (ho : e.mgr.files[0]? = some o) (ho' : m'.files[0]? = some o') (hc : o'.content = o.content) :
    e.receive msg = ({ e with mgr := m' }, none) := by
  obtain ⟨o0, o1, o2, hs⟩ := hl.shape
  have : o = o0 := by rw [hs.files] at ho; simpa using ho.symm
  subst this
  unfold Endpoint.receive
  rw [hst, hm]
  simp only [Bool.false_eq_true, if_false, Endpoint.notify, hl.inFile, ho', Endpoint.withFile]
  split
  · rename_i hsome
    have h1 := hs.content0
    rw [hc]
    cases hi : nd0.inFile with
    | none => rw [hi] at h1; rw [h1] at hsome; cases hsome
    | some f =>
      rw [hi] at h1
      simp only [Option.map_some] at h1
      rw [← h1]
  · rfl

/-- FILE_OPEN for a local file. -/
theorem Linked.open {n : Node} {nd0 : NodeData} {e : Endpoint H} (hnd : n.nodeData = .ok nd0) (hf : SizesFit nd0)
    (hl : Linked n nd0 e) (hst : e.stuck = false) (i : Nat) (hi : i ∈ e.mgr.localMap.ids) (o : FObj)
    (ho : e.mgr.files[i]? = some o) (a : Nat) (ha : o.address = some (a : Int)) (x : Nat) (hx : x < 2 ^ 32)
    (h1 : a ≤ x) (h2 : x < a + o.length) (frame : Bytes) (hfr : OpenFrame x frame) :
    ∃ m', e.receive frame = ({ e with mgr := m' }, none) ∧ m'.files[i]? = some { o with isOpen := true } ∧
      m'.queue = e.mgr.queue ++ [.writeData a o.content.data] := by
  obtain ⟨ops, r1, _, r2⟩ := hl.run
  obtain ⟨d1, d2, -⟩ := hl.apart hnd hf
  obtain ⟨body, hb, hdr, more, hh, rfl⟩ := hfr
  have hbo := hl.order
  obtain ⟨m', g1, g2, g3⟩ := C39_open_sends_content clientLocal _ (fresh_client n.name nd0) '<' ops r1 e.mgr r2
    (.inl hbo) d1 d2 i hi o ho a ha x hx (by omega) (by omega) more hdr body hh (by rw [hbo]; exact hb)
  obtain ⟨o0, o1, o2, hs⟩ := hl.shape
  have h0 : e.mgr.files[0]? = some o0 := by rw [hs.files]; rfl
  rcases onMsg_contents e.mgr (hdr ++ body) with ⟨nn, mo, j, oj, off, hj, -, -, -, hm⟩ | ⟨hn, heff⟩
  · exfalso
    rw [g1] at hm
    obtain ⟨hm1, -⟩ := Prod.mk.inj hm
    rw [hm1] at g3
    simp at g3
  · rw [g1] at heff
    obtain ⟨p0, p1, p2, hp⟩ := hs.effect hl.sep.rlen heff
    have hp0 : m'.files[0]? = some p0 := by rw [hp.files]; rfl
    refine ⟨m', ?_, g2, g3⟩
    by_cases hsome : nd0.inFile.isSome = true
    · refine receive_plain hl hst _ m' g1 o0 p0 h0 hp0 ?_
      have c1 := hp.content0
      rw [hs.content0] at c1
      obtain ⟨f, hf⟩ := Option.isSome_iff_exists.mp hsome
      rw [hf] at c1
      simpa using c1.symm
    · unfold Endpoint.receive
      rw [hst, g1]
      have : e.node.inFile = none := by
        rw [hs.content0]; cases h : nd0.inFile with
        | none => rfl
        | some f => rw [h] at hsome; simp at hsome
      simp [Endpoint.notify, hl.inFile, hp0, Endpoint.withFile, this]

/-- C73: whatever happened before, when the server opens the definition file the client answers with one
message, the node's definition text; nothing else happens. -/
theorem C73_definition (n : Node) (e0 e : Endpoint H) (h0 : Endpoint.ofNode n = .ok e0) (as : List (Act H))
    (he : e = e0.history as) (hst : e.stuck = false) (frame : Bytes) (hfr : OpenFrame definitionAddress frame) :
    ∃ (e' : Endpoint H) (text : Str), n.definitionText false = .ok text ∧ e.receive frame = (e', none) ∧
      e'.mgr.queue = e.mgr.queue ++ [.writeData definitionAddress (text.map fun c => UInt8.ofNat c.toNat)] ∧
      e'.node = e.node ∧ e'.calls = e.calls := by
  subst he
  obtain ⟨hnd, hf, hl⟩ := client_linked h0 as
  obtain ⟨o0, o1, o2, hs⟩ := hl.shape
  obtain ⟨text, ht, -, hd⟩ := C66_content n _ hnd
  obtain ⟨m', g1, -, g3⟩ := hl.open hnd hf hst 2 (by rw [hs.localMap]; split <;> simp) o2 (by rw [hs.files]; rfl)
    definitionAddress hs.address2 definitionAddress (by decide) (Nat.le_refl _)
    (by have := (files_nonempty hnd).2.2; unfold FObj.length; rw [hs.content2]; omega) frame hfr
  refine ⟨_, text, ht, g1, ?_, rfl, rfl⟩
  rw [g3, hs.content2, hd]

/-- C73: whatever happened before, when the server opens the out-port data file the client answers with one
message, the current values of all provide ports. -/
theorem C73_provided (n : Node) (e0 e : Endpoint H) (h0 : Endpoint.ofNode n = .ok e0) (as : List (Act H))
    (he : e = e0.history as) (hst : e.stuck = false) (f : FileData) (hout : e.node.outFile = some f)
    (frame : Bytes) (hfr : OpenFrame outAddress frame) :
    ∃ e' : Endpoint H, e.receive frame = (e', none) ∧
      e'.mgr.queue = e.mgr.queue ++ [.writeData outAddress f.data] ∧
      e'.node = e.node ∧ e'.calls = e.calls := by
  subst he
  obtain ⟨hnd, hf, hl⟩ := client_linked h0 as
  obtain ⟨o0, o1, o2, hs⟩ := hl.shape
  have hsome : e0.node.outFile.isSome = true := by
    have := hs.content1
    rw [hout] at this
    cases hh : e0.node.outFile with
    | none => rw [hh] at this; cases this
    | some g => rfl
  have hcont : o1.content = f := by
    have := hs.content1
    obtain ⟨g, hg⟩ := Option.isSome_iff_exists.mp hsome
    rw [hout, hg] at this
    simpa using this.symm
  obtain ⟨m', g1, -, g3⟩ := hl.open hnd hf hst 1 (by rw [hs.localMap, hsome]; simp) o1 (by rw [hs.files]; rfl)
    outAddress (hs.address1 hsome).1 outAddress (by decide) (Nat.le_refl _)
    (by have := (files_nonempty hnd).2.1 hsome; rw [hs.length1]; omega) frame hfr
  refine ⟨_, g1, ?_, rfl, rfl⟩
  rw [g3, hcont]

/-- An open file stays open. -/
theorem act_stays_open {n : Node} {nd0 : NodeData} {e : Endpoint H} (hl : Linked n nd0 e) (a : Act H) (i : Nat)
    (o : FObj) (ho : e.mgr.files[i]? = some o) (hopen : o.isOpen = true) :
    ∃ o', (e.act a).mgr.files[i]? = some o' ∧ o'.isOpen = true := by
  have keep : ∀ (j : Nat) (f : FObj → FObj), (∀ x : FObj, x.isOpen = true → (f x).isOpen = true) →
      ∃ o', (e.mgr.files.modify j f)[i]? = some o' ∧ o'.isOpen = true := by
    intro j f hf
    by_cases hij : j = i
    · subst hij; exact ⟨_, modify_get _ _ _ o ho, hf o hopen⟩
    · exact ⟨o, by rw [modify_ne _ _ _ _ hij]; exact ho, hopen⟩
  cases a with
  | connected c =>
    obtain ⟨infos, hq⟩ := onConnected_queue e.mgr c
    simp only [Endpoint.act]
    rw [hq]; exact ⟨o, ho, hopen⟩
  | stop => exact ⟨o, ho, hopen⟩
  | read k => exact ⟨o, ho, hopen⟩
  | write k v =>
    simp only [Endpoint.act, Endpoint.write]
    split
    · exact ⟨o, ho, hopen⟩
    · exact ⟨o, ho, hopen⟩
    · rename_i nd off data _
      have : ∃ o', (writeLocal e.mgr e.outFile off data).1.files[i]? = some o' ∧ o'.isOpen = true := by
        rcases writeLocal_cases hl.sep e.outFile off data with he | ⟨_, _, _, _, _, ⟨_, he⟩ | ⟨_, _, _, _, _, he⟩⟩ <;>
          rw [he]
        · exact ⟨o, ho, hopen⟩
        · exact keep _ _ fun x hx => hx
        · exact keep _ _ fun x hx => hx
      split <;> rename_i hm <;> rw [hm] at this <;> exact this
  | message msg =>
    simp only [Endpoint.act, Endpoint.receive]
    split
    · exact ⟨o, ho, hopen⟩
    have heff := onMsg_effect e.mgr msg
    have : ∃ o', (onMsgReceived e.mgr msg).1.files[i]? = some o' ∧ o'.isOpen = true := by
      generalize (onMsgReceived e.mgr msg).1 = m' at heff ⊢
      cases heff with
      | same => exact ⟨o, ho, hopen⟩
      | info j => exact keep j _ fun _ _ => rfl
      | opened j => exact keep j _ fun _ _ => rfl
      | written _ _ _ j => exact keep j _ fun x hx => hx
    split <;> rename_i hm <;> rw [hm] at this
    · exact this
    · simp only [Endpoint.notify]
      (repeat' split) <;> exact this

theorem history_stays_open {n : Node} {nd0 : NodeData} (as : List (Act H)) {e : Endpoint H} (hl : Linked n nd0 e)
    (i : Nat) (o : FObj) (ho : e.mgr.files[i]? = some o) (hopen : o.isOpen = true) :
    ∃ o', (e.history as).mgr.files[i]? = some o' ∧ o'.isOpen = true := by
  induction as generalizing e o with
  | nil => exact ⟨o, ho, hopen⟩
  | cons a as ih =>
    obtain ⟨o', h1, h2⟩ := act_stays_open hl a i o ho hopen
    exact ih (hl.act a) o' h1 h2

/-- C73: once the server has opened the out-port data file, and whatever happens before and after, a copy
that is updated with the data messages the client has queued, in order, holds the current values of all
provide ports of the node. -/
theorem C73_copy (n : Node) (e0 e1 e : Endpoint H) (h0 : Endpoint.ofNode n = .ok e0) (before after : List (Act H))
    (he1 : e1 = e0.history before) (hst : e1.stuck = false) (frame : Bytes) (hfr : OpenFrame outAddress frame)
    (he : e = e0.history (before ++ .message frame :: after)) (f : FileData) (hout : e.node.outFile = some f)
    (copy : Bytes) (hcopy : copy.length = f.data.length) :
    mirrorAll outAddress copy e.mgr.queue = f.data := by
  obtain ⟨hnd, hf, hl⟩ := client_linked h0 (before ++ .message frame :: after)
  obtain ⟨-, -, hl1⟩ := client_linked h0 before
  rw [← he] at hl
  rw [← he1] at hl1
  obtain ⟨o0, o1, o2, hs⟩ := hl.shape
  obtain ⟨p0, p1, p2, hp⟩ := hl1.shape
  have hsome : e0.node.outFile.isSome = true := by
    have := hs.content1
    rw [hout] at this
    cases hh : e0.node.outFile with
    | none => rw [hh] at this; cases this
    | some g => rfl
  have hcont : o1.content = f := by
    have := hs.content1
    obtain ⟨g, hg⟩ := Option.isSome_iff_exists.mp hsome
    rw [hout, hg] at this
    simpa using this.symm
  obtain ⟨m', g1, g2, -⟩ := hl1.open hnd hf hst 1 (by rw [hp.localMap, hsome]; simp) p1 (by rw [hp.files]; rfl)
    outAddress (hp.address1 hsome).1 outAddress (by decide) (Nat.le_refl _)
    (by have := (files_nonempty hnd).2.1 hsome; rw [hp.length1]; omega) frame hfr
  have hopened : ∃ o', e.mgr.files[1]? = some o' ∧ o'.isOpen = true := by
    have hact : (e1.act (.message frame)).mgr.files[1]? = some { p1 with isOpen := true } := by
      simp only [Endpoint.act, g1]; exact g2
    have := history_stays_open after (hl1.act (.message frame)) 1 _ hact rfl
    rw [he]
    simpa [Endpoint.history, he1] using this
  obtain ⟨o', k1, k2⟩ := hopened
  have : o' = o1 := by rw [hs.files] at k1; simpa using k1.symm
  subst this
  obtain ⟨ops, r1, _, r2⟩ := hl.run
  obtain ⟨a, ha, hrep⟩ := C39_replay clientLocal _ (fresh_client n.name e0.node) '<' ops r1 e.mgr r2 1 rfl o' k1 hs.kind1 k2
    (fun j hj hne => (hl.apart hnd hf).2.2 j hj 1 (by rw [hs.localMap, hsome]; simp) hne)
  rw [(hs.address1 hsome).1] at ha
  cases ha
  have := hrep copy (by unfold FObj.length; rw [hcont]; exact hcopy)
  rw [this, hcont]

/-- C73: whatever happened before, if the client has not opened its in-port data file yet, then the
announcement of a file of that name and length makes it open the file with one FILE_OPEN message for the
announced address; its port values are as before. -/
theorem C73_requested (n : Node) (e0 e : Endpoint H) (h0 : Endpoint.ofNode n = .ok e0) (as : List (Act H))
    (he : e = e0.history as) (hst : e.stuck = false) (g : FileData) (hin : e.node.inFile = some g)
    (hclosed : e.inOpen = false) (f : Rmf.FileInfo) (hw : Rmf.WireFile f) (hname : f.name = n.name ++ ".in".toList)
    (hlen : f.length = g.data.length) (a : Nat) (ha : f.address = some (a : Int)) (frame : Bytes)
    (hfr : InfoFrame f frame) :
    ∃ e' : Endpoint H, e.receive frame = (e', none) ∧ e'.mgr.queue = e.mgr.queue ++ [.fileOpen a] ∧
      e'.inOpen = true ∧ e'.inAddress = some (a : Int) ∧ e'.node = e.node ∧ e'.calls = e.calls := by
  subst he
  obtain ⟨hnd, hf, hl⟩ := client_linked h0 as
  generalize e0.history as = e at hl hst hin hclosed ⊢
  obtain ⟨o0, o1, o2, hs⟩ := hl.shape
  have ho0 : e.mgr.files[0]? = some o0 := by rw [hs.files]; rfl
  have hreq : e.mgr.requested.lookup f.name = some 0 := by
    unfold Endpoint.inOpen at hclosed
    rw [hl.inFile, ho0] at hclosed
    simp only [Option.map_some, Option.getD_some] at hclosed
    rcases hs.status with ⟨_, ⟨h1, _⟩ | ⟨_, _, h1⟩⟩ | ⟨h1, _⟩
    · rw [h1, hname]; simp
    · rw [h1] at hclosed; cases hclosed
    · have := hs.content0; rw [h1, hin] at this; cases this
  have hcont : o0.content = g := by
    have := hs.content0
    rw [hin] at this
    cases hh : e0.node.inFile with
    | none => rw [hh] at this; cases this
    | some x => rw [hh] at this; simpa using this.symm
  obtain ⟨ops, r1, _, r2⟩ := hl.run
  obtain ⟨body, hb, hdr, more, hh, rfl⟩ := hfr
  obtain ⟨m', o', g1, g2, g3, g4, g5, -, -, g8, -⟩ := C37_open_once clientLocal _ (fresh_client n.name e0.node) '<' (.inl rfl) ops r1
    e.mgr r2 f hw 0 hreq o0 ho0 (by unfold FObj.length; rw [hcont, hlen]) a ha more hdr body hh hb
  refine ⟨_, receive_plain hl hst _ m' g1 o0 o' ho0 g2 g5, g8, ?_, ?_, rfl, rfl⟩
  · simp [Endpoint.inOpen, hl.inFile, g2, g4]
  · simp [Endpoint.inAddress, hl.inFile, g2, g3]

/-- Data for the open in-port data file. -/
theorem stored (n : Node) (e0 e : Endpoint H) (h0 : Endpoint.ofNode n = .ok e0) (as : List (Act H))
    (he : e = e0.history as) (hst : e.stuck = false) (g : FileData) (hin : e.node.inFile = some g)
    (o : FObj) (ho : e.mgr.files[0]? = some o) (hopen : e.inOpen = true) (a : Nat) (ha : o.address = some (a : Int))
    (hend : a + g.data.length ≤ Rmf.cmdStartAddr) (off : Nat) (data frame : Bytes) (hd : data ≠ [])
    (hfit : off + data.length ≤ g.data.length) (hfr : DataFrame (a + off) data frame) :
    ∃ g' : FileData, (e.receive frame).1.node.inFile = some g' ∧ Overwrites g.data off data g'.data := by
  subst he
  obtain ⟨hnd, hf, hl⟩ := client_linked h0 as
  generalize e0.history as = e at hl hst hin hopen ho ⊢
  obtain ⟨o0, o1, o2, hs⟩ := hl.shape
  have ho0 : e.mgr.files[0]? = some o0 := by rw [hs.files]; rfl
  have : o = o0 := by rw [ho] at ho0; cases ho0; rfl
  subst this
  have hcont : o.content = g := by
    have := hs.content0
    rw [hin] at this
    cases hh : e0.node.inFile with
    | none => rw [hh] at this; cases this
    | some x => rw [hh] at this; simpa using this.symm
  have hids : e.mgr.remoteMap.ids = [0] := by
    unfold Endpoint.inOpen at hopen
    rw [hl.inFile, ho0] at hopen
    simp only [Option.map_some, Option.getD_some] at hopen
    rcases hs.status with ⟨_, ⟨_, _, h1⟩ | ⟨_, h1, _⟩⟩ | ⟨h1, _⟩
    · rw [h1] at hopen; cases hopen
    · exact h1
    · have := hs.content0; rw [h1, hin] at this; cases this
  have hlen : o.length = g.data.length := by unfold FObj.length; rw [hcont]
  have hdl : 0 < data.length := List.length_pos_iff.mpr hd
  obtain ⟨hdr, hh, rfl⟩ := hfr
  have hmax : a + off < 1073741824 := by
    have : Rmf.cmdStartAddr < 1073741824 := by decide
    omega
  obtain ⟨hdr', hh', hun⟩ := Rmf.C05_header_roundtrip_exact (a + off) false hmax
  rw [hh] at hh'; cases hh'
  have hun := hun data
  rw [if_neg (fun hc => hd hc.2)] at hun
  have hpos : 0 < hdr.length := by
    have h6 := Rmf.C06_header_length ((a + off : Nat) : Int) false
    by_cases hc : ((a + off : Nat) : Int) < 16384
    · obtain ⟨b1, b2, h7⟩ := h6.1 hc
      rw [hh] at h7; cases h7; simp
    · obtain ⟨b1, b2, b3, b4, h7⟩ := h6.2.1 (by omega) (by omega)
      rw [hh] at h7; cases h7; simp
  obtain ⟨ops, r1, rn, r2⟩ := hl.run
  obtain ⟨m', o', q1, q2, q3⟩ := C36_accepted clientLocal _ (fresh_client n.name e0.node) '<' ops r1 rn e.mgr r2
    (by rw [hids]; simp) (by rw [hids]; intro i hi; simp at hi; subst hi; rw [ent_some ho]; simp only; omega)
    0 (by rw [hids]; simp) o ho hs.kind0 (hdr ++ data) hdr.length (a + off) false a off hun hpos (by omega) ha
    (by omega) (by omega) (by rw [List.drop_left]; omega)
  rw [List.drop_left, hcont] at q3
  refine ⟨o'.content, ?_, q3⟩
  unfold Endpoint.receive
  rw [hst, q1]
  rw [if_neg (by decide)]
  simp only [hl.inFile, q2]
  have hw : Endpoint.withFile e.node (some o') = { e.node with inFile := some o'.content } := by
    simp [Endpoint.withFile, hin]
  rw [hw, hs.handler0]
  simp only [and_self, if_true]
  simp only [Endpoint.notify, if_true]
  generalize hr : NodeData.inPortNotify _ _ _ _ = r
  have hstate := NodeData.inPortNotify_state { e.node with inFile := some o'.content } true (Int.toNat off) (List.drop hdr.length (hdr ++ data)).length
  rw [hr] at hstate
  obtain ⟨nd', l, oc⟩ := r
  simp only at hstate
  cases oc <;> simp only <;> rcases hstate with h | h <;> rw [h]

/-- The address of the in-port data file does not change once it is open. -/
theorem act_keeps_address {n : Node} {nd0 : NodeData} {e : Endpoint H} (hl : Linked n nd0 e) (a : Act H)
    (hopen : e.inOpen = true) : (e.act a).inOpen = true ∧ (e.act a).inAddress = e.inAddress := by
  obtain ⟨o0, o1, o2, hs⟩ := hl.shape
  have ho0 : e.mgr.files[0]? = some o0 := by rw [hs.files]; rfl
  have hin := (hl.act a).inFile
  have hop : o0.isOpen = true := by
    unfold Endpoint.inOpen at hopen
    rw [hl.inFile, ho0] at hopen
    simpa using hopen
  have hreq : e.mgr.requested = [] := by
    rcases hs.status with ⟨_, ⟨_, _, h1⟩ | ⟨h1, _⟩⟩ | ⟨_, h1, _⟩
    · rw [h1] at hop; cases hop
    · exact h1
    · exact h1
  obtain ⟨o', h1, h2⟩ := act_stays_open hl a 0 o0 ho0 hop
  have hadr : o'.address = o0.address := by
    have keep : ∀ (j : Nat) (f : FObj → FObj), (e.mgr.files.modify j f)[0]? = some o' →
        (∀ x : FObj, (f x).address = x.address) → o'.address = o0.address := by
      intro j f hm hf
      by_cases hij : j = 0
      · subst hij; rw [modify_get _ _ _ o0 ho0] at hm; cases hm; exact hf o0
      · rw [modify_ne _ _ _ _ hij, ho0] at hm; cases hm; rfl
    have same : e.mgr.files[0]? = some o' → o'.address = o0.address := by
      intro hm; rw [ho0] at hm; cases hm; rfl
    cases a with
    | connected c =>
      obtain ⟨infos, hq⟩ := onConnected_queue e.mgr c
      simp only [Endpoint.act] at h1
      rw [hq] at h1; exact same h1
    | stop => exact same h1
    | read k => exact same h1
    | write k v =>
      simp only [Endpoint.act, Endpoint.write] at h1
      split at h1
      · exact same h1
      · exact same h1
      · rename_i nd off data _
        have : (writeLocal e.mgr e.outFile off data).1.files[0]? = some o' := by
          split at h1 <;> rename_i hm <;> rw [hm] <;> exact h1
        rcases writeLocal_cases hl.sep e.outFile off data with he | ⟨_, _, _, _, _, ⟨_, he⟩ | ⟨_, _, _, _, _, he⟩⟩ <;>
          rw [he] at this
        · exact same this
        · exact keep _ _ this fun _ => rfl
        · exact keep _ _ this fun _ => rfl
    | message msg =>
      simp only [Endpoint.act, Endpoint.receive] at h1
      split at h1
      · exact same h1
      have heff := onMsg_effect e.mgr msg
      have : (onMsgReceived e.mgr msg).1.files[0]? = some o' := by
        split at h1 <;> rename_i hm <;> rw [hm]
        · exact h1
        · simp only [Endpoint.notify] at h1
          (repeat' split at h1) <;> exact h1
      generalize (onMsgReceived e.mgr msg).1 = m' at heff this
      cases heff with
      | same => exact same this
      | info j _ _ _ hq => rw [hreq] at hq; cases hq
      | opened j => exact keep j _ this fun _ => rfl
      | written _ _ _ j => exact keep j _ this fun _ => rfl
  constructor
  · simp [Endpoint.inOpen, hin, h1, h2]
  · simp [Endpoint.inAddress, hin, hl.inFile, h1, ho0, hadr]

theorem history_keeps_address {n : Node} {nd0 : NodeData} (as : List (Act H)) {e : Endpoint H} (hl : Linked n nd0 e)
    (hopen : e.inOpen = true) : (e.history as).inOpen = true ∧ (e.history as).inAddress = e.inAddress := by
  induction as generalizing e with
  | nil => exact ⟨hopen, rfl⟩
  | cons a as ih =>
    obtain ⟨h1, h2⟩ := act_keeps_address hl a hopen
    obtain ⟨h3, h4⟩ := ih (hl.act a) h1
    exact ⟨h3, h4.trans h2⟩

/-- C73: once the in-port data file has been announced at address `a`, and whatever happens before and
after, data that the server sends for bytes of that file is stored in the node's in-port data: exactly the
addressed bytes change. -/
theorem C73_stored (n : Node) (e0 e1 e : Endpoint H) (h0 : Endpoint.ofNode n = .ok e0) (before after : List (Act H))
    (he1 : e1 = e0.history before) (hst1 : e1.stuck = false) (g1 : FileData) (hin1 : e1.node.inFile = some g1)
    (hclosed : e1.inOpen = false)
    (f : Rmf.FileInfo) (hw : Rmf.WireFile f) (hname : f.name = n.name ++ ".in".toList)
    (hlen : f.length = g1.data.length) (a : Nat) (ha : f.address = some (a : Int)) (info : Bytes)
    (hinfo : InfoFrame f info) (he : e = e0.history (before ++ .message info :: after)) (hst : e.stuck = false)
    (g : FileData) (hin : e.node.inFile = some g) (hend : a + g.data.length ≤ Rmf.cmdStartAddr) (off : Nat)
    (data frame : Bytes) (hd : data ≠ []) (hfit : off + data.length ≤ g.data.length)
    (hfr : DataFrame (a + off) data frame) :
    ∃ g' : FileData, (e.receive frame).1.node.inFile = some g' ∧ Overwrites g.data off data g'.data := by
  obtain ⟨e', g1', -, g3, g4, -, -⟩ := C73_requested n e0 e1 h0 before he1 hst1 g1 hin1 hclosed f hw hname hlen a ha info hinfo
  obtain ⟨-, -, hl1⟩ := client_linked h0 before
  rw [← he1] at hl1
  have hact : e1.act (.message info) = e' := by simp only [Endpoint.act, g1']
  have hl' := hl1.act (.message info)
  rw [hact] at hl'
  have hee : e = e'.history after := by
    rw [he, ← hact, he1]; simp [Endpoint.history]
  obtain ⟨k1, k2⟩ := history_keeps_address after hl' g3
  rw [← hee] at k1 k2
  obtain ⟨-, -, hl⟩ := client_linked h0 (before ++ .message info :: after)
  rw [← he] at hl
  obtain ⟨o0, o1, o2, hs⟩ := hl.shape
  have ho0 : e.mgr.files[0]? = some o0 := by rw [hs.files]; rfl
  refine stored n e0 e h0 _ he hst g hin o0 ho0 k1 a ?_ hend off data frame hd hfit hfr
  rw [g4] at k2
  simpa [Endpoint.inAddress, hl.inFile, ho0] using k2

/-- C73 is violated for a second announcement, as it follows a new connection to the server: once the
in-port data file has been opened, every FILE_INFO, also for this file, ends the reception with an
`AssertionError`, and nothing is requested. -/
theorem C73_again_violated (n : Node) (e0 e : Endpoint H) (h0 : Endpoint.ofNode n = .ok e0) (as : List (Act H))
    (he : e = e0.history as) (hst : e.stuck = false) (hopen : e.inOpen = true) (f : Rmf.FileInfo)
    (hw : Rmf.WireFile f) (frame : Bytes) (hfr : InfoFrame f frame) :
    e.receive frame = (e, some .assertionError) := by
  subst he
  obtain ⟨hnd, hf, hl⟩ := client_linked h0 as
  generalize e0.history as = e at hl hst hopen ⊢
  obtain ⟨o0, o1, o2, hs⟩ := hl.shape
  have ho0 : e.mgr.files[0]? = some o0 := by rw [hs.files]; rfl
  have hreq : e.mgr.requested = [] := by
    unfold Endpoint.inOpen at hopen
    rw [hl.inFile, ho0] at hopen
    simp only [Option.map_some, Option.getD_some] at hopen
    rcases hs.status with ⟨_, ⟨_, _, h1⟩ | ⟨h1, _⟩⟩ | ⟨_, h1, _⟩
    · rw [h1] at hopen; cases hopen
    · exact h1
    · exact h1
  obtain ⟨body, hb, hdr, more, hh, rfl⟩ := hfr
  have := C38_unrequested_violated e.mgr (.inl hl.order) f hw (by rw [hreq]; rfl) more hdr body hh (by rw [hl.order]; exact hb)
  unfold Endpoint.receive
  rw [this, if_neg (by rw [hst]; decide)]

/-- C73: in every history the client has asked for the in-port data file once if it has opened it, and not
at all otherwise. -/
theorem C73_asks_once (n : Node) (e0 : Endpoint H) (h0 : Endpoint.ofNode n = .ok e0) (as : List (Act H)) :
    ((e0.history as).mgr.queue.filter isOpenRequest).length = if (e0.history as).inOpen then 1 else 0 := by
  obtain ⟨hnd, hf, hl⟩ := client_linked h0 []
  have hstart : (e0.mgr.queue.filter isOpenRequest).length = if e0.inOpen then 1 else 0 := by
    rw [ofNode_eq n _ hnd, if_pos hf] at h0
    have := Except.ok.inj h0
    rw [← this]; rfl
  change Linked n e0.node e0 at hl
  generalize e0.node = nd0 at hl hnd hf
  clear h0
  induction as generalizing e0 with
  | nil => exact hstart
  | cons a as ih =>
    refine ih (e0.act a) ?_ (hl.act a)
    obtain ⟨o0, o1, o2, hs⟩ := hl.shape
    obtain ⟨p0, p1, p2, hp⟩ := (hl.act a).shape
    have ho0 : e0.mgr.files[0]? = some o0 := by rw [hs.files]; rfl
    have hp0 : (e0.act a).mgr.files[0]? = some p0 := by rw [hp.files]; rfl
    simp only [Endpoint.inOpen, hl.inFile, (hl.act a).inFile, ho0, hp0, Option.map_some, Option.getD_some] at hstart ⊢
    have same : (e0.act a).mgr.files[0]?.map (·.isOpen) = e0.mgr.files[0]?.map (·.isOpen) →
        (∃ l, (e0.act a).mgr.queue = e0.mgr.queue ++ l ∧ l.filter isOpenRequest = []) →
        ((e0.act a).mgr.queue.filter isOpenRequest).length = if p0.isOpen then 1 else 0 := by
      rintro h1 ⟨l, h2, h3⟩
      rw [ho0, hp0] at h1
      simp only [Option.map_some, Option.some.injEq] at h1
      rw [h2, List.filter_append, h3, List.append_nil, hstart, h1]
    have hmod : ∀ (j : Nat) (f : FObj → FObj), (∀ x : FObj, (f x).isOpen = x.isOpen) →
        (e0.mgr.files.modify j f)[0]?.map (·.isOpen) = e0.mgr.files[0]?.map (·.isOpen) := by
      intro j f hf
      by_cases hij : j = 0
      · subst hij; rw [modify_get _ _ _ o0 ho0, ho0]; simp [hf]
      · rw [modify_ne _ _ _ _ hij]
    cases a with
    | connected c =>
      obtain ⟨infos, hq⟩ := onConnected_queue e0.mgr c
      refine same (by simp only [Endpoint.act]; rw [hq]) ?_
      simp only [Endpoint.act]
      rw [hq]
      refine ⟨_, rfl, ?_⟩
      simp [isOpenRequest]
    | stop => exact same rfl ⟨[.stop], rfl, rfl⟩
    | read k => exact same rfl ⟨[], by simp [Endpoint.act], rfl⟩
    | write k v =>
      have hw : ∀ m, (e0.act (.write k v)).mgr = m →
          m.files[0]?.map (·.isOpen) = e0.mgr.files[0]?.map (·.isOpen) ∧
          ∃ l, m.queue = e0.mgr.queue ++ l ∧ l.filter isOpenRequest = [] := by
        intro m hm
        subst hm
        simp only [Endpoint.act, Endpoint.write]
        split
        · exact ⟨rfl, [], by simp, rfl⟩
        · exact ⟨rfl, [], by simp, rfl⟩
        · rename_i nd off data _
          have : (writeLocal e0.mgr e0.outFile off data).1.files[0]?.map (·.isOpen) = e0.mgr.files[0]?.map (·.isOpen) ∧
              ∃ l, (writeLocal e0.mgr e0.outFile off data).1.queue = e0.mgr.queue ++ l ∧ l.filter isOpenRequest = [] := by
            rcases writeLocal_cases hl.sep e0.outFile off data with he | ⟨_, _, _, _, _, ⟨_, he⟩ | ⟨_, _, _, _, _, he⟩⟩ <;>
              rw [he]
            · exact ⟨rfl, [], by simp, rfl⟩
            · exact ⟨hmod _ _ fun x => rfl, [], by simp, rfl⟩
            · exact ⟨hmod _ _ fun x => rfl, _, rfl, rfl⟩
          split <;> rename_i hm <;> rw [hm] at this <;> exact this
      obtain ⟨w1, w2⟩ := hw _ rfl
      exact same w1 w2
    | message msg =>
      by_cases hstk : e0.stuck = true
      · have : e0.act (.message msg) = e0 := by simp [Endpoint.act, Endpoint.receive, hstk]
        exact same (by rw [this]) ⟨[], by rw [this]; simp, rfl⟩
      · have hmgr : (e0.act (.message msg)).mgr = (onMsgReceived e0.mgr msg).1 := by
          simp only [Endpoint.act, Endpoint.receive]
          rw [if_neg hstk]
          split <;> rename_i hm <;> rw [hm]
          · simp only [Endpoint.notify]
            (repeat' split) <;> rfl
        have heff := onMsg_effect e0.mgr msg
        rw [← hmgr] at heff
        generalize hm : (e0.act (.message msg)).mgr = m' at heff hp0 same ⊢
        cases heff with
        | same => exact same rfl ⟨[], by simp, rfl⟩
        | opened j _ _ hmem =>
          refine same ?_ ⟨_, rfl, rfl⟩
          rcases hs.localIds hmem with rfl | rfl <;> rw [hs.files] <;> rfl
        | written _ _ _ j => exact same (hmod j _ fun _ => rfl) ⟨[], by simp, rfl⟩
        | info j _ _ _ hq =>
          rcases hs.status with ⟨_, ⟨h1, _, h3⟩ | ⟨h1, _⟩⟩ | ⟨_, h1, _⟩ <;> rw [h1] at hq
          · have hj : j = 0 := by have := lookup_mem hq; simp at this; exact this.2
            subst hj
            rw [modify_get _ _ _ o0 ho0] at hp0
            cases hp0
            rw [h3] at hstart
            simp only [List.filter_append, List.length_append, hstart]
            rfl
          · cases hq
          · cases hq

/-- C73 is violated for files attached while the client is connected: nothing is sent when a local file is
attached, and announcements are made only when a connection is made. -/
theorem C73_late_violated (s : Mgr H) (i : Nat) : (attachLocalFile s i).1.queue = s.queue := by
  unfold attachLocalFile
  split <;> rfl

/-! A node with a provide port of one byte and a require port of two; the server opens the out-port data,
announces the in-port data at address 256, and sends one byte of it; the program writes the provide port. -/

def ssNode : Node := (Node.new ['N']).run
  [.addPort .provide ['P'] ['C'] none, .addPort .require ['R'] ['S'] (some ['=', '5']), .finalize false false]

def ssInfo : Rmf.FileInfo := ⟨"N.in".toList, 2, 0, some 256, 0, List.replicate 32 0⟩

def ssInfoMsg : Bytes :=
  [0xbf, 0xff, 0xfc, 0, 3, 0, 0, 0, 0, 1, 0, 0, 2, 0, 0, 0, 0, 0, 0, 0] ++ List.replicate 32 0 ++ [78, 46, 105, 110]

def ssOpen : Bytes := [0xbf, 0xff, 0xfc, 0, 10, 0, 0, 0, 0, 0, 0, 0]

def ssOpenDef : Bytes := [0xbf, 0xff, 0xfc, 0, 10, 0, 0, 0, 0, 0, 0, 4]

def ssBefore : List (Act Unit) := [.connected (), .message ssOpen, .write 0 (.int 7)]

def ssAfter : List (Act Unit) := [.write 0 (.int 8), .message [1, 1, 3], .read 0]

/-- A client of `ssNode` after a history: its in-port data, its out-port data, whether the in-port data
file is open, whether it waits for ever, and its messages but for the announcements. -/
def ssRun (as : List (Act Unit)) : List Bytes × List Bool × List (Msg Unit) :=
  match (Endpoint.ofNode ssNode : Py (Endpoint Unit)) with
  | .ok e =>
    let e := e.history as
    ([fileBytes e.node.inFile, fileBytes e.node.outFile], [e.inOpen, e.stuck], e.mgr.queue.filter fun m =>
      match m with
      | .fileInfo _ => false
      | _ => true)
  | .error _ => ([], [], [])

example : ssRun [] = ([[5, 0], [0]], [false, false], []) := by decide +kernel

/-- The hypotheses of `C73_requested` hold after `ssBefore`. -/
example : ssRun ssBefore = ([[5, 0], [7]], [false, false],
    [.connect (), .writeData 0 [0], .writeData 0 [7]]) := by decide +kernel

example : Rmf.WireFile ssInfo ∧ InfoFrame ssInfo ssInfoMsg ∧ OpenFrame outAddress ssOpen ∧
    OpenFrame definitionAddress ssOpenDef ∧ DataFrame (256 + 1) [3] [1, 1, 3] := by
  refine ⟨⟨⟨256, rfl, by decide⟩, by decide, by decide, by decide, by decide, by decide⟩,
    ⟨ssInfoMsg.drop 4, by decide +kernel, ssInfoMsg.take 4, false, by decide +kernel, by decide +kernel⟩,
    ⟨ssOpen.drop 4, by decide +kernel, ssOpen.take 4, false, by decide +kernel, by decide +kernel⟩,
    ⟨ssOpenDef.drop 4, by decide +kernel, ssOpenDef.take 4, false, by decide +kernel, by decide +kernel⟩,
    ⟨[1, 1], by decide +kernel, rfl⟩⟩

/-- The whole session. -/
example : ssRun (ssBefore ++ .message ssInfoMsg :: ssAfter) = ([[5, 3], [8]], [true, false],
    [.connect (), .writeData 0 [0], .writeData 0 [7], .fileOpen 256, .writeData 0 [8]]) := by decide +kernel

end Apx
