import Verif.Props.NodeData

/-! C32 and C34: where they fail, for all nodes. -/

namespace Apx
open NodeData

/-! ### C32 -/

/-- C32 fails for every node whose provide ports have no bytes at all: writing a value that the port can represent raises
`AttributeError`, and yet the value has been replaced. -/
theorem C32_empty_port_violated (types : List NamedType) (rq pv : List NPort) (text : Str) (nd : NodeData)
    (hr : nd.Reachable types rq pv text) (hl : nd.locked = false) (ho : nd.outFile = none) (k : Nat) (p : NPort)
    (hk : pv[k]? = some p) (de : Elem) (hde : p.type types = .ok de) (hlens : de.LensOk) (hnames : de.NamesOk) (v : PyVal)
    (bs : Bytes) (hlay : de.layout v = some bs) (ha : de.ArraysOk v) :
    ∃ nd', nd.writeProvide k v = (nd', .raised .attributeError) ∧ nd'.readProvide k = .ok (.val v) := by
  have hw := hr.wf
  obtain ⟨bs', hp⟩ := hw.outP
  obtain ⟨r, c, b, h1, h2, h3, h4⟩ := hp.get hk
  obtain ⟨e, de', e1, e2, e3, e4, _⟩ := h4.ex
  have hd : de' = de := by
    have := hde
    simp only [NPort.type, e1, ok_bind, e2, Except.ok.injEq] at this
    exact this
  subst hd
  have hlen := port_len e2 e3 e4
  obtain ⟨code, m, hc, -⟩ := compileProg_inv e4
  have hm : bs.length = r.len := by
    have h5 := Elem.layout_length' de' code m hc v bs hlay
    have h6 := compile_packLen de' code m hc
    rw [hlen] at h6
    cases h6
    exact h5
  have hpack := (C25_pack de' c e4 hlens hnames v bs hlay ha (List.replicate r.len 0) 0 (by simp [hm])).1
  have hid : r.id = k := by have := (hw.outC.get h1).1; omega
  have hlook := (lookupRange_ok hw.outC k r).mpr ⟨k, rfl, h1⟩
  have hkl : k < nd.outValues.length := by
    rw [hw.vals]
    exact (List.getElem?_eq_some_iff.mp hk).1
  refine ⟨{ nd with outValues := nd.outValues.set k (.val v) }, ?_, ?_⟩
  · unfold writeProvide
    rw [hlook]
    simp only [hid, h2, hl, hpack, ho]
    rfl
  · simp only [readProvide, hlook, ok_bind, hid, List.getElem?_set_self hkl]

/-! ### C34 -/

theorem unpackRequire_free {nd : NodeData} (hl : nd.locked = false) (r : PortRange) : (nd.unpackRequire r).2 ≠ .blocked := by
  unfold unpackRequire
  repeat' split
  all_goals simp_all

theorem readRequire_free {nd : NodeData} (hl : nd.locked = false) (i : Int) : (nd.readRequire i).2 ≠ .blocked := by
  unfold readRequire
  split
  · simp
  · exact unpackRequire_free hl _

/-- The identifiers of the ports of a file grow. -/
theorem ranges_grow {off k : Nat} {rs : List PortRange} {stop : Nat} (h : Consecutive off k rs stop) :
    rs.Pairwise (fun a b => a.id < b.id) := by
  rw [List.pairwise_iff_getElem]
  intro i j hi hj hij
  have h1 := (h.get (List.getElem?_eq_getElem hi)).1
  have h2 := (h.get (List.getElem?_eq_getElem hj)).1
  omega

/-- C34 fails whenever a peer sends what some port cannot decode: neither this port nor any of the ports after it is
notified, although they have new values too, and the exception reaches the caller. -/
theorem C34_unreadable_violated (types : List NamedType) (rq pv : List NPort) (text : Str) (nd : NodeData)
    (hr : nd.Reachable types rq pv text) (hl : nd.locked = false) (f : FileData) (hf : nd.inFile = some f) (off : Nat)
    (data : Bytes) (hd : off + data.length ≤ f.data.length) (r : PortRange) (hm : r ∈ nd.inRanges)
    (ho : r.overlapsB off data.length = true) (x : PyErr)
    (hx : (readRequire { nd with inFile := some ⟨put f.data off data⟩ } r.id).2 = .raised x) :
    (∀ kv ∈ (nd.remoteWrite true off data false).2.1, kv.1 < r.id) ∧
      ∃ y, (nd.remoteWrite true off data false).2.2 = .raised y := by
  obtain ⟨done, rest, h1, h2, h3, h4⟩ := C34_notified_partial types rq pv text nd hr f hf off data hd
  have hhit : r ∈ done ++ rest := by rw [← h1]; exact List.mem_filter.mpr ⟨hm, ho⟩
  have hdone : ∀ d ∈ done, ∃ v, (readRequire { nd with inFile := some ⟨put f.data off data⟩ } d.id).2 = .ok v := by
    intro d hdm
    have : d.id ∈ (nd.remoteWrite true off data false).2.1.map Prod.fst := by
      rw [h2]; exact List.mem_map.mpr ⟨d, hdm, rfl⟩
    obtain ⟨kv, hkv, he⟩ := List.mem_map.mp this
    refine ⟨kv.2, ?_⟩
    rw [← he, h3 kv hkv]
  have hrest : r ∈ rest := by
    rcases List.mem_append.mp hhit with h | h
    · obtain ⟨v, hv⟩ := hdone r h
      rw [hx] at hv
      cases hv
    · exact h
  have hgrow : (done ++ rest).Pairwise (fun a b => a.id < b.id) := by
    rw [← h1]
    exact (ranges_grow hr.wf.inC).sublist List.filter_sublist
  constructor
  · intro kv hkv
    have : kv.1 ∈ done.map (·.id) := by rw [← h2]; exact List.mem_map.mpr ⟨kv, hkv, rfl⟩
    obtain ⟨d, hdm, he⟩ := List.mem_map.mp this
    rw [← he]
    exact (List.pairwise_append.mp hgrow).2.2 d hdm r hrest
  · rcases h4 with ⟨h5, _⟩ | ⟨s, rest', h5, h6 | h6⟩
    · rw [h5] at hrest
      cases hrest
    · obtain ⟨y, _, h7⟩ := h6
      exact ⟨y, h7⟩
    · exact absurd h6.1 (readRequire_free (by exact hl) _)

theorem notifyLoop_locked (rs : List PortRange) (nd : NodeData) (f : FileData) (hf : nd.inFile = some f)
    (hp : ∀ r ∈ rs, (nd.inProgs[r.id]?).isSome ∧ (f.read r.offset r.len).isSome) (y : PyErr)
    (h : (nd.notifyLoop rs).2.2 = .raised y) : (nd.notifyLoop rs).1.locked = true := by
  induction rs with
  | nil => simp [notifyLoop] at h
  | cons r rs ih =>
    obtain ⟨hpr, hrd⟩ := hp r (by simp)
    obtain ⟨prog, hpr⟩ := Option.isSome_iff_exists.mp hpr
    obtain ⟨d, hrd⟩ := Option.isSome_iff_exists.mp hrd
    have hu : nd.unpackRequire r = if nd.locked then (nd, .blocked) else match execUnpackProg prog d 0 with
          | .error x => ({ nd with locked := true }, .raised x)
          | .ok v => (nd, .ok v) := by
      simp only [unpackRequire, hpr, hf, hrd]
      rfl
    simp only [notifyLoop, hu] at h ⊢
    by_cases hl : nd.locked = true
    · simp [hl] at h
    · rw [if_neg hl] at h ⊢
      cases he : execUnpackProg prog d 0 with
      | error x => rfl
      | ok v =>
        rw [he] at h
        exact ih (fun r hr => hp r (by simp [hr])) h

/-- What a write that fits does: it replaces the bytes and notifies the ports they belong to. -/
theorem remoteWrite_fits {types : List NamedType} {rq pv : List NPort} {text : Str} {nd : NodeData}
    (hr : nd.Reachable types rq pv text) {f : FileData} (hf : nd.inFile = some f) {off : Nat} {data : Bytes}
    (hd : off + data.length ≤ f.data.length) :
    nd.remoteWrite true off data false =
      match notifyLoop { nd with inFile := some ⟨put f.data off data⟩ } (nd.inRanges.filter (PortRange.overlapsB off data.length)) with
      | (nd, l, .ok ()) => (nd, l, .ok (data.length : Int))
      | (nd, l, .raised x) => (nd, l, .raised x)
      | (nd, l, .blocked) => (nd, l, .blocked) := by
  have hw := hr.wf
  have hwr : f.inputWrite (off : Int) data false true =
      (⟨put f.data off data⟩, (data.length : Int), some ⟨⟨put f.data off data⟩, off, data.length⟩) := by
    unfold FileData.inputWrite
    rw [FileData.write_fits f off data hd]
    simp only
    rw [if_pos ⟨by omega, trivial⟩]
    rfl
  have hwn : NodeData.Wf types rq pv { nd with inFile := some ⟨put f.data off data⟩ } := by
    have := hw.inWrite f hf off data
    rw [FileData.write_fits f off data hd] at this
    exact this
  have hb : byteToPort { nd with inFile := some ⟨put f.data off data⟩ } off data.length =
      .ok (nd.inRanges.filter (PortRange.overlapsB off data.length)) := by
    have hlen : (fileBytes (some ⟨put f.data off data⟩)).length = f.data.length := put_length _ _ _ hd
    have hm : (byteMap nd.inRanges).length = f.data.length := by
      have := byteMap_length hwn.inC
      simp only at this
      omega
    unfold byteToPort
    simp only [hm]
    rw [if_neg (by omega), if_neg (by omega), byteToPortLoop_ok hwn.inC _ _ _ (by rw [hlen]; omega) (by omega)]
    simp only [Nat.add_sub_cancel_left]
  unfold remoteWrite
  rw [hf]
  simp only [hwr, afterRemote, inPortNotify, if_true]
  show (match (match byteToPort { nd with inFile := some ⟨put f.data off data⟩ } off data.length with
    | .error x => (({ nd with inFile := some ⟨put f.data off data⟩ } : NodeData), [], Outcome.raised x)
    | .ok rs => notifyLoop { nd with inFile := some ⟨put f.data off data⟩ } rs) with
    | (nd, l, .ok ()) => (nd, l, Outcome.ok (data.length : Int))
    | (nd, l, .raised x) => (nd, l, Outcome.raised x)
    | (nd, l, .blocked) => (nd, l, Outcome.blocked)) = _
  rw [hb]

/-- C33 fails in the same case, for every port: a peer that sends what some port cannot decode makes all later accesses
to the node's ports wait for ever, whatever happens in between. -/
theorem C33_remote_violated (types : List NamedType) (rq pv : List NPort) (text : Str) (nd : NodeData)
    (hr : nd.Reachable types rq pv text) (hl : nd.locked = false) (f : FileData) (hf : nd.inFile = some f) (off : Nat)
    (data : Bytes) (hd : off + data.length ≤ f.data.length) (r : PortRange) (hm : r ∈ nd.inRanges)
    (ho : r.overlapsB off data.length = true) (x : PyErr)
    (hx : (readRequire { nd with inFile := some ⟨put f.data off data⟩ } r.id).2 = .raised x) (as : List Access) :
    let nd' := (nd.remoteWrite true off data false).1.run as
    (∀ (j : Nat) u, j < pv.length → (nd'.writeProvide j u).2 = .blocked) ∧
    (∀ j : Nat, j < rq.length → nd'.inFile.isSome → (nd'.readRequire j).2 = .blocked) := by
  intro nd'
  obtain ⟨y, hy⟩ := (C34_unreadable_violated types rq pv text nd hr hl f hf off data hd r hm ho x hx).2
  have hw := hr.wf
  have hwn : NodeData.Wf types rq pv { nd with inFile := some ⟨put f.data off data⟩ } := by
    have := hw.inWrite f hf off data
    rw [FileData.write_fits f off data hd] at this
    exact this
  have hfit := remoteWrite_fits hr hf hd
  have hlock : (nd.remoteWrite true off data false).1.locked = true := by
    have hk := notifyLoop_locked (nd.inRanges.filter (PortRange.overlapsB off data.length))
      { nd with inFile := some ⟨put f.data off data⟩ } ⟨put f.data off data⟩ rfl (by
        intro s hs
        obtain ⟨i, hi⟩ := List.getElem?_of_mem (List.mem_filter.mp hs).1
        obtain ⟨bs, hp⟩ := hwn.inP
        have hlen := hp.length
        have hil : i < rq.length := by
          have := (List.getElem?_eq_some_iff.mp hi).1
          simp only at hlen
          omega
        obtain ⟨s', c, b, g1, g2, _, _⟩ := hp.get (List.getElem?_eq_getElem hil)
        have hid : s.id = i := by have := (hw.inC.get hi).1; omega
        have hin := (hwn.inC.get hi).2.2
        obtain ⟨d, hd', _⟩ := (FileData.C19_read ⟨put f.data off data⟩ (s.offset : Int) s.len).1
          ⟨by omega, by simp only [fileBytes] at hin; simp only; omega⟩
        exact ⟨by rw [hid, g2]; rfl, by rw [hd']; rfl⟩)
    rw [hfit] at hy ⊢
    generalize notifyLoop _ _ = q at hy hk ⊢
    obtain ⟨a, b, c⟩ := q
    cases c with
    | ok u => cases hy
    | raised z => exact hk z rfl
    | blocked => cases hy
  have hr' : nd'.Reachable types rq pv text := by
    apply run_reachable
    exact run_reachable hr [.remote true off data false]
  have := locked_blocks hr' (run_locked as _ hlock)
  exact ⟨fun j u hj => by rw [this.1 j u hj], fun j hj hf => by rw [this.2 j hj hf]⟩

/-- The hypotheses of `C34_unreadable_violated` and `C33_remote_violated` hold of the node `ndText` and text that is
not UTF-8; the port after it has a new value. -/
example : (match ndText with
    | .ok nd => (match nd.inFile with
      | some f => decide (nd.locked = false ∧ 0 + [0xff, 0, (5 : UInt8)].length ≤ f.data.length ∧
          nd.inRanges.map (fun r => (r.id, r.overlapsB 0 3)) = [(0, true), (1, true)] ∧
          (readRequire { nd with inFile := some ⟨put f.data 0 [0xff, 0, 5]⟩ } 0).2 = .raised .unicodeError ∧
          (readRequire { nd with inFile := some ⟨put f.data 0 [0xff, 0, 5]⟩ } 1).2 = .ok (.int 5))
      | none => false)
    | .error _ => false) = true := by decide +kernel

/-- Those of `C32_empty_port_violated` hold of the node `ndEmpty`. -/
example : (match ndEmpty with
    | .ok nd => decide (nd.locked = false ∧ nd.outFile = none)
    | .error _ => false) = true ∧ (Elem.record .nil none).layout (.dict []) = some [] ∧ (Elem.record .nil none).LensOk ∧
      (Elem.record .nil none).NamesOk ∧ (Elem.record .nil none).ArraysOk (.dict []) := by
  refine ⟨by decide +kernel, by decide +kernel, ?_, ?_, ?_⟩
  · simp [Elem.LensOk, Fields.LensOk]
  · simp [Elem.NamesOk, Fields.NamesOk]
  · simp [Elem.ArraysOk, Fields.ArraysOk]

end Apx
