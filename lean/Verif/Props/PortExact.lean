import Verif.Props.NodeData
import Verif.Props.VmExact

/-! C108: exactly what reading and writing a port do, for whatever bytes and whatever value. -/

namespace Apx
namespace NodeData

theorem readRequire_eq (types : List NamedType) (rq pv : List NPort) (nd : NodeData)
    (hw : nd.Wf types rq pv) (hl : nd.locked = false) (k : Nat) (p : NPort) (hk : rq[k]? = some p)
    (de : Elem) (hde : p.type types = .ok de) (f : FileData) (hf : nd.inFile = some f) :
    ∃ r c, nd.inRanges[k]? = some r ∧ compileProg .unpack de = .ok c ∧ de.packLen = .ok r.len ∧
      r.offset + r.len ≤ f.data.length ∧ portBytes nd.inRanges nd.inFile k = some ((f.data.drop r.offset).take r.len) ∧
      nd.readRequire k = (match execUnpackProg c ((f.data.drop r.offset).take r.len) 0 with
        | .error x => ({ nd with locked := true }, .raised x)
        | .ok v => (nd, .ok v)) := by
  obtain ⟨bs, hp⟩ := hw.inP
  obtain ⟨r, c, b, h1, h2, h3, h4⟩ := hp.get hk
  obtain ⟨e, de', e1, e2, e3, e4, _⟩ := h4.ex
  have hd : de' = de := by
    simp only [NPort.type, e1, ok_bind, e2, Except.ok.injEq] at hde
    exact hde
  subst hd
  have hid : r.id = k := by have := (hw.inC.get h1).1; omega
  have hin := (hw.inC.get h1).2.2
  rw [hf] at hin
  simp only [fileBytes] at hin
  refine ⟨r, c, h1, e4, port_len e2 e3 e4, hin, by simp [portBytes, h1, hf, fileBytes], ?_⟩
  have hread : f.read (r.offset : Int) r.len = some ((f.data.drop r.offset).take r.len) := by
    unfold FileData.read
    rw [if_neg (by omega)]
    unfold FileData.slice
    simp only [Option.some.injEq]
    have : (min ((r.offset : Int) + r.len) f.data.length - r.offset).toNat = r.len := by omega
    first
      | rfl
      | (congr 1; simp; try omega)
  unfold readRequire
  rw [(lookupRange_ok hw.inC k r).mpr ⟨k, rfl, h1⟩]
  simp only [unpackRequire, hid, h2, hf, hread, hl]
  rfl

theorem readRequire_exact (types : List NamedType) (rq pv : List NPort) (nd : NodeData)
    (hw : nd.Wf types rq pv) (hl : nd.locked = false) (k : Nat) (p : NPort) (hk : rq[k]? = some p)
    (de : Elem) (hde : p.type types = .ok de) (hlens : de.LensOk) (hnames : de.NamesOk) (hf : nd.inFile.isSome) :
    ∃ bytes, portBytes nd.inRanges nd.inFile k = some bytes ∧
      (∀ v nd', nd.readRequire k = (nd', .ok v) ↔ nd' = nd ∧ de.ReadsAs bytes v) ∧
      ((∀ v, ¬ de.ReadsAs bytes v) → ∃ x, nd.readRequire k = ({ nd with locked := true }, .raised x)) := by
  obtain ⟨f, hf⟩ := Option.isSome_iff_exists.mp hf
  obtain ⟨r, c, h1, h2, h3, h4, h5, h6⟩ := readRequire_eq types rq pv nd hw hl k p hk de hde f hf
  have hlen : ((f.data.drop r.offset).take r.len).length = r.len := by simp; omega
  obtain ⟨g1, g2⟩ := C27_exactly de c h2 hlens hnames r.len h3 ((f.data.drop r.offset).take r.len) 0 (by omega)
  rw [List.drop_zero, List.take_of_length_le (l := (f.data.drop r.offset).take r.len) (by omega)] at g1 g2
  refine ⟨_, h5, fun v nd' => ?_, fun hno => ?_⟩
  · rw [h6, ← g1 v]
    cases execUnpackProg c ((f.data.drop r.offset).take r.len) 0 with
    | error x => simp
    | ok w =>
      simp only [Prod.mk.injEq, Outcome.ok.injEq, Except.ok.injEq]
      constructor
      · rintro ⟨rfl, rfl⟩; exact ⟨rfl, rfl⟩
      · rintro ⟨rfl, rfl⟩; exact ⟨rfl, rfl⟩
  · obtain ⟨x, hx⟩ := g2 hno
    exact ⟨x, by rw [h6, hx]⟩

/-- C108: reading a require port in any state that can be reached, as long as no earlier call has left the lock behind
(C33): the result is the value which the bytes of the port in the file stand for, and nothing changes; if they stand for
no value, an exception is raised. -/
theorem C108_read_partial (types : List NamedType) (rq pv : List NPort) (text : Str) (nd : NodeData)
    (hr : nd.Reachable types rq pv text) (hl : nd.locked = false) (k : Nat) (p : NPort) (hk : rq[k]? = some p)
    (de : Elem) (hde : p.type types = .ok de) (hlens : de.LensOk) (hnames : de.NamesOk) (hf : nd.inFile.isSome) :
    ∃ bytes, portBytes nd.inRanges nd.inFile k = some bytes ∧
      (∀ v nd', nd.readRequire k = (nd', .ok v) ↔ nd' = nd ∧ de.ReadsAs bytes v) ∧
      ((∀ v, ¬ de.ReadsAs bytes v) → ∃ x, nd.readRequire k = ({ nd with locked := true }, .raised x)) :=
  readRequire_exact types rq pv nd hr.wf hl k p hk de hde hlens hnames hf

/-- C108: the values that are reported when data arrive are what the bytes of the ports stand for after the write. -/
theorem C108_notified_partial (types : List NamedType) (rq pv : List NPort) (text : Str) (nd : NodeData)
    (hr : nd.Reachable types rq pv text) (f : FileData) (hf : nd.inFile = some f) (off : Nat)
    (data : Bytes) (hd : off + data.length ≤ f.data.length) (k : Nat) (v : PyVal)
    (hkv : (k, v) ∈ (nd.remoteWrite true off data false).2.1) (p : NPort) (hk : rq[k]? = some p) (de : Elem)
    (hde : p.type types = .ok de) (hlens : de.LensOk) (hnames : de.NamesOk) :
    ∃ bytes, portBytes nd.inRanges (some ⟨put f.data off data⟩) k = some bytes ∧ de.ReadsAs bytes v := by
  obtain ⟨done, rest, -, -, h3, -⟩ := C34_notified_partial types rq pv text nd hr f hf off data hd
  have h := h3 _ hkv
  have hwn : ({ nd with inFile := some ⟨put f.data off data⟩ } : NodeData).Wf types rq pv := by
    have := hr.wf.inWrite f hf off data
    rw [FileData.write_fits f off data hd] at this
    exact this
  have hl : nd.locked = false := by
    cases hl : nd.locked with
    | false => rfl
    | true =>
      exfalso
      simp only [readRequire, unpackRequire, hl, if_true] at h
      repeat' split at h
      all_goals simp at h
  obtain ⟨bytes, g1, g2, -⟩ := readRequire_exact types rq pv _ hwn hl k p hk de hde hlens hnames rfl
  exact ⟨bytes, g1, ((g2 v _).mp h).2⟩

/-- C108 fails for records inside records: whatever the bytes are, reading such a port raises an exception, and from then
on the lock is taken (C33). -/
theorem C108_nested_violated (types : List NamedType) (rq pv : List NPort) (text : Str) (nd : NodeData)
    (hr : nd.Reachable types rq pv text) (hl : nd.locked = false) (k : Nat) (p : NPort) (hk : rq[k]? = some p)
    (fs : Fields) (hde : p.type types = .ok (.record fs none)) (hlens : (Elem.record fs none).LensOk)
    (hnames : (Elem.record fs none).NamesOk) (hf : nd.inFile.isSome) (hn : ¬ fs.AllFlat) :
    ∃ x, nd.readRequire k = ({ nd with locked := true }, .raised x) := by
  obtain ⟨bytes, -, -, h⟩ := C108_read_partial types rq pv text nd hr hl k p hk _ hde hlens hnames hf
  apply h
  rintro v ⟨d, -, h2⟩
  exact hn (Fields.readsAs_flat fs _ _ _ h2)

/-- C108: writing a provide port in any state that can be reached, as long as no earlier call has left the lock behind:
the write succeeds if and only if the value has a layout (with anything in the place of empty records) and its arrays
meet the condition of C29, and it then sends exactly this layout; otherwise an exception is raised. -/
theorem C108_write_partial (types : List NamedType) (rq pv : List NPort) (text : Str) (nd : NodeData)
    (hr : nd.Reachable types rq pv text) (hl : nd.locked = false) (k : Nat) (p : NPort) (hk : pv[k]? = some p)
    (de : Elem) (hde : p.type types = .ok de) (hlens : de.LensOk) (hnames : de.NamesOk) (hf : nd.outFile.isSome)
    (v : PyVal) :
    ∃ r, nd.outRanges[k]? = some r ∧
      (∀ w, (nd.writeProvide k v).2 = .ok w ↔
        ∃ bs, de.laxLayout v = some bs ∧ de.ArraysOk v ∧ w = (r.offset, bs)) ∧
      ((∀ bs, de.laxLayout v = some bs → ¬ de.ArraysOk v) →
        ∃ x, nd.writeProvide k v = ({ nd with locked := true }, .raised x)) := by
  have hw := hr.wf
  obtain ⟨bs', hp⟩ := hw.outP
  obtain ⟨r, c, b, h1, h2, h3, h4⟩ := hp.get hk
  obtain ⟨e, de', e1, e2, e3, e4, _⟩ := h4.ex
  have hd : de' = de := by
    simp only [NPort.type, e1, ok_bind, e2, Except.ok.injEq] at hde
    exact hde
  subst hd
  have hlen := port_len e2 e3 e4
  obtain ⟨code, m, hc, -⟩ := compileProg_inv e4
  have hm : ∀ bs, de'.laxLayout v = some bs → bs.length = r.len := by
    intro bs hlay
    have h5 := Elem.laxLayout_length' de' code m hc v bs hlay
    have h6 := compile_packLen de' code m hc
    rw [hlen] at h6
    cases h6
    exact h5
  have hid : r.id = k := by have := (hw.outC.get h1).1; omega
  obtain ⟨f, hf⟩ := Option.isSome_iff_exists.mp hf
  have key := C28_exactly de' c e4 hlens hnames v (List.replicate r.len 0) 0
  have hput : ∀ bs : Bytes, bs.length = r.len →
      (List.replicate r.len (0 : UInt8)).take 0 ++ bs ++ (List.replicate r.len 0).drop (0 + bs.length) = bs := by
    intro bs h
    simp [h]
  refine ⟨r, h1, fun w => ?_, fun hno => ?_⟩
  · unfold writeProvide
    rw [(lookupRange_ok hw.outC k r).mpr ⟨k, rfl, h1⟩]
    simp only [hid, h2, hl, hf]
    cases hx : execPackProg c (List.replicate r.len 0) 0 v with
    | error x =>
      simp only [Bool.false_eq_true, if_false]
      constructor
      · intro h; simp at h
      · rintro ⟨bs, g1, g2, -⟩
        have := (key _).mpr ⟨bs, g1, g2, by simp [hm bs g1], rfl⟩
        rw [hx] at this
        simp at this
    | ok data =>
      simp only [Bool.false_eq_true, if_false, Outcome.ok.injEq]
      constructor
      · rintro rfl
        obtain ⟨bs, g1, g2, g3, g4⟩ := (key data).mp hx
        rw [hput bs (hm bs g1)] at g4
        exact ⟨bs, g1, g2, by rw [g4]⟩
      · rintro ⟨bs, g1, g2, rfl⟩
        have := (key _).mpr ⟨bs, g1, g2, by simp [hm bs g1], rfl⟩
        rw [hput bs (hm bs g1), hx] at this
        rw [Except.ok.inj this]
  · unfold writeProvide
    rw [(lookupRange_ok hw.outC k r).mpr ⟨k, rfl, h1⟩]
    simp only [hid, h2, hl, hf]
    cases hx : execPackProg c (List.replicate r.len 0) 0 v with
    | error x => exact ⟨x, rfl⟩
    | ok data =>
      obtain ⟨bs, g1, g2, -⟩ := (key data).mp hx
      exact absurd g2 (hno bs g1)

section Examples

/-- The example node, after three bytes have been received in the middle of the ports `b` and `c`. -/
def exPortsOk : Bool := match ndNode with
  | .ok nd => !nd.locked && nd.inFile.isSome && nd.outFile.isSome &&
      ((nd.remoteWrite true 3 [1, 104, 0] false).2.1 ==
        [(1, .dict [("x".toList, .int 1), ("y".toList, .int 510)]), (2, .str "h".toList)]) &&
      ((nd.writeProvide 1 (.dict [("x".toList, .int 300), ("y".toList, .int 1)])).2 matches .raised _) &&
      ((nd.writeProvide 2 (.int 258)).2 == .ok (4, [2, 1]))
  | .error _ => false

example : exPortsOk = true := by decide +kernel

example : (ndRq[2]?.map fun p => p.type ndTypes) = some (.ok (.prim .str none none (some 4))) ∧
    (Elem.prim .str none none (some 4)).LensOk ∧ (Elem.prim .str none none (some 4)).NamesOk ∧
    (Elem.prim .str none none (some 4)).ReadsAs [104, 0, 0, 0] (.str "h".toList) := by
  refine ⟨by decide +kernel, by simp [Elem.LensOk], by simp [Elem.NamesOk], Or.inr ⟨_, rfl, rfl, rfl, by decide +kernel⟩⟩

/-- `R"n"{"i"{"x"C}}`: a record inside a record, as required port. -/
def exNestedRq : List NPort :=
  [⟨"n".toList, some 0, .record (.cons (some "i".toList)
    (.record (.cons (some "x".toList) (.prim .u8 none none none) .nil) none) .nil) none, none⟩]

def exNestedOk : Bool := match NodeData.build [] exNestedRq [] "x".toList with
  | .ok nd => !nd.locked && nd.inFile.isSome && ((nd.readRequire 0).2 matches .raised _)
  | .error _ => false

example : exNestedOk = true := by decide +kernel

end Examples

end NodeData
end Apx
