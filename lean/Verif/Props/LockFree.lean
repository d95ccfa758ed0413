import Verif.Props.PortExact

/-! C33: nodes and histories for which the lock is never left behind. -/

namespace Apx

/-- The type of every one of the ports consists of integers, arrays of integers and records of these, with lengths and
names that programs can express. -/
def NumericPorts (types : List NamedType) (ports : List NPort) : Prop :=
  ∀ p ∈ ports, ∃ de, p.type types = .ok de ∧ de.Numeric ∧ de.LensOk ∧ de.NamesOk

/-- The values written have a layout by the types of the ports, and meet the condition of C29. -/
def WritesFit (types : List NamedType) (pv : List NPort) (as : List Access) : Prop :=
  ∀ i v, Access.write i v ∈ as → ∀ (k : Nat) p, i = k → pv[k]? = some p →
    ∃ de, p.type types = .ok de ∧ de.LensOk ∧ de.NamesOk ∧ (de.laxLayout v).isSome ∧ de.ArraysOk v

namespace NodeData

theorem unpackRequire_numeric {types : List NamedType} {rq pv : List NPort} {nd : NodeData} (hw : nd.Wf types rq pv)
    (hl : nd.locked = false) (hnum : NumericPorts types rq) (f : FileData) (hf : nd.inFile = some f) (r : PortRange)
    (hm : r ∈ nd.inRanges) : ∃ v, nd.unpackRequire r = (nd, .ok v) := by
  obtain ⟨k, hk⟩ := List.mem_iff_getElem?.mp hm
  obtain ⟨bs, hp⟩ := hw.inP
  have hkl : k < rq.length := by rw [← hp.length.1]; exact (List.getElem?_eq_some_iff.mp hk).1
  have hpk : rq[k]? = some rq[k] := List.getElem?_eq_getElem hkl
  obtain ⟨de, h1, h2, h3, h4⟩ := hnum _ (List.getElem_mem hkl)
  obtain ⟨r', c, g1, g2, g3, g4, -, g5⟩ := readRequire_eq types rq pv nd hw hl k _ hpk de h1 f hf
  rw [hk, Option.some.injEq] at g1
  subst g1
  obtain ⟨v, hv, -⟩ := C27_every_pattern de c g2 h3 h4 h2 r.len g3 ((f.data.drop r.offset).take r.len) 0 (by simp; omega)
  rw [hv] at g5
  refine ⟨v, ?_⟩
  unfold readRequire at g5
  rw [(lookupRange_ok hw.inC k r).mpr ⟨k, rfl, hk⟩] at g5
  exact g5

theorem notifyLoop_numeric {types : List NamedType} {rq pv : List NPort} {nd : NodeData} (hw : nd.Wf types rq pv)
    (hl : nd.locked = false) (hnum : NumericPorts types rq) (f : FileData) (hf : nd.inFile = some f) (rs : List PortRange)
    (hm : ∀ r ∈ rs, r ∈ nd.inRanges) : ∃ l, nd.notifyLoop rs = (nd, l, .ok ()) := by
  induction rs with
  | nil => exact ⟨[], rfl⟩
  | cons r rs ih =>
    obtain ⟨v, hv⟩ := unpackRequire_numeric hw hl hnum f hf r (hm r (by simp))
    obtain ⟨l, h⟩ := ih fun s hs => hm s (by simp [hs])
    exact ⟨(r.id, v) :: l, by simp only [notifyLoop, hv, h]⟩

theorem byteToPortLoop_mem (ranges : List PortRange) (fuel : Nat) : ∀ (off stop : Nat) (rs : List PortRange),
    byteToPortLoop ranges fuel off stop = .ok rs → ∀ r ∈ rs, r ∈ ranges := by
  induction fuel with
  | zero =>
    intro off stop rs h
    simp only [byteToPortLoop] at h
    split at h
    · simp at h
    · simp only [Except.ok.injEq] at h; subst h; simp
  | succ fuel ih =>
    intro off stop rs h
    simp only [byteToPortLoop] at h
    split at h
    · split at h
      · simp at h
      · rename_i id _
        split at h
        · simp at h
        · rename_i r hr
          split at h
          · simp at h
          · simp only [bind_ok_iff, Except.ok.injEq] at h
            obtain ⟨rest, h1, rfl⟩ := h
            intro s hs
            rcases List.mem_cons.mp hs with rfl | hs
            · exact List.mem_of_getElem? hr
            · exact ih _ _ _ h1 s hs
    · simp only [Except.ok.injEq] at h; subst h; simp

/-- C33, C34: whatever a peer sends, if the required ports are numeric: the data are stored, and a notification never
fails. -/
theorem remoteWrite_numeric {types : List NamedType} {rq pv : List NPort} {nd : NodeData} (hw : nd.Wf types rq pv)
    (hl : nd.locked = false) (hnum : NumericPorts types rq) (c : Bool) (off : Nat) (data : Bytes) (more : Bool) :
    (nd.remoteWrite c off data more).1.locked = false := by
  unfold remoteWrite
  cases hf : nd.inFile with
  | none => exact hl
  | some f =>
    simp only
    have hwn : ({ nd with inFile := some (f.inputWrite off data more true).1 } : NodeData).Wf types rq pv :=
      hw.inWrite f hf off data
    unfold afterRemote
    cases (f.inputWrite off data more true).2.2 with
    | none => exact hl
    | some note =>
      simp only
      unfold inPortNotify
      cases c with
      | false => exact hl
      | true =>
        simp only [if_true]
        cases hb : byteToPort _ off data.length with
        | error x => exact hl
        | ok rs =>
          have hm : ∀ r ∈ rs, r ∈ nd.inRanges := by
            unfold byteToPort at hb
            simp only at hb
            split at hb
            · simp at hb
            · split at hb
              · simp at hb
              · exact byteToPortLoop_mem _ _ _ _ _ hb
          obtain ⟨l, h⟩ := notifyLoop_numeric hwn hl hnum _ rfl rs hm
          simp only [h]
          exact hl

theorem writeProvide_fits {types : List NamedType} {rq pv : List NPort} {nd : NodeData} (hw : nd.Wf types rq pv)
    (hl : nd.locked = false) (i : Int) (v : PyVal) (hv : ∀ (k : Nat) p, i = k → pv[k]? = some p →
      ∃ de, p.type types = .ok de ∧ de.LensOk ∧ de.NamesOk ∧ (de.laxLayout v).isSome ∧ de.ArraysOk v) :
    (nd.writeProvide i v).1.locked = false := by
  unfold writeProvide
  cases hlook : lookupRange nd.outRanges i with
  | error x => exact hl
  | ok r =>
    obtain ⟨k, rfl, hk⟩ := (lookupRange_ok hw.outC i r).mp hlook
    obtain ⟨bs, hp⟩ := hw.outP
    have hid : r.id = k := by have := (hw.outC.get hk).1; omega
    have hkl : k < pv.length := by rw [← hp.length.1]; exact (List.getElem?_eq_some_iff.mp hk).1
    obtain ⟨r', c, b, h1, h2, h3, h4⟩ := hp.get (List.getElem?_eq_getElem hkl)
    rw [hk, Option.some.injEq] at h1
    subst h1
    obtain ⟨e, de', e1, e2, e3, e4, _⟩ := h4.ex
    obtain ⟨de, d1, d2, d3, d4, d5⟩ := hv k _ rfl (List.getElem?_eq_getElem hkl)
    have hd : de' = de := by
      simp only [NPort.type, e1, ok_bind, e2, Except.ok.injEq] at d1
      exact d1
    subst hd
    obtain ⟨lay, hlay⟩ := Option.isSome_iff_exists.mp d4
    have hlen := port_len e2 e3 e4
    obtain ⟨code, m, hc, -⟩ := compileProg_inv e4
    have hm : lay.length = r.len := by
      have h5 := Elem.laxLayout_length' de' code m hc v lay hlay
      have h6 := compile_packLen de' code m hc
      rw [hlen] at h6
      cases h6
      exact h5
    have hx := (C28_exactly de' c e4 d2 d3 v (List.replicate r.len 0) 0 _).mpr ⟨lay, hlay, d5, by simp [hm], rfl⟩
    simp only [hid, h2, hl, hx]
    cases nd.outFile <;> rfl

/-- C33 holds if the types and the values allow it: in a node whose required ports are numeric, after any history in
which every value written to an existing port fits its type - whatever a peer has sent, and whatever ports have been
asked for - the lock is free, and every required port can be read. -/
theorem C33_numeric_partial (types : List NamedType) (rq pv : List NPort) (text : Str) (nd : NodeData)
    (h : NodeData.build types rq pv text = .ok nd) (hnum : NumericPorts types rq) (as : List Access)
    (hfit : WritesFit types pv as) :
    (nd.run as).locked = false ∧
    (∀ k : Nat, k < rq.length → (nd.run as).inFile.isSome → ∃ v, (nd.run as).readRequire k = (nd.run as, .ok v)) ∧
    (∀ (i : Int) v, (((nd.run as).writeProvide i v).2 ≠ .blocked)) ∧
    ∀ i : Int, ((nd.run as).readRequire i).2 ≠ .blocked := by
  have hlock : (nd.run as).locked = false := by
    have hl : nd.locked = false := by
      obtain ⟨i, o, df, _, _, _, _, _, h5⟩ := build_inv h
      rw [h5]
    have hw := build_wf h
    clear h
    induction as generalizing nd with
    | nil => exact hl
    | cons a as ih =>
      refine ih (nd.step a) (fun i v hm => hfit i v (by simp [hm])) ?_ (hw.step a)
      cases a with
      | write i v => exact writeProvide_fits hw hl i v (hfit i v (by simp))
      | read i =>
        simp only [NodeData.step]
        unfold readRequire
        cases hlook : lookupRange nd.inRanges i with
        | error x => exact hl
        | ok r =>
          obtain ⟨k, rfl, hk⟩ := (lookupRange_ok hw.inC i r).mp hlook
          cases hf : nd.inFile with
          | none =>
            simp only [unpackRequire, hf]
            cases nd.inProgs[r.id]? <;> exact hl
          | some f =>
            obtain ⟨v, hv⟩ := unpackRequire_numeric hw hl hnum f hf r (List.mem_of_getElem? hk)
            simp only [hv]
            exact hl
      | remote c o d m => exact remoteWrite_numeric hw hl hnum c o d m
  have hw := (build_wf h).run as
  refine ⟨hlock, fun k hk hf => ?_, fun i v hb => ?_, fun i hb => ?_⟩
  · obtain ⟨f, hf⟩ := Option.isSome_iff_exists.mp hf
    obtain ⟨bs, hp⟩ := hw.inP
    have hk' : k < (nd.run as).inRanges.length := by rw [hp.length.1]; exact hk
    obtain ⟨v, hv⟩ := unpackRequire_numeric hw hlock hnum f hf _ (List.getElem_mem hk')
    refine ⟨v, ?_⟩
    unfold readRequire
    rw [(lookupRange_ok hw.inC k _).mpr ⟨k, rfl, List.getElem?_eq_getElem hk'⟩]
    exact hv
  · simp only [writeProvide, hlock, Bool.false_eq_true, if_false] at hb
    repeat' split at hb
    all_goals simp at hb
  · simp only [readRequire, unpackRequire, hlock, Bool.false_eq_true, if_false] at hb
    repeat' split at hb
    all_goals simp at hb

/-- C34 holds for such nodes: in any state reached by such a history, received data are stored, and the client gets, in
the order of the ports, the value of each port that has a byte in the data. -/
theorem C34_numeric_partial (types : List NamedType) (rq pv : List NPort) (text : Str) (nd : NodeData)
    (h : NodeData.build types rq pv text = .ok nd) (hnum : NumericPorts types rq) (as : List Access)
    (hfit : WritesFit types pv as) (f : FileData) (hf : (nd.run as).inFile = some f) (off : Nat) (data : Bytes)
    (hd : off + data.length ≤ f.data.length) :
    let new : NodeData := { nd.run as with inFile := some ⟨put f.data off data⟩ }
    ∃ calls, (nd.run as).remoteWrite true off data false = (new, calls, .ok data.length) ∧
      calls.map Prod.fst = ((nd.run as).inRanges.filter (PortRange.overlapsB off data.length)).map (·.id) ∧
      ∀ kv ∈ calls, new.readRequire kv.1 = (new, .ok kv.2) := by
  intro new
  have hl := (C33_numeric_partial types rq pv text nd h hnum as hfit).1
  have hw := (build_wf h).run as
  have hwn : new.Wf types rq pv := by
    have := hw.inWrite f hf off data
    rw [FileData.write_fits f off data hd] at this
    exact this
  obtain ⟨done, rest, h1, h2, h3, h4⟩ := C34_notified_partial types rq pv text _ ⟨nd, as, h, rfl⟩ f hf off data hd
  have hread : ∀ r ∈ (nd.run as).inRanges, ∃ v, new.readRequire r.id = (new, .ok v) := by
    intro r hm
    obtain ⟨v, hv⟩ := unpackRequire_numeric hwn hl hnum _ rfl r hm
    obtain ⟨k, hk⟩ := List.mem_iff_getElem?.mp hm
    have hid : r.id = k := by have := (hw.inC.get hk).1; omega
    refine ⟨v, ?_⟩
    unfold readRequire
    rw [hid, (lookupRange_ok hwn.inC k r).mpr ⟨k, rfl, hk⟩]
    exact hv
  rcases h4 with ⟨rfl, h5⟩ | ⟨r, rest', rfl, h5⟩
  · refine ⟨_, h5, ?_, h3⟩
    rw [h2, h1, List.append_nil]
  · exfalso
    have hm : r ∈ (nd.run as).inRanges := (List.mem_filter.mp (by rw [h1]; simp : r ∈ List.filter _ _)).1
    obtain ⟨v, hv⟩ := hread r hm
    change (∃ x, (new.readRequire r.id).2 = _ ∧ _) ∨ (new.readRequire r.id).2 = _ ∧ _ at h5
    rw [hv] at h5
    rcases h5 with ⟨x, h5, -⟩ | ⟨h5, -⟩ <;> simp at h5

section Examples

/-- `R"a"C`, `R"b"T["Point"]`, `R"d"S[2]`: the ports of the example node without the text. -/
def exNumRq : List NPort :=
  [⟨"a".toList, some 0, .prim .u8 none none none, some (.int 7)⟩,
   ⟨"b".toList, some 1, .refName "Point".toList, some (.list [.int 1, .int (-2)])⟩,
   ⟨"d".toList, some 2, .prim .u16 none none (some 2), none⟩]

example : (NodeData.build ndTypes exNumRq ndPv "x".toList).toOption.isSome = true := by decide +kernel

example : NumericPorts ndTypes exNumRq := by
  intro p hp
  simp only [exNumRq, List.mem_cons, List.not_mem_nil, or_false] at hp
  rcases hp with rfl | rfl | rfl
  · exact ⟨.prim .u8 none none none, by decide +kernel, by simp [Elem.Numeric, TypeCode.integer], by simp [Elem.LensOk],
      by simp [Elem.NamesOk]⟩
  · exact ⟨.record (.cons (some "x".toList) (.prim .u8 none none none)
      (.cons (some "y".toList) (.prim .s16 none none none) .nil)) none, by decide +kernel,
      by simp [Elem.Numeric, Fields.AllNumeric, Fields.names, Elem.NumericLeaf, TypeCode.integer],
      by simp [Elem.LensOk, Fields.LensOk], by simp [Elem.NamesOk, Fields.NamesOk]⟩
  · exact ⟨.prim .u16 none none (some 2), by decide +kernel, by simp [Elem.Numeric, TypeCode.integer],
      by simp [Elem.LensOk], by simp [Elem.NamesOk]⟩

example : WritesFit ndTypes ndPv [.write 0 (.int 3), .write 9 .null, .read 1, .remote true 2 [255, 255] false,
    .write 2 (.int 65535)] := by
  intro i v hm k p hk hp
  simp only [List.mem_cons, Access.write.injEq, List.not_mem_nil, or_false, reduceCtorEq, false_or] at hm
  rcases hm with ⟨rfl, rfl⟩ | ⟨rfl, rfl⟩ | ⟨rfl, rfl⟩
  · obtain rfl : k = 0 := by omega
    simp only [ndPv, List.getElem?_cons_zero, Option.some.injEq] at hp
    subst hp
    exact ⟨.prim .u8 none none none, by decide +kernel, by simp [Elem.LensOk], by simp [Elem.NamesOk], by decide +kernel,
      by simp [Elem.ArraysOk]⟩
  · obtain rfl : k = 9 := by omega
    simp [ndPv] at hp
  · obtain rfl : k = 2 := by omega
    simp only [ndPv, List.getElem?_cons_succ, List.getElem?_cons_zero, Option.some.injEq] at hp
    subst hp
    exact ⟨.prim .u16 none none none, by decide +kernel, by simp [Elem.LensOk], by simp [Elem.NamesOk], by decide +kernel,
      by simp [Elem.ArraysOk]⟩

end Examples

end NodeData
end Apx
