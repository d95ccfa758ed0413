import Verif.Proofs.InitValue
import Verif.Props.Vm

/-! C31-C35, C59: node data. -/

namespace Apx
open NodeData

/-! ### An example node -/

section
/-- `T"Point"{"x"C"y"s}` -/
def ndTypes : List NamedType :=
  [⟨"Point".toList, .record (.cons (some "x".toList) (.prim .u8 none none none)
    (.cons (some "y".toList) (.prim .s16 none none none) .nil)) none⟩]

/-- `R"a"C:=7`, `R"b"T["Point"]:={1,-2}`, `R"c"a[4]:="ab"`, `R"d"S[2]` -/
def ndRq : List NPort :=
  [⟨"a".toList, some 0, .prim .u8 none none none, some (.int 7)⟩,
   ⟨"b".toList, some 1, .refName "Point".toList, some (.list [.int 1, .int (-2)])⟩,
   ⟨"c".toList, some 2, .prim .str none none (some 4), some (.str "ab".toList)⟩,
   ⟨"d".toList, some 3, .prim .u16 none none (some 2), none⟩]

/-- `P"p"C`, `P"q"T[0]`, `P"r"S` -/
def ndPv : List NPort :=
  [⟨"p".toList, some 0, .prim .u8 none none none, none⟩,
   ⟨"q".toList, some 1, .refId 0, some (.list [.int 1, .int (-2)])⟩,
   ⟨"r".toList, some 2, .prim .u16 none none none, none⟩]

/-- The example node data. -/
def ndNode : Py NodeData := NodeData.build ndTypes ndRq ndPv "x".toList

def ndOk : Bool := match ndNode with
  | .ok nd => decide (nd.inRanges = [⟨0, 1, 0⟩, ⟨1, 3, 1⟩, ⟨4, 4, 2⟩, ⟨8, 4, 3⟩] ∧
      nd.inFile = some ⟨[7, 1, 254, 255, 97, 98, 0, 0, 0, 0, 0, 0]⟩ ∧
      nd.outRanges = [⟨0, 1, 0⟩, ⟨1, 3, 1⟩, ⟨4, 2, 2⟩])
  | .error _ => false

example : ndOk = true := by decide +kernel
end

/-! ### C31 -/

theorem partitioned_of {d : Dir} {types : List NamedType} {ports : List NPort} {ranges : List PortRange}
    {cs bs : List Bytes} {file : Option FileData} (hc : Consecutive 0 0 ranges (fileBytes file).length)
    (hp : PortsOk d types ports ranges cs bs) : Partitioned types ports ranges file := by
  refine ⟨hp.length.1, ?_, ?_, ?_, ?_⟩
  · intro k p r hk hr
    obtain ⟨r', c, b, h1, _, _, h4⟩ := hp.get hk
    rw [hr] at h1
    simp only [Option.some.injEq] at h1
    subst h1
    obtain ⟨g1, g2, _⟩ := hc.get hr
    obtain ⟨e, de, e1, e2, e3, _⟩ := h4.ex
    refine ⟨by omega, ?_, by omega⟩
    simp only [NPort.packLen, e1, ok_bind, e3]
  · have := hc.sum; omega
  · intro o ho
    obtain ⟨k, r, h1, h2⟩ := hc.owner (Nat.zero_le o) ho
    refine ⟨k, r, h1, h2, ?_⟩
    intro j s hj hs
    unfold PortRange.Owns at h2 hs
    rcases Nat.lt_trichotomy j k with h | h | h
    · have := hc.disjoint hj h1 h; omega
    · exact h
    · have := hc.disjoint h1 hj h; omega
  · intro r hr
    obtain ⟨i, hi⟩ := List.getElem?_of_mem hr
    exact (hc.get hi).2.2

/-- C31: in every reachable state the ports partition both port data files in port order. -/
theorem C31_partition (types : List NamedType) (rq pv : List NPort) (text : Str) (nd : NodeData)
    (h : nd.Reachable types rq pv text) :
    Partitioned types rq nd.inRanges nd.inFile ∧ Partitioned types pv nd.outRanges nd.outFile := by
  have hw := h.wf
  obtain ⟨bs, hp⟩ := hw.inP
  obtain ⟨bs', hp'⟩ := hw.outP
  exact ⟨partitioned_of hw.inC hp, partitioned_of hw.outC hp'⟩

/-! ### C32 -/

theorem lookupRange_ok {ranges : List PortRange} {size : Nat} (hc : Consecutive 0 0 ranges size) (i : Int)
    (r : PortRange) : lookupRange ranges i = .ok r ↔ ∃ k : Nat, i = k ∧ ranges[k]? = some r := by
  unfold lookupRange pyIndex
  by_cases hneg : i < 0
  · rw [if_pos hneg]
    constructor
    · intro h
      rw [bind_ok_iff] at h
      obtain ⟨s, h1, h2⟩ := h
      split at h2
      · omega
      · simp at h2
    · rintro ⟨k, rfl, _⟩
      omega
  · rw [if_neg hneg]
    obtain ⟨k, rfl⟩ := Int.eq_ofNat_of_zero_le (show 0 ≤ i by omega)
    constructor
    · intro h
      rw [bind_ok_iff] at h
      obtain ⟨s, h1, h2⟩ := h
      split at h2
      · simp only [Except.ok.injEq] at h2
        subst h2
        refine ⟨k, rfl, ?_⟩
        simp only [Int.toNat_natCast] at h1
        split at h1
        · rename_i x hx
          simp only [Except.ok.injEq] at h1
          rw [hx, h1]
        · simp at h1
      · simp at h2
    · rintro ⟨k', h1, h2⟩
      have : k = k' := by omega
      subst this
      have h3 := (hc.get h2).1
      simp only [Int.toNat_natCast, h2, ok_bind]
      rw [if_pos (by omega)]

theorem drop_take_put_same (data : Bytes) (off : Nat) (bs : Bytes) (h : off + bs.length ≤ data.length) :
    ((put data off bs).drop off).take bs.length = bs := (put_holds data off bs h).2

theorem drop_take_put_other (data : Bytes) (off o n : Nat) (bs : Bytes) (h : off + bs.length ≤ data.length)
    (ho : o + n ≤ off ∨ off + bs.length ≤ o) :
    ((put data off bs).drop o).take n = (data.drop o).take n := by
  apply List.ext_getElem?
  intro i
  simp only [List.getElem?_take, List.getElem?_drop]
  split
  · rename_i hi
    unfold put
    rcases ho with ho | ho
    · rw [List.append_assoc, List.getElem?_append_left (by simp; omega), List.getElem?_take_of_lt (by omega)]
    · rw [List.getElem?_append_right (by simp; omega), List.getElem?_drop]
      congr 1; simp; omega
  · rfl

/-- C32: a successful write of `v` to provide port `i` in any reachable state: `i` is a port number,
its bytes become the encoding of `v`, reading it gives `v`; the bytes and values of all other ports
and everything else stay the same. -/
theorem C32_write (types : List NamedType) (rq pv : List NPort) (text : Str) (nd nd' : NodeData)
    (hr : nd.Reachable types rq pv text) (i : Int) (v : PyVal) (w : Nat × Bytes)
    (h : nd.writeProvide i v = (nd', .ok w)) :
    ∃ (k : Nat) (p : NPort) (r : PortRange) (data : Bytes) (de : Elem), i = k ∧ pv[k]? = some p ∧
      nd.outRanges[k]? = some r ∧ w = (r.offset, data) ∧ p.type types = .ok de ∧
      portBytes nd'.outRanges nd'.outFile k = some data ∧
      (de.LensOk → de.NamesOk → de.NoEmptyInside → de.layout v = some data) ∧
      nd'.readProvide i = .ok (.val v) ∧
      (∀ j, j ≠ k → portBytes nd'.outRanges nd'.outFile j = portBytes nd.outRanges nd.outFile j) ∧
      (∀ j : Int, j ≠ i → nd'.readProvide j = nd.readProvide j) ∧
      fileBytes nd'.outFile = put (fileBytes nd.outFile) r.offset data ∧
      nd'.outRanges = nd.outRanges ∧ nd'.inRanges = nd.inRanges ∧ nd'.inFile = nd.inFile ∧
      nd'.definitionFile = nd.definitionFile ∧ nd'.locked = false := by
  have hw := hr.wf
  unfold writeProvide at h
  split at h
  · simp at h
  · rename_i r hlook
    split at h
    · simp at h
    · rename_i prog hprog
      split at h
      · simp at h
      · rename_i hlock
        split at h
        · simp at h
        · rename_i data hexec
          simp only at h
          split at h
          · simp at h
          · rename_i f hf
            simp only [Prod.mk.injEq, Outcome.ok.injEq] at h
            obtain ⟨rfl, rfl⟩ := h
            obtain ⟨k, rfl, hk⟩ := (lookupRange_ok hw.outC i r).mp hlook
            obtain ⟨bs, hp⟩ := hw.outP
            have hid : r.id = k := by have := (hw.outC.get hk).1; omega
            have hkl : k < pv.length := by
              rw [← hp.length.1]; exact (List.getElem?_eq_some_iff.mp hk).1
            obtain ⟨p, hpk⟩ : ∃ p, pv[k]? = some p := ⟨pv[k], List.getElem?_eq_getElem hkl⟩
            obtain ⟨r', c, b, h1, h2, h3, h4⟩ := hp.get hpk
            rw [hk] at h1
            simp only [Option.some.injEq] at h1
            subst h1
            rw [hid, h2] at hprog
            simp only [Option.some.injEq] at hprog
            subst hprog
            obtain ⟨e, de, e1, e2, e3, e4, _⟩ := h4.ex
            have hlen : data.length = r.len := by
              have := (C58_frame c _ data 0 v hexec).1
              simpa using this
            have hin : r.offset + data.length ≤ f.data.length := by
              have := (hw.outC.get hk).2.2
              rw [hf] at this
              rw [hlen]; exact this
            have hwr : (f.write (r.offset : Int) data).1 = ⟨put f.data r.offset data⟩ := by
              rw [FileData.write_fits f r.offset data hin]
              rfl
            have hvals : k < nd.outValues.length := by rw [hw.vals]; exact hkl
            have hlook' : lookupRange nd.outRanges (k : Int) = .ok r := (lookupRange_ok hw.outC k r).mpr ⟨k, rfl, hk⟩
            refine ⟨k, p, r, data, de, rfl, hpk, hk, rfl, ?_, ?_, ?_, ?_, ?_, ?_, ?_, rfl, rfl, rfl, rfl, ?_⟩
            · simp only [NPort.type, e1, ok_bind, e2]
            · simp only [portBytes, hk, Option.map_some, hwr, fileBytes]
              rw [← hlen, drop_take_put_same _ _ _ hin]
            · intro hl hn hne
              obtain ⟨bs, b1, b2, b3⟩ := pack_inverse de c e4 hl hn hne v _ 0 data hexec
              obtain ⟨b4, b5⟩ := pack_forward de c e4 hl hn v bs b1 b2 _ 0 b3
              rw [hexec] at b4
              simp only [Except.ok.injEq] at b4
              have hlen' : bs.length = r.len := by
                have := port_len e2 e3 e4
                rw [b5] at this
                simpa using this
              rw [b1, b4]
              simp [put, hlen', List.drop_of_length_le]
            · simp only [readProvide, hlook', ok_bind, hid]
              rw [List.getElem?_set_self hvals]
            · intro j hj
              simp only [portBytes]
              cases hjr : nd.outRanges[j]? with
              | none => rfl
              | some s =>
                simp only [Option.map_some, hwr, hf, fileBytes, Option.some.injEq]
                apply drop_take_put_other _ _ _ _ _ hin
                rcases Nat.lt_or_gt_of_ne hj with hlt | hgt
                · left; exact hw.outC.disjoint hjr hk hlt
                · right; rw [hlen]; exact hw.outC.disjoint hk hjr hgt
            · intro j hj
              simp only [readProvide]
              cases hjl : lookupRange nd.outRanges j with
              | error x => rfl
              | ok s =>
                obtain ⟨m, rfl, hm⟩ := (lookupRange_ok hw.outC j s).mp hjl
                have hsid : s.id = m := by have := (hw.outC.get hm).1; omega
                have hne : k ≠ m := by intro hkm; apply hj; omega
                simp only [ok_bind, hid, hsid]
                rw [List.getElem?_set_ne hne]
            · simp only [hwr, hf, fileBytes]
            · simpa using hlock

/-- C32: a failing (or blocked) write changes neither the files nor any value, provided the node
has an output file at all. -/
theorem C32_failed_partial (nd nd' : NodeData) (i : Int) (v : PyVal) (o : Outcome (Nat × Bytes))
    (hf : nd.outFile.isSome) (h : nd.writeProvide i v = (nd', o)) (ho : ∀ w, o ≠ .ok w) :
    nd'.outFile = nd.outFile ∧ nd'.outValues = nd.outValues ∧ nd'.inFile = nd.inFile ∧
      nd'.definitionFile = nd.definitionFile ∧ ∀ j, nd'.readProvide j = nd.readProvide j := by
  unfold writeProvide at h
  split at h
  · simp only [Prod.mk.injEq] at h; obtain ⟨rfl, rfl⟩ := h; simp
  · split at h
    · simp only [Prod.mk.injEq] at h; obtain ⟨rfl, rfl⟩ := h; simp
    · split at h
      · simp only [Prod.mk.injEq] at h; obtain ⟨rfl, rfl⟩ := h; simp
      · split at h
        · simp only [Prod.mk.injEq] at h; obtain ⟨rfl, rfl⟩ := h; simp [readProvide]
        · simp only at h
          split at h
          · rename_i hn; rw [hn] at hf; simp at hf
          · simp only [Prod.mk.injEq] at h
            obtain ⟨_, rfl⟩ := h
            exact absurd rfl (ho _)

/-- C32: a value that the port's type can represent is accepted, unless the lock has been leaked (C33)
or the port has no bytes. -/
theorem C32_accepts (types : List NamedType) (rq pv : List NPort) (text : Str) (nd : NodeData)
    (hr : nd.Reachable types rq pv text) (hl : nd.locked = false) (k : Nat) (p : NPort) (hk : pv[k]? = some p)
    (de : Elem) (hde : p.type types = .ok de) (hlens : de.LensOk) (hnames : de.NamesOk) (v : PyVal) (bs : Bytes)
    (hlay : de.layout v = some bs) (ha : de.ArraysOk v) (h0 : bs ≠ []) :
    ∃ (nd' : NodeData) (off : Nat), nd.writeProvide k v = (nd', .ok (off, bs)) := by
  have hw := hr.wf
  obtain ⟨bs', hp⟩ := hw.outP
  obtain ⟨r, c, b, h1, h2, h3, h4⟩ := hp.get hk
  obtain ⟨e, de', e1, e2, e3, e4, _⟩ := h4.ex
  have hd : de' = de := by
    have := hde
    simp only [NPort.type, e1, ok_bind, e2, Except.ok.injEq] at this
    exact this
  subst hd
  have hlen := port_len e2 e3 e4
  obtain ⟨code, m, hc, -⟩ := compileProg_inv e4
  have hm : bs.length = r.len := by
    have h5 := Elem.layout_length' de' code m hc v bs hlay
    have h6 := compile_packLen de' code m hc
    rw [hlen] at h6
    cases h6
    exact h5
  have hpack := (C25_pack de' c e4 hlens hnames v bs hlay ha (List.replicate r.len 0) 0 (by simp [hm])).1
  have hres : (List.replicate r.len (0 : UInt8)).take 0 ++ bs ++ (List.replicate r.len 0).drop (0 + bs.length) = bs := by
    simp [hm]
  rw [hres] at hpack
  have hid : r.id = k := by have := (hw.outC.get h1).1; omega
  have hfile : ∃ f, nd.outFile = some f := by
    cases hf : nd.outFile with
    | some f => exact ⟨f, rfl⟩
    | none =>
      have := (hw.outC.get h1).2.2
      rw [hf] at this
      simp only [fileBytes, List.length_nil] at this
      exact absurd (List.eq_nil_of_length_eq_zero (by omega)) h0
  obtain ⟨f, hf⟩ := hfile
  suffices h : ∃ nd', nd.writeProvide k v = (nd', .ok (r.offset, bs)) from h.elim fun nd' h => ⟨nd', _, h⟩
  unfold writeProvide
  rw [(lookupRange_ok hw.outC k r).mpr ⟨k, rfl, h1⟩]
  simp only [hid, h2, hl, hpack, hf]
  exact ⟨_, rfl⟩

/-- The node `P"p"{}`. -/
def ndEmpty : Py NodeData := NodeData.build [] [] [⟨"p".toList, some 0, .record .nil none, none⟩] []

/-- C32 fails in one corner: when the node's provide ports have no bytes at all, there is no output
file; writing raises `AttributeError` but the value has been replaced. -/
example : ∃ nd nd', ndEmpty = .ok nd ∧
    nd.writeProvide 0 (.dict []) = (nd', .raised .attributeError) ∧
    nd.readProvide 0 = .ok (.val (.int 0)) ∧ nd'.readProvide 0 = .ok (.val (.dict [])) := by
  have h : ∃ nd, ndEmpty = .ok nd ∧ nd.outRanges = [⟨0, 0, 0⟩] ∧ nd.outProgs = [[1, 0, 0, 0, 0, 29, 31]] ∧
      nd.locked = false ∧ nd.outFile = none ∧ nd.outValues = [.val (.int 0)] := by
    refine ⟨⟨[], [], none, [⟨0, 0, 0⟩], [[1, 0, 0, 0, 0, 29, 31]], none, [.val (.int 0)], ⟨[]⟩, false⟩, ?_, rfl, rfl, rfl, rfl, rfl⟩
    unfold ndEmpty build
    simp only [addPorts, ok_bind]
    have h1 : createPortFile .empty = .ok none := rfl
    have h2 : addPort .pack [] .empty ⟨"p".toList, some 0, .record .nil none, none⟩ =
        .ok ⟨0, [⟨0, 0, 0⟩], [[1, 0, 0, 0, 0, 29, 31]], []⟩ := by
      have : compileProg .pack (.record .nil none) = .ok [1, 0, 0, 0, 0, 29, 31] := by decide +kernel
      have hp : (Elem.record .nil none).packLen = .ok 0 := by decide +kernel
      simp only [addPort, Elem.resolveType, Fields.resolveType, ok_bind, assertId, Elem.resolveDataElement,
        Elem.resolveLoop, maxRecurseDepth, this, hp]
      rfl
    rw [h1, h2]
    rfl
  obtain ⟨nd, h0, h1, h2, h3, h4, h5⟩ := h
  have hx : execPackProg [1, 0, 0, 0, 0, 29, 31] [] 0 (.dict []) = .ok [] := by decide +kernel
  refine ⟨nd, { nd with outValues := [.val (.dict [])] }, h0, ?_, ?_, ?_⟩
  · unfold writeProvide
    simp [h1, h2, h3, h4, h5, lookupRange, pyIndex, ok_bind, hx]
  · simp [readProvide, lookupRange, pyIndex, h1, h5, ok_bind]
  · simp [readProvide, lookupRange, pyIndex, h1, ok_bind]

section
def exWriteOk : Bool := match ndNode with
  | .ok nd => match nd.writeProvide 1 (.dict [("y".toList, .int 258), ("x".toList, .int 9)]) with
    | (nd', .ok w) => decide (w = (1, [9, 2, 1]) ∧ nd'.outFile = some ⟨[0, 9, 2, 1, 0, 0]⟩)
    | _ => false
  | .error _ => false

example : exWriteOk = true := by decide +kernel
end

/-! ### C33 -/

theorem step_locked (nd : NodeData) (a : Access) (h : nd.locked = true) : (nd.step a).locked = true := by
  cases a with
  | write i v =>
    simp only [NodeData.step]
    unfold writeProvide
    split
    · exact h
    · split
      · exact h
      · rw [if_pos h]; exact h
  | read i =>
    simp only [NodeData.step]
    rcases readRequire_state nd i with e | e <;> rw [e]
    · exact h
  | remote c off data more =>
    simp only [NodeData.step]
    unfold remoteWrite
    split
    · exact h
    · simp only
      rename_i f hf
      rcases afterRemote_state { nd with inFile := some (f.inputWrite off data more true).1 } c off data.length
        (f.inputWrite off data more true).2.1 (f.inputWrite off data more true).2.2 with e | e <;> rw [e]
      exact h

theorem run_locked (as : List Access) (nd : NodeData) (h : nd.locked = true) : (nd.run as).locked = true := by
  induction as generalizing nd with
  | nil => exact h
  | cons a as ih => exact ih _ (step_locked nd a h)

theorem run_reachable {types : List NamedType} {rq pv : List NPort} {text : Str} {nd : NodeData}
    (h : nd.Reachable types rq pv text) (as : List Access) : (nd.run as).Reachable types rq pv text := by
  obtain ⟨nd0, bs, h1, rfl⟩ := h
  refine ⟨nd0, bs ++ as, h1, ?_⟩
  clear h1
  induction bs generalizing nd0 with
  | nil => rfl
  | cons b bs ih => exact ih (nd0.step b)

/-- With the lock left acquired, every access to an existing port blocks. -/
theorem locked_blocks {types : List NamedType} {rq pv : List NPort} {text : Str} {nd : NodeData}
    (h : nd.Reachable types rq pv text) (hl : nd.locked = true) :
    (∀ (k : Nat) v, k < pv.length → nd.writeProvide k v = (nd, .blocked)) ∧
    (∀ k : Nat, k < rq.length → nd.inFile.isSome → nd.readRequire k = (nd, .blocked)) := by
  have hw := h.wf
  constructor
  · intro k v hk
    obtain ⟨bs, hp⟩ := hw.outP
    obtain ⟨r, c, b, h1, h2, _, _⟩ := hp.get (List.getElem?_eq_getElem hk)
    have hid : r.id = k := by have := (hw.outC.get h1).1; omega
    unfold writeProvide
    rw [(lookupRange_ok hw.outC k r).mpr ⟨k, rfl, h1⟩]
    simp only [hid, h2]
    rw [if_pos hl]
  · intro k hk hf
    obtain ⟨bs, hp⟩ := hw.inP
    obtain ⟨r, c, b, h1, h2, _, _⟩ := hp.get (List.getElem?_eq_getElem hk)
    have hid : r.id = k := by have := (hw.inC.get h1).1; omega
    obtain ⟨f, hf⟩ := Option.isSome_iff_exists.mp hf
    have hin := (hw.inC.get h1).2.2
    rw [hf] at hin
    obtain ⟨data, hd, _⟩ := (FileData.C19_read f (r.offset : Int) r.len).1 ⟨by omega, by simp only [fileBytes] at hin; omega⟩
    unfold readRequire
    rw [(lookupRange_ok hw.inC k r).mpr ⟨k, rfl, h1⟩]
    simp only [unpackRequire, hid, h2, hf, hd]
    rw [if_pos hl]

/-- C33 fails, always: once the encoder raises for a provide port, every later access to any port,
whatever happens in between, blocks forever. -/
theorem C33_write_violated (types : List NamedType) (rq pv : List NPort) (text : Str) (nd nd' : NodeData)
    (hr : nd.Reachable types rq pv text) (k : Nat) (hk : k < pv.length) (v : PyVal) (x : PyErr)
    (ho : nd.outFile.isSome) (h : nd.writeProvide k v = (nd', .raised x)) (as : List Access) :
    (∀ (j : Nat) u, j < pv.length → ((nd'.run as).writeProvide j u).2 = .blocked) ∧
    (∀ j : Nat, j < rq.length → (nd'.run as).inFile.isSome → ((nd'.run as).readRequire j).2 = .blocked) := by
  have hw := hr.wf
  have hlock : nd'.locked = true := by
    obtain ⟨bs, hp⟩ := hw.outP
    obtain ⟨r, c, b, h1, h2, _, _⟩ := hp.get (List.getElem?_eq_getElem hk)
    have hid : r.id = k := by have := (hw.outC.get h1).1; omega
    unfold writeProvide at h
    rw [(lookupRange_ok hw.outC k r).mpr ⟨k, rfl, h1⟩] at h
    simp only [hid, h2] at h
    split at h
    · simp at h
    · split at h
      · simp only [Prod.mk.injEq] at h
        rw [← h.1]
      · split at h
        · rename_i hn; rw [hn] at ho; simp at ho
        · simp at h
  have hr' : (nd'.run as).Reachable types rq pv text := by
    apply run_reachable
    have := run_reachable hr [.write k v]
    simp only [NodeData.run, NodeData.step, h] at this
    exact this
  have := locked_blocks hr' (run_locked as nd' hlock)
  exact ⟨fun j u hj => by rw [this.1 j u hj], fun j hj hf => by rw [this.2 j hj hf]⟩

/-- C33 fails in the same way when decoding a require port raises. -/
theorem C33_read_violated (types : List NamedType) (rq pv : List NPort) (text : Str) (nd nd' : NodeData)
    (hr : nd.Reachable types rq pv text) (k : Nat) (hk : k < rq.length) (x : PyErr) (hi : nd.inFile.isSome)
    (h : nd.readRequire k = (nd', .raised x)) (as : List Access) :
    (∀ (j : Nat) u, j < pv.length → ((nd'.run as).writeProvide j u).2 = .blocked) ∧
    (∀ j : Nat, j < rq.length → (nd'.run as).inFile.isSome → ((nd'.run as).readRequire j).2 = .blocked) := by
  have hw := hr.wf
  have hlock : nd'.locked = true := by
    obtain ⟨bs, hp⟩ := hw.inP
    obtain ⟨r, c, b, h1, h2, _, _⟩ := hp.get (List.getElem?_eq_getElem hk)
    have hid : r.id = k := by have := (hw.inC.get h1).1; omega
    obtain ⟨f, hf⟩ := Option.isSome_iff_exists.mp hi
    have hin := (hw.inC.get h1).2.2
    rw [hf] at hin
    obtain ⟨data, hd, _⟩ := (FileData.C19_read f (r.offset : Int) r.len).1 ⟨by omega, by simp only [fileBytes] at hin; omega⟩
    unfold readRequire at h
    rw [(lookupRange_ok hw.inC k r).mpr ⟨k, rfl, h1⟩] at h
    simp only [unpackRequire, hid, h2, hf, hd] at h
    split at h
    · simp at h
    · split at h
      · simp only [Prod.mk.injEq] at h
        rw [← h.1]
      · simp at h
  have hr' : (nd'.run as).Reachable types rq pv text := by
    apply run_reachable
    have := run_reachable hr [.read k]
    simp only [NodeData.run, NodeData.step, h] at this
    exact this
  have := locked_blocks hr' (run_locked as nd' hlock)
  exact ⟨fun j u hj => by rw [this.1 j u hj], fun j hj hf => by rw [this.2 j hj hf]⟩

/-- C33, what remains true: successful accesses, and accesses to ports that do not exist, leave the
lock free. -/
theorem C33_success_partial (types : List NamedType) (rq pv : List NPort) (text : Str) (nd : NodeData)
    (hr : nd.Reachable types rq pv text) :
    (∀ i v nd' w, nd.writeProvide i v = (nd', .ok w) → nd'.locked = false) ∧
    (∀ i nd' v, nd.readRequire i = (nd', .ok v) → nd' = nd) ∧
    (∀ (i : Int) v, (∀ k : Nat, k < pv.length → i ≠ k) → ∃ x, nd.writeProvide i v = (nd, .raised x)) ∧
    (∀ i : Int, (∀ k : Nat, k < rq.length → i ≠ k) → ∃ x, nd.readRequire i = (nd, .raised x)) := by
  have hw := hr.wf
  refine ⟨?_, ?_, ?_, ?_⟩
  · intro i v nd' w h
    obtain ⟨_, _, _, _, _, _, _, _, _, _, _, _, _, _, _, _, _, _, _, _, h⟩ := C32_write types rq pv text nd nd' hr i v w h
    exact h
  · intro i nd' v h
    unfold readRequire at h
    split at h
    · simp at h
    · unfold unpackRequire at h
      repeat' (split at h)
      all_goals simp only [Prod.mk.injEq, reduceCtorEq, and_false] at h
      exact h.1.symm
  · intro i v hi
    cases hlk : lookupRange nd.outRanges i with
    | error x => exact ⟨x, by simp [writeProvide, hlk]⟩
    | ok r =>
      obtain ⟨k, rfl, hk⟩ := (lookupRange_ok hw.outC i r).mp hlk
      obtain ⟨bs, hp⟩ := hw.outP
      exact absurd rfl (hi k (by rw [← hp.length.1]; exact (List.getElem?_eq_some_iff.mp hk).1))
  · intro i hi
    cases hlk : lookupRange nd.inRanges i with
    | error x => exact ⟨x, by simp [readRequire, hlk]⟩
    | ok r =>
      obtain ⟨k, rfl, hk⟩ := (lookupRange_ok hw.inC i r).mp hlk
      obtain ⟨bs, hp⟩ := hw.inP
      exact absurd rfl (hi k (by rw [← hp.length.1]; exact (List.getElem?_eq_some_iff.mp hk).1))

section
/-- On the example node: writing 256 to port 0 raises `struct.error`, then writing 1 blocks. -/
def exLockOk : Bool := match ndNode with
  | .ok nd => match nd.writeProvide 0 (.int 256) with
    | (nd', .raised x) => decide (x = .structError ∧ (nd'.writeProvide 0 (.int 1)).2 = .blocked ∧
        (nd'.readRequire 3).2 = .blocked ∧ (nd.readRequire 0).2 = .ok (.int 7))
    | _ => false
  | .error _ => false

example : exLockOk = true := by decide +kernel
end

/-! ### C34 -/

/-- C34: the ports found for a write of `[off, off+len)` are exactly the ports owning one of these
bytes, in port order; ranges beyond the file are refused. -/
theorem C34_ports (types : List NamedType) (rq pv : List NPort) (text : Str) (nd : NodeData)
    (hr : nd.Reachable types rq pv text) (off len : Nat) :
    (off + len ≤ (fileBytes nd.inFile).length →
      nd.byteToPort off len = .ok (nd.inRanges.filter (PortRange.overlapsB off len))) ∧
    ((fileBytes nd.inFile).length < off + len → nd.byteToPort off len = .error .valueError) ∧
    (∀ r : PortRange, r.overlapsB off len = true ↔ ∃ o, off ≤ o ∧ o < off + len ∧ r.Owns o) := by
  have hw := hr.wf
  have hm : (byteMap nd.inRanges).length = (fileBytes nd.inFile).length := by
    have := byteMap_length hw.inC; omega
  refine ⟨?_, ?_, fun r => r.overlapsB_iff off len⟩
  · intro h
    unfold byteToPort
    simp only [hm]
    rw [if_neg (by omega), if_neg (by omega), byteToPortLoop_ok hw.inC _ _ _ (by omega) (by omega)]
    simp
  · intro h
    unfold byteToPort
    simp only [hm]
    by_cases h1 : off > (fileBytes nd.inFile).length
    · rw [if_pos h1]
    · rw [if_neg h1, if_pos (by omega)]

/-- The notification loop: it works through a prefix of the ports, and stops early only where
decoding a port raises or blocks. -/
theorem notifyLoop_spec (rs : List PortRange) (nd : NodeData) :
    ∃ done rest, rs = done ++ rest ∧ (nd.notifyLoop rs).2.1.map Prod.fst = done.map (·.id) ∧
      (∀ i (h : i < (nd.notifyLoop rs).2.1.length), ∃ r, done[i]? = some r ∧
        nd.unpackRequire r = (nd, .ok ((nd.notifyLoop rs).2.1[i]).2)) ∧
      ((rest = [] ∧ nd.notifyLoop rs = (nd, (nd.notifyLoop rs).2.1, .ok ())) ∨
       ∃ r rest', rest = r :: rest' ∧
        ((∃ x, (nd.unpackRequire r).2 = .raised x ∧ (nd.notifyLoop rs).2.2 = .raised x) ∨
         ((nd.unpackRequire r).2 = .blocked ∧ (nd.notifyLoop rs).2.2 = .blocked))) := by
  induction rs with
  | nil => exact ⟨[], [], rfl, rfl, by simp [notifyLoop], Or.inl ⟨rfl, rfl⟩⟩
  | cons r rs ih =>
    cases hu : nd.unpackRequire r with
    | mk nd1 o =>
      cases o with
      | raised x =>
        refine ⟨[], r :: rs, rfl, by simp [notifyLoop, hu], by simp [notifyLoop, hu], Or.inr ⟨r, rs, rfl, Or.inl ⟨x, ?_, ?_⟩⟩⟩
        · simp [hu]
        · simp [notifyLoop, hu]
      | blocked =>
        refine ⟨[], r :: rs, rfl, by simp [notifyLoop, hu], by simp [notifyLoop, hu], Or.inr ⟨r, rs, rfl, Or.inr ⟨?_, ?_⟩⟩⟩
        · simp [hu]
        · simp [notifyLoop, hu]
      | ok v =>
        have h1 : nd1 = nd := by
          unfold unpackRequire at hu
          repeat' (split at hu)
          all_goals simp only [Prod.mk.injEq, reduceCtorEq, and_false] at hu
          exact hu.1.symm
        subst h1
        obtain ⟨done, rest, h2, h3, h4, h5⟩ := ih
        have hl : nd1.notifyLoop (r :: rs) = ((nd1.notifyLoop rs).1, (r.id, v) :: (nd1.notifyLoop rs).2.1, (nd1.notifyLoop rs).2.2) := by
          simp [notifyLoop, hu]
        rw [hl]
        refine ⟨r :: done, rest, by rw [h2]; rfl, by simp [h3], ?_, ?_⟩
        · intro i hi
          cases i with
          | zero => exact ⟨r, rfl, by simpa using hu⟩
          | succ i => exact h4 i (by simpa using hi)
        · rcases h5 with ⟨h6, h7⟩ | h6
          · left
            refine ⟨h6, ?_⟩
            rw [h7]
          · exact Or.inr h6

/-- C34: after a remote write of `data` at `off` into a file that is large enough (with the client
attached, as the last or only fragment), the ports overlapping the range are notified in port order,
each once and with the value decoded from the new content, as long as decoding works: if the call
returns normally, all of them are; otherwise a prefix is, and decoding the port after the prefix
raises or blocks. No other port is notified. -/
theorem C34_notified_partial (types : List NamedType) (rq pv : List NPort) (text : Str) (nd : NodeData)
    (hr : nd.Reachable types rq pv text) (f : FileData) (hf : nd.inFile = some f) (off : Nat) (data : Bytes)
    (hd : off + data.length ≤ f.data.length) :
    let new : NodeData := { nd with inFile := some ⟨put f.data off data⟩ }
    let hit := nd.inRanges.filter (PortRange.overlapsB off data.length)
    let result := nd.remoteWrite true off data false
    ∃ done rest, hit = done ++ rest ∧ result.2.1.map Prod.fst = done.map (·.id) ∧
      (∀ kv ∈ result.2.1, new.readRequire kv.1 = (new, .ok kv.2)) ∧
      ((rest = [] ∧ result = (new, result.2.1, .ok data.length)) ∨
       ∃ r rest', rest = r :: rest' ∧
        ((∃ x, (new.readRequire r.id).2 = .raised x ∧ result.2.2 = .raised x) ∨
         ((new.readRequire r.id).2 = .blocked ∧ result.2.2 = .blocked))) := by
  intro new hit result
  have hw := hr.wf
  have hwr : f.inputWrite (off : Int) data false true =
      (⟨put f.data off data⟩, (data.length : Int), some ⟨⟨put f.data off data⟩, off, data.length⟩) := by
    unfold FileData.inputWrite
    rw [FileData.write_fits f off data hd]
    simp only
    rw [if_pos ⟨by omega, trivial⟩]
    rfl
  have hwn : new.Wf types rq pv := by
    have := hw.inWrite f hf off data
    rw [FileData.write_fits f off data hd] at this
    exact this
  have hb : new.byteToPort off data.length = .ok hit := by
    have hlen : (fileBytes new.inFile).length = f.data.length := put_length _ _ _ hd
    have hm : (byteMap new.inRanges).length = f.data.length := by
      have := byteMap_length hwn.inC; omega
    unfold byteToPort
    simp only [hm]
    rw [if_neg (by omega), if_neg (by omega), byteToPortLoop_ok hwn.inC _ _ _ (by omega) (by omega)]
    simp only [Nat.add_sub_cancel_left]
    rfl
  have hres : result = match new.notifyLoop hit with
      | (nd, l, .ok ()) => (nd, l, .ok (data.length : Int))
      | (nd, l, .raised x) => (nd, l, .raised x)
      | (nd, l, .blocked) => (nd, l, .blocked) := by
    show nd.remoteWrite true off data false = _
    unfold remoteWrite
    rw [hf]
    simp only [hwr, afterRemote, inPortNotify, if_true]
    show (match (match new.byteToPort off data.length with
      | .error x => (new, [], Outcome.raised x)
      | .ok rs => new.notifyLoop rs) with
      | (nd, l, .ok ()) => (nd, l, Outcome.ok (data.length : Int))
      | (nd, l, .raised x) => (nd, l, Outcome.raised x)
      | (nd, l, .blocked) => (nd, l, Outcome.blocked)) = _
    rw [hb]
  have hread : ∀ r ∈ hit, new.readRequire r.id = new.unpackRequire r := by
    intro r hrm
    have hrm' : r ∈ nd.inRanges := (List.mem_filter.mp hrm).1
    obtain ⟨k, hk⟩ := List.getElem?_of_mem hrm'
    have hid := (hw.inC.get hk).1
    unfold readRequire
    rw [(lookupRange_ok hwn.inC r.id r).mpr ⟨r.id, rfl, by rw [hid]; simpa using hk⟩]
  obtain ⟨done, rest, h1, h2, h3, h4⟩ := notifyLoop_spec hit new
  have hlist : result.2.1 = (new.notifyLoop hit).2.1 := by
    rw [hres]
    generalize new.notifyLoop hit = q
    obtain ⟨a, b, c⟩ := q
    cases c <;> rfl
  refine ⟨done, rest, h1, by rw [hlist]; exact h2, ?_, ?_⟩
  · rw [hlist]
    intro kv hkv
    obtain ⟨i, hi, rfl⟩ := List.mem_iff_getElem.mp hkv
    obtain ⟨r, h5, h6⟩ := h3 i hi
    have hrd : r ∈ hit := by rw [h1]; exact List.mem_append_left _ (List.mem_of_getElem? h5)
    have h7 : ((new.notifyLoop hit).2.1[i]).1 = r.id := by
      have := congrArg (fun l => l[i]?) h2
      simp only [List.getElem?_map, h5, Option.map_some, List.getElem?_eq_getElem hi, Option.some.injEq] at this
      exact this
    rw [h7, hread r hrd, h6]
  · rcases h4 with ⟨h5, h6⟩ | ⟨r, rest', h5, h6⟩
    · left
      refine ⟨h5, ?_⟩
      rw [hlist, hres, h6]
    · right
      have hrd : r ∈ hit := by rw [h1, h5]; simp
      refine ⟨r, rest', h5, ?_⟩
      rw [hread r hrd]
      rcases h6 with ⟨x, h7, h8⟩ | ⟨h7, h8⟩
      · left
        refine ⟨x, h7, ?_⟩
        rw [hres]
        generalize new.notifyLoop hit = q at h8
        obtain ⟨a, b, c⟩ := q
        simp only at h8
        subst h8
        rfl
      · right
        refine ⟨h7, ?_⟩
        rw [hres]
        generalize new.notifyLoop hit = q at h8
        obtain ⟨a, b, c⟩ := q
        simp only at h8
        subst h8
        rfl

/-- C34: fragments other than the last, refused writes and nodes without a client notify nobody. -/
theorem C34_silent (nd : NodeData) (c : Bool) (off : Nat) (data : Bytes) (more : Bool)
    (h : more = true ∨ c = false ∨ (fileBytes nd.inFile).length < off + data.length) :
    (nd.remoteWrite c off data more).2.1 = [] := by
  unfold remoteWrite
  split
  · rfl
  · rename_i f hf
    simp only
    by_cases hn : (f.inputWrite (off : Int) data more true).2.2 = none
    · rw [hn]; rfl
    · have hmore : more = false ∧ off + data.length ≤ f.data.length := by
        unfold FileData.inputWrite at hn
        simp only at hn
        split at hn
        · rename_i h1
          refine ⟨h1.2, ?_⟩
          apply Decidable.byContradiction
          intro h2
          rw [FileData.write_rejects f off data (Or.inr (by omega))] at h1
          simp at h1
        · exact absurd rfl hn
      rw [hf] at h
      rcases h with h | h | h
      · rw [hmore.1] at h; simp at h
      · subst h
        generalize (f.inputWrite (off : Int) data more true).2.2 = note
        cases note <;> simp [afterRemote, inPortNotify]
      · simp only [fileBytes] at h; omega

/-- The node `R"s"a[2]`, `R"t"C`. -/
def ndText : Py NodeData := NodeData.build []
  [⟨"s".toList, some 0, .prim .str none none (some 2), none⟩, ⟨"t".toList, some 1, .prim .u8 none none none, none⟩] [] []

def exTextCheck : Bool := match ndText with
  | .ok nd =>
    let r := nd.remoteWrite true 0 [0xff, 0, 5] false
    decide (r.2.1 = [] ∧ r.2.2 = .raised .unicodeError ∧ (r.1.readRequire 1).2 = .blocked) &&
    decide ((nd.readRequire 1).2 = .ok (.int 0))
  | .error _ => false

/-- C34 and C33 fail together when a peer sends text that is not UTF-8: the ports after it are not
notified, and every later access blocks. -/
example : ∃ nd, ndText = .ok nd ∧
    (let r := nd.remoteWrite true 0 [0xff, 0, 5] false
     r.2.1 = [] ∧ r.2.2 = .raised .unicodeError ∧ (r.1.readRequire 1).2 = .blocked) ∧
    (nd.readRequire 1).2 = .ok (.int 0) := by
  have h : exTextCheck = true := by decide +kernel
  unfold exTextCheck at h
  split at h
  · rename_i nd hnd
    simp only [Bool.and_eq_true, decide_eq_true_eq] at h
    exact ⟨nd, hnd, h⟩
  · simp at h

section
def exNotifyOk : Bool := match ndNode with
  | .ok nd =>
    let r := nd.remoteWrite true 3 [1, 0x61, 0x62, 0x63, 0x64, 9] false
    decide (r.2.1 = [(1, .dict [("x".toList, .int 1), ("y".toList, .int 510)]), (2, .str "abcd".toList),
      (3, .list [.int 9, .int 0])] ∧ r.2.2 = .ok 6)
  | .error _ => false

example : exNotifyOk = true := by decide +kernel
end

/-! ### C35 -/

theorem run_local {as : List Access} (h : ∀ a ∈ as, a.Local) (nd : NodeData) :
    (nd.run as).inFile = nd.inFile ∧ (nd.run as).inRanges = nd.inRanges ∧ (nd.run as).inProgs = nd.inProgs := by
  induction as generalizing nd with
  | nil => exact ⟨rfl, rfl, rfl⟩
  | cons a as ih =>
    have h1 := ih (fun x hx => h x (by simp [hx])) (nd.step a)
    have h2 : (nd.step a).inFile = nd.inFile ∧ (nd.step a).inRanges = nd.inRanges ∧ (nd.step a).inProgs = nd.inProgs := by
      have ha := h a (by simp)
      cases a with
      | write i v =>
        simp only [NodeData.step]
        unfold writeProvide
        split
        · exact ⟨rfl, rfl, rfl⟩
        · split
          · exact ⟨rfl, rfl, rfl⟩
          · split
            · exact ⟨rfl, rfl, rfl⟩
            · split
              · exact ⟨rfl, rfl, rfl⟩
              · simp only
                split <;> exact ⟨rfl, rfl, rfl⟩
      | read i =>
        simp only [NodeData.step]
        rcases readRequire_state nd i with e | e <;> rw [e] <;> exact ⟨rfl, rfl, rfl⟩
      | remote c o d m => exact absurd ha (by simp [Access.Local])
    simp only [NodeData.run]
    rw [h1.1, h1.2.1, h1.2.2]
    exact h2

/-- Reading a port whose bytes are the layout of a value of the right shape. -/
theorem read_layout {types : List NamedType} {rq pv : List NPort} {nd : NodeData}
    (hw : nd.Wf types rq pv) (hl : nd.locked = false) (k : Nat) (p : NPort)
    (hk : rq[k]? = some p) (de : Elem) (hde : p.type types = .ok de) (hlens : de.LensOk) (hnames : de.NamesOk)
    (hnest : de.NoNested) (v : PyVal) (hx : de.Exact v) (bs : Bytes) (hlay : de.layout v = some bs)
    (hf : nd.inFile.isSome) (hb : portBytes nd.inRanges nd.inFile k = some bs) :
    ∃ v', nd.readRequire k = (nd, .ok v') ∧ v'.Same v := by
  obtain ⟨bb, hp⟩ := hw.inP
  obtain ⟨r, c, b, h1, h2, _, h4⟩ := hp.get hk
  obtain ⟨e, de', e1, e2, e3, e4, _⟩ := h4.ex
  have : de' = de := by
    simp only [NPort.type, e1, ok_bind, e2, Except.ok.injEq] at hde
    exact hde
  subst this
  have hid : r.id = k := by have := (hw.inC.get h1).1; omega
  obtain ⟨f, hf⟩ := Option.isSome_iff_exists.mp hf
  have hin := (hw.inC.get h1).2.2
  rw [hf] at hin
  simp only [fileBytes] at hin
  have hread : f.read (r.offset : Int) r.len = some bs := by
    unfold FileData.read FileData.slice
    rw [if_neg (by omega)]
    simp only
    rw [if_neg (by omega)]
    simp only [portBytes, h1, Option.map_some, hf, fileBytes] at hb
    simp only [Int.toNat_natCast, show ((r.offset : Int) + r.len - r.offset).toNat = r.len by omega]
    exact hb
  obtain ⟨v', h5, h6⟩ := unpack_forward de' c e4 hlens hnames hnest v bs hx hlay bs 0
    ⟨by simp, by simp⟩
  refine ⟨v', ?_, h6⟩
  unfold readRequire
  rw [(lookupRange_ok hw.inC k r).mpr ⟨k, rfl, h1⟩]
  simp only [unpackRequire, hid, h2, hf, hread, hl, h5]
  rfl

/-- The initial bytes of each require port, when all init values have the declared lengths. -/
theorem initial_bytes {types : List NamedType} {rq pv : List NPort} {text : Str} {nd : NodeData}
    (h : NodeData.build types rq pv text = .ok nd) (hfit : ∀ p ∈ rq, p.InitFits types) (k : Nat) (p : NPort)
    (hk : rq[k]? = some p) :
    ∃ r de b, nd.inRanges[k]? = some r ∧ p.type types = .ok de ∧ de.packLen = .ok r.len ∧
      portInit de r.len p.init = .ok b ∧ portBytes nd.inRanges nd.inFile k = some b := by
  obtain ⟨i, o, df, h1, h2, _, _, _, h5⟩ := build_inv h
  obtain ⟨rs, cs, bs, a1, a2, a3, a4, a5⟩ := addPorts_ok h1
  obtain ⟨f1, f2, f3⟩ := createPortFile_ok h2
  simp only [PortLayout.empty, List.nil_append, List.length_nil] at a1 a2 a3 a4
  obtain ⟨r, c, b, b1, b2, b3, b4⟩ := a5.get hk
  obtain ⟨e, de, e1, e2, e3, e4, e5⟩ := b4.ex
  have hr : nd.inRanges = rs := by rw [h5]; exact a1
  refine ⟨r, de, b, by rw [hr]; exact b1, by simp only [NPort.type, e1, ok_bind, e2], port_len e2 e3 e4, e5, ?_⟩
  simp only [portBytes, hr, b1, Option.map_some, f1, a3, Option.some.injEq]
  have hlen : ∀ (i : Nat) (r : PortRange) (b : Bytes), rs[i]? = some r → bs[i]? = some b → b.length = r.len := by
    intro i r b hri hbi
    have hil : i < rq.length := by rw [← a5.length.1]; exact (List.getElem?_eq_some_iff.mp hri).1
    obtain ⟨r', c', b', c1, c2, c3, c4⟩ := a5.get (List.getElem?_eq_getElem hil)
    rw [hri] at c1
    rw [hbi] at c3
    simp only [Option.some.injEq] at c1 c3
    subst c1 c3
    obtain ⟨e', de', d1, d2, d3, d4, d5⟩ := c4.ex
    refine portInit_length d4 (port_len d2 d3 d4) _ ?_ b d5
    intro iv hiv
    exact hfit rq[i] (List.getElem_mem hil) iv de' hiv (by simp only [NPort.type, d1, ok_bind, d2])
  have := flatten_at a4 hlen (by rw [a5.length.1, a5.length.2.2]) b1 b3
  simpa using this.1

/-- C35: before any remote write (after any local operations that left the lock free), reading a
require port yields the value denoted by its init value, for types without nested records, ASCII
text and init lists of the declared lengths. -/
theorem C35_init_partial (types : List NamedType) (rq pv : List NPort) (text : Str) (nd : NodeData)
    (h : NodeData.build types rq pv text = .ok nd) (hfit : ∀ p ∈ rq, p.InitFits types)
    (as : List Access) (hloc : ∀ a ∈ as, a.Local) (hlock : (nd.run as).locked = false)
    (k : Nat) (p : NPort) (hk : rq[k]? = some p) (iv : InitVal) (hiv : p.init = some iv) (hascii : iv.Ascii)
    (de : Elem) (hde : p.type types = .ok de) (hlens : de.LensOk) (hnames : de.NamesOk) (hnest : de.NoNested)
    (v : PyVal) (hden : de.Denotes iv v) (hx : de.Exact v) (hpos : nd.inFile.isSome) :
    ∃ v', (nd.run as).readRequire k = (nd.run as, .ok v') ∧ v'.Same v := by
  obtain ⟨bs, hlay⟩ := de.exact_layout v hx
  obtain ⟨r, de', b, h1, h2, h3, h4, h5⟩ := initial_bytes h hfit k p hk
  rw [hde] at h2
  simp only [Except.ok.injEq] at h2
  subst h2
  obtain ⟨l1, l2, _⟩ := run_local hloc nd
  have hb : b = bs := by
    simp only [hiv, portInit] at h4
    have := inner_createInit (de.init_layout iv v bs hden hascii
      (hfit p (List.mem_of_getElem? hk) iv de hiv hde) hlay)
    rw [this] at h4
    simpa using h4.symm
  subst hb
  exact read_layout ((build_wf h).run as) hlock k p hk de hde hlens hnames hnest v hx b hlay
    (by rw [l1]; exact hpos) (by rw [l1, l2]; exact h5)

/-- C35: a port without init value reads as zero (0, empty text, lists and records of these). -/
theorem C35_zero_partial (types : List NamedType) (rq pv : List NPort) (text : Str) (nd : NodeData)
    (h : NodeData.build types rq pv text = .ok nd) (hfit : ∀ p ∈ rq, p.InitFits types)
    (as : List Access) (hloc : ∀ a ∈ as, a.Local) (hlock : (nd.run as).locked = false)
    (k : Nat) (p : NPort) (hk : rq[k]? = some p) (hiv : p.init = none)
    (de : Elem) (hde : p.type types = .ok de) (hlens : de.LensOk) (hnames : de.NamesOk) (hnest : de.NoNested)
    (v : PyVal) (hz : de.IsZero v) (hx : de.Exact v) (hpos : nd.inFile.isSome) :
    ∃ v', (nd.run as).readRequire k = (nd.run as, .ok v') ∧ v'.Same v := by
  obtain ⟨bs, hlay⟩ := de.exact_layout v hx
  obtain ⟨r, de', b, h1, h2, h3, h4, h5⟩ := initial_bytes h hfit k p hk
  rw [hde] at h2
  simp only [Except.ok.injEq] at h2
  subst h2
  obtain ⟨l1, l2, _⟩ := run_local hloc nd
  have hb : b = bs := by
    simp only [hiv, portInit, Except.ok.injEq] at h4
    subst h4
    have hbl : bs.length = r.len := by
      obtain ⟨bb, hp⟩ := (build_wf h).inP
      obtain ⟨r', c', b', c1, c2, c3, c4⟩ := hp.get hk
      obtain ⟨e', de', d1, d2, d3, d4, d5⟩ := c4.ex
      have : de' = de := by
        simp only [NPort.type, d1, ok_bind, d2, Except.ok.injEq] at hde
        exact hde
      subst this
      obtain ⟨code, m, hce, _⟩ := compileProg_inv d4
      have e1 := Elem.layout_length' de' code m hce v bs hlay
      have e2 := compile_packLen de' code m hce
      rw [h3] at e2
      simp only [Except.ok.injEq] at e2
      omega
    rw [← hbl]
    exact (List.eq_replicate_of_mem (de.zero_layout v bs hz hlay)).symm
  subst hb
  exact read_layout ((build_wf h).run as) hlock k p hk de hde hlens hnames hnest v hx b hlay
    (by rw [l1]; exact hpos) (by rw [l1, l2]; exact h5)

/-- C35: the initial data of a port has exactly `packLen` bytes if array init lists have the declared
lengths. -/
theorem C35_length_partial (d : Dir) (de : Elem) (prog : Bytes) (hc : compileProg d de = .ok prog) (n : Nat)
    (hn : de.packLen = .ok n) (iv : InitVal) (hf : de.InitFits iv) (b : Bytes) (h : de.createInitData iv = .ok b) :
    b.length = n :=
  portInit_length hc hn (some iv) (by intro iv' h'; simp only [Option.some.injEq] at h'; subst h'; exact hf) b h

/-- C35: the initial text of a string port is refused with `ValueError` if one of the characters that
have room is beyond Latin-1, otherwise these characters are stored one byte each and the rest of the
port is zero. -/
theorem C35_text (n : Nat) (mn mx : Option Int) (s : Str) :
    (Elem.prim .str mn mx (some n)).createInitData (.str s) =
      if (s.take n).all (fun c => decide (c.toNat ≤ 255)) then
        .ok ((s.take n).map (fun c => UInt8.ofNat c.toNat) ++ List.replicate (n - s.length) 0)
      else .error .valueError := by
  have key : ∀ (n : Nat) (s : Str), initString n s =
      if (s.take n).all (fun c => decide (c.toNat ≤ 255)) then
        .ok ((s.take n).map (fun c => UInt8.ofNat c.toNat) ++ List.replicate (n - s.length) 0)
      else .error .valueError := by
    intro n
    induction n with
    | zero => intro s; simp [initString]
    | succ n ih =>
      intro s
      cases s with
      | nil => simp [initString, ih, ok_bind, List.replicate_succ]
      | cons c s =>
        simp only [initString, ih, List.take_succ_cons, List.all_cons, List.map_cons, List.length_cons,
          Nat.add_sub_add_right, List.cons_append]
        by_cases hc : c.toNat < 256
        · have hc' : c.toNat ≤ 255 := by omega
          rw [if_pos hc]
          simp only [hc', decide_true, Bool.true_and]
          split
          · rw [ok_bind]
          · rw [error_bind]
        · have hc' : ¬ c.toNat ≤ 255 := by omega
          rw [if_neg hc]
          simp [hc']
  simp only [Elem.createInitData, Elem.initInner]
  exact key n s

/-- `R"a"C[2]:={1}`, `R"b"C[2]:={2,3,4}`. -/
def ndMis : Py NodeData := NodeData.build []
  [⟨"a".toList, some 0, .prim .u8 none none (some 2), some (.list [.int 1])⟩,
   ⟨"b".toList, some 1, .prim .u8 none none (some 2), some (.list [.int 2, .int 3, .int 4])⟩] [] []

/-- `R"a"a[4]:="é"`. -/
def ndLatin : Py NodeData := NodeData.build []
  [⟨"a".toList, some 0, .prim .str none none (some 4), some (.str "é".toList)⟩] [] []

/-- `R"a"C:=300`. -/
def ndWrap : Py NodeData := NodeData.build []
  [⟨"a".toList, some 0, .prim .u8 none none none, some (.int 300)⟩] [] []

/-- The outcome of reading port `k` directly after construction. -/
def initialRead (x : Py NodeData) (k : Int) : Option (Outcome PyVal) :=
  match x with
  | .ok nd => some (nd.readRequire k).2
  | .error _ => none

theorem utf8_char_length (c : Char) : 1 ≤ (String.utf8EncodeChar c).length ∧ (128 ≤ c.toNat → 2 ≤ (String.utf8EncodeChar c).length) := by
  unfold String.utf8EncodeChar
  simp only
  have : c.toNat = c.val.toNat := rfl
  repeat' split
  all_goals simp
  all_goals omega

theorem utf8_length (s : Str) : s.length ≤ (utf8Encode s).length ∧ ((∃ c ∈ s, 128 ≤ c.toNat) → s.length < (utf8Encode s).length) := by
  induction s with
  | nil => exact ⟨Nat.le_refl _, fun ⟨c, hc, _⟩ => by cases hc⟩
  | cons a s ih =>
    rw [utf8Encode_cons]
    obtain ⟨h1, h2⟩ := utf8_char_length a
    simp only [List.length_append, List.length_cons]
    refine ⟨by omega, fun ⟨c, hc, h⟩ => ?_⟩
    rcases List.mem_cons.mp hc with rfl | hc
    · have := h2 h
      omega
    · have := ih.2 ⟨c, hc, h⟩
      omega

/-- C35 fails for every text with a character outside ASCII that is the init value of a port with room for it: it is
encoded as Latin-1 and decoded as UTF-8, so that reading the port never gives the text. -/
theorem C35_latin1_violated (types : List NamedType) (rq pv : List NPort) (text : Str) (nd : NodeData)
    (h : NodeData.build types rq pv text = .ok nd) (hfit : ∀ p ∈ rq, p.InitFits types)
    (as : List Access) (hloc : ∀ a ∈ as, a.Local)
    (k : Nat) (p : NPort) (hk : rq[k]? = some p) (s : Str) (hiv : p.init = some (.str s)) (mn mx : Option Int) (n : Nat)
    (hde : p.type types = .ok (.prim .str mn mx (some n))) (hn : n ≤ 65535) (hs : s.length ≤ n) (h0 : '\x00' ∉ s)
    (hc : ∃ c ∈ s, 128 ≤ c.toNat) (nd' : NodeData) :
    (nd.run as).readRequire k ≠ (nd', .ok (.str s)) := by
  intro hread
  obtain ⟨r, de', b, h1, h2, h3, h4, h5⟩ := initial_bytes h hfit k p hk
  rw [hde] at h2
  simp only [Except.ok.injEq] at h2
  subst h2
  obtain ⟨l1, l2, l3⟩ := run_local hloc nd
  obtain ⟨bb, hp⟩ := (build_wf h).inP
  obtain ⟨r', c, b', g1, g2, _, g4⟩ := hp.get hk
  rw [h1] at g1
  cases g1
  obtain ⟨e, de2, e1, e2, e3, e4, _⟩ := g4.ex
  have hd2 : de2 = .prim .str mn mx (some n) := by
    simp only [NPort.type, e1, ok_bind, e2, Except.ok.injEq] at hde
    exact hde
  subst hd2
  have hid : r.id = k := by have := ((build_wf h).inC.get h1).1; omega
  -- the bytes of the port
  simp only [hiv, portInit] at h4
  rw [C35_text, List.take_of_length_le hs] at h4
  split at h4
  · rename_i hall
    simp only [Except.ok.injEq] at h4
    -- what is read
    unfold readRequire at hread
    rw [(lookupRange_ok ((build_wf h).run as).inC k r).mpr ⟨k, rfl, by rw [l2]; exact h1⟩] at hread
    simp only [unpackRequire, hid, l3, g2, l1] at hread
    cases hf : nd.inFile with
    | none => rw [hf] at hread; simp at hread
    | some f =>
      rw [hf] at hread
      simp only at hread
      have hin := ((build_wf h).inC.get h1).2.2
      rw [hf] at hin
      simp only [fileBytes] at hin
      have hb : f.read (r.offset : Int) r.len = some b := by
        unfold FileData.read FileData.slice
        rw [if_neg (by omega)]
        simp only
        rw [if_neg (by omega)]
        simp only [portBytes, h1, Option.map_some, hf, fileBytes] at h5
        simp only [Int.toNat_natCast, show ((r.offset : Int) + r.len - r.offset).toNat = r.len by omega]
        exact h5
      rw [hb] at hread
      simp only at hread
      split at hread
      · simp at hread
      · have hbl : b.length = n := by
          rw [← h4]
          simp
          omega
        obtain ⟨hr, -⟩ := C57_read mn mx n hn c e4 b 0 (by omega)
        split at hread
        · simp at hread
        · rename_i v hv
          simp only [Prod.mk.injEq, Outcome.ok.injEq] at hread
          rw [hread.2] at hv
          obtain ⟨s', hs', hu⟩ := (hr _).mp hv
          cases hs'
          rw [List.drop_zero, List.take_of_length_le (by omega), ← h4] at hu
          have hlat : ((s.map fun c => UInt8.ofNat c.toNat) ++ List.replicate (n - s.length) (0 : UInt8)).takeWhile
              (fun x => decide (x ≠ 0)) = s.map fun c => UInt8.ofNat c.toNat := by
            rw [List.takeWhile_append_of_pos]
            · cases n - s.length <;> simp [List.replicate_succ]
            · intro x hx
              obtain ⟨c, hc, rfl⟩ := List.mem_map.mp hx
              have h255 := List.all_eq_true.mp hall c hc
              simp only [decide_eq_true_eq] at h255 ⊢
              intro h00
              have hz : c.toNat = 0 := by
                have := congrArg UInt8.toNat h00
                simp only [UInt8.toNat_ofNat', UInt8.toNat_zero] at this
                omega
              have : c = '\x00' := Char.ext (UInt32.toNat_inj.mp hz)
              exact h0 (this ▸ hc)
          rw [hlat] at hu
          have h6 := (utf8_length s).2 hc
          rw [hu] at h6
          simp at h6
  · cases h4

/-- What is read for `é`: nothing, the reader raises. The hypotheses hold. -/
example : initialRead ndLatin 0 = some (.raised .unicodeError) ∧
    (∀ p ∈ [(⟨"a".toList, some 0, .prim .str none none (some 4), some (.str "é".toList)⟩ : NPort)], p.InitFits []) ∧
    (∃ c ∈ "é".toList, 128 ≤ c.toNat) ∧
    (Elem.prim .str none none (some 4)).Denotes (.str "é".toList) (.str "é".toList) ∧
    (Elem.prim .str none none (some 4)).Exact (.str "é".toList) := by
  refine ⟨by decide +kernel, ?_, by decide +kernel, by simp [Elem.Denotes], ?_⟩
  · intro p hp iv de hiv hde
    simp only [List.mem_singleton] at hp
    subst hp
    cases hiv
    cases hde
    simp [Elem.InitFits]
  · rw [Elem.Exact]
    exact Or.inr ⟨_, rfl, rfl, by decide, by decide⟩

/-- C35 fails for lists of the wrong length: the error is noticed only if the total is wrong;
otherwise the ports silently get each other's values. -/
theorem C35_misaligned_violated :
    initialRead ndMis 0 = some (.ok (.list [.int 1, .int 2])) ∧
    initialRead ndMis 1 = some (.ok (.list [.int 3, .int 4])) ∧
    (Elem.prim .u8 none none (some 2)).createInitData (.list [.int 1]) = .ok [1] := by decide +kernel

/-- Not part of C35 (the value does not fit the type): out-of-range init values wrap silently. -/
theorem C35_wraps : initialRead ndWrap 0 = some (.ok (.int 44)) := by decide +kernel

section
example : initialRead ndNode 0 = some (.ok (.int 7)) ∧
    initialRead ndNode 1 = some (.ok (.dict [("x".toList, .int 1), ("y".toList, .int (-2))])) ∧
    initialRead ndNode 2 = some (.ok (.str "ab".toList)) ∧
    initialRead ndNode 3 = some (.ok (.list [.int 0, .int 0])) := by decide +kernel

/-- The hypotheses of `C35_init_partial` hold for port 1 of the example. -/
example : ∃ de, (ndRq[1]).type ndTypes = .ok de ∧ de.NoNested ∧ de.LensOk ∧ de.NamesOk ∧
    de.Denotes (.list [.int 1, .int (-2)]) (.dict [("x".toList, .int 1), ("y".toList, .int (-2))]) ∧
    (InitVal.list [.int 1, .int (-2)]).Ascii ∧ de.InitFits (.list [.int 1, .int (-2)]) := by
  refine ⟨.record (.cons (some "x".toList) (.prim .u8 none none none)
    (.cons (some "y".toList) (.prim .s16 none none none) .nil)) none, by decide +kernel, ?_, ?_, ?_, ?_, ?_, ?_⟩
  · simp [Elem.NoNested, Fields.AllFlat, Elem.IsFlat]
  · simp [Elem.LensOk, Fields.LensOk]
  · simp [Elem.NamesOk, Fields.NamesOk]
  · simp [Elem.Denotes, Fields.Denotes, List.lookup]
  · simp [InitVal.Ascii, InitVal.AsciiList]
  · simp [Elem.InitFits, Fields.InitFits]
end

/-! ### C59 -/

/-- Nothing has been written to the port. -/
def NoWriteTo (k : Nat) (as : List Access) : Prop := ∀ a ∈ as, ∀ v, a ≠ .write k v

theorem run_value {types : List NamedType} {rq pv : List NPort} {nd : NodeData} (hw : nd.Wf types rq pv)
    (k : Nat) (as : List Access) (h : NoWriteTo k as) : (nd.run as).outValues[k]? = nd.outValues[k]? := by
  induction as generalizing nd with
  | nil => rfl
  | cons a as ih =>
    simp only [NodeData.run]
    rw [ih (hw.step a) (fun x hx => h x (by simp [hx]))]
    cases a with
    | write i v =>
      have hne : i ≠ k := by
        rintro rfl
        exact h _ (by simp) v rfl
      simp only [NodeData.step]
      unfold writeProvide
      split
      · rfl
      · rename_i r hr
        obtain ⟨m, rfl, hm⟩ := (lookupRange_ok hw.outC i r).mp hr
        have hid : r.id = m := by have := (hw.outC.get hm).1; omega
        have hmk : r.id ≠ k := by intro hk; apply hne; omega
        split
        · rfl
        · split
          · rfl
          · split
            · rfl
            · simp only
              split <;> exact List.getElem?_set_ne hmk
    | read i =>
      simp only [NodeData.step]
      rcases readRequire_state nd i with e | e <;> rw [e]
    | remote c o d m =>
      simp only [NodeData.step]
      rcases remoteWrite_state nd c o d m with e | ⟨f, b, _, e⟩ <;> rw [e]

/-- C59 fails: before its first write a provide port with an init value reads as the internal
`InitValue` object, and any other one as the integer 0, whatever its type. -/
theorem C59_violated (types : List NamedType) (rq pv : List NPort) (text : Str) (nd : NodeData)
    (h : NodeData.build types rq pv text = .ok nd) (k : Nat) (p : NPort) (hk : pv[k]? = some p)
    (as : List Access) (hno : NoWriteTo k as) :
    (nd.run as).readProvide k = .ok (match p.init with
      | some iv => .init iv
      | none => .val (.int 0)) := by
  have hw := build_wf h
  have hw' := hw.run as
  obtain ⟨bs, hp⟩ := hw'.outP
  obtain ⟨r, c, b, h1, _, _, _⟩ := hp.get hk
  have hid : r.id = k := by have := (hw'.outC.get h1).1; omega
  have hv : nd.outValues = pv.map outPortValue := by
    obtain ⟨i, o, df, _, _, _, _, _, h5⟩ := build_inv h
    rw [h5]
  unfold readProvide
  rw [(lookupRange_ok hw'.outC k r).mpr ⟨k, rfl, h1⟩]
  simp only [ok_bind, hid, run_value hw k as hno, hv, List.getElem?_map, hk, Option.map_some, outPortValue]
  cases p.init <;> rfl

/-- C59 for integer ports without init value: 0 is what the file contains. -/
theorem C59_scalar_partial (types : List NamedType) (rq pv : List NPort) (text : Str) (nd : NodeData)
    (h : NodeData.build types rq pv text = .ok nd) (k : Nat) (p : NPort) (hk : pv[k]? = some p)
    (hi : p.init = none) (de : Elem) (hde : p.type types = .ok de) (tc : TypeCode) (mn mx : Option Int)
    (hs : de = .prim tc mn mx none) (t : IntT) (ht : tc.integer = some t) :
    nd.readProvide k = .ok (.val (.int 0)) ∧ de.layout (.int 0) = some (List.replicate t.width 0) := by
  constructor
  · have := C59_violated types rq pv text nd h k p hk [] (by simp [NoWriteTo])
    rw [hi] at this
    exact this
  · subst hs
    simp only [Elem.layout, ht, intLayout]
    rw [if_pos (by cases t <;> simp [IntT.InRange])]
    congr 1
    have := List.eq_replicate_of_mem (littleEndian_zero t.width)
    simpa [littleEndian] using this

section
def exProvideOk : Bool := match ndNode with
  | .ok nd => match nd.readProvide 1 with
    | .ok (.init (.list [.int 1, .int _])) => true
    | _ => false
  | .error _ => false

example : exProvideOk = true := by decide +kernel
end

end Apx
