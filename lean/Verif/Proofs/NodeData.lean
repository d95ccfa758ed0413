import Verif.Spec.NodeData
import Verif.Proofs.VmProg
import Verif.Props.File

namespace Apx

/-! ### Layout of the port data files -/

/-- Consecutive ranges from `off` to `stop` with ids counting from `k`. -/
def Consecutive : Nat → Nat → List PortRange → Nat → Prop
  | off, _, [], stop => off = stop
  | off, k, r :: rs, stop => r.offset = off ∧ r.id = k ∧ Consecutive (off + r.len) (k + 1) rs stop

theorem Consecutive.append {off k : Nat} {rs : List PortRange} {mid : Nat} (h : Consecutive off k rs mid)
    {ss : List PortRange} {stop : Nat} (h2 : Consecutive mid (k + rs.length) ss stop) :
    Consecutive off k (rs ++ ss) stop := by
  induction rs generalizing off k with
  | nil =>
    simp only [Consecutive] at h
    subst h
    simpa using h2
  | cons r rs ih =>
    obtain ⟨h3, h4, h5⟩ := h
    exact ⟨h3, h4, ih h5 (by rw [List.length_cons] at h2; rw [show k + 1 + rs.length = k + (rs.length + 1) by omega]; exact h2)⟩

theorem Consecutive.get {off k : Nat} {rs : List PortRange} {stop : Nat} (h : Consecutive off k rs stop)
    {i : Nat} {r : PortRange} (hi : rs[i]? = some r) :
    r.id = k + i ∧ r.offset = off + ((rs.take i).map (·.len)).sum ∧ r.offset + r.len ≤ stop := by
  induction rs generalizing off k i with
  | nil => simp at hi
  | cons r0 rs ih =>
    obtain ⟨h1, h2, h3⟩ := h
    cases i with
    | zero =>
      simp only [List.getElem?_cons_zero, Option.some.injEq] at hi
      subst hi
      refine ⟨by omega, by simp [h1], ?_⟩
      have : ∀ (rs : List PortRange) off k, Consecutive off k rs stop → off ≤ stop := by
        intro rs
        induction rs with
        | nil => intro off k h; simp only [Consecutive] at h; omega
        | cons r rs ih => intro off k h; have := ih _ _ h.2.2; omega
      have := this _ _ _ h3
      omega
    | succ i =>
      obtain ⟨h4, h5, h6⟩ := ih h3 (by simpa using hi)
      refine ⟨by omega, ?_, h6⟩
      rw [List.take_succ_cons, List.map_cons, List.sum_cons, h5]
      omega

theorem Consecutive.sum {off k : Nat} {rs : List PortRange} {stop : Nat} (h : Consecutive off k rs stop) :
    stop = off + (rs.map (·.len)).sum := by
  induction rs generalizing off k with
  | nil => simp only [Consecutive] at h; simp [h]
  | cons r rs ih =>
    have := ih h.2.2
    simp only [List.map_cons, List.sum_cons]
    omega

theorem Consecutive.disjoint {off k : Nat} {rs : List PortRange} {stop : Nat} (h : Consecutive off k rs stop)
    {i j : Nat} {r s : PortRange} (hi : rs[i]? = some r) (hj : rs[j]? = some s) (hij : i < j) :
    r.offset + r.len ≤ s.offset := by
  induction rs generalizing off k i j with
  | nil => simp at hi
  | cons r0 rs ih =>
    obtain ⟨h1, h2, h3⟩ := h
    cases j with
    | zero => omega
    | succ j =>
      cases i with
      | zero =>
        simp only [List.getElem?_cons_zero, Option.some.injEq] at hi
        subst hi
        have := (h3.get (by simpa using hj)).2.1
        omega
      | succ i => exact ih h3 (by simpa using hi) (by simpa using hj) (by omega)

theorem Consecutive.owner {off k : Nat} {rs : List PortRange} {stop : Nat} (h : Consecutive off k rs stop)
    {o : Nat} (h1 : off ≤ o) (h2 : o < stop) : ∃ (i : Nat) (r : PortRange), rs[i]? = some r ∧ r.Owns o := by
  induction rs generalizing off k with
  | nil => simp only [Consecutive] at h; omega
  | cons r rs ih =>
    obtain ⟨h3, h4, h5⟩ := h
    by_cases hlt : o < off + r.len
    · exact ⟨0, r, rfl, by unfold PortRange.Owns; omega⟩
    · obtain ⟨i, s, h6, h7⟩ := ih h5 (by omega)
      exact ⟨i + 1, s, by simpa using h6, h7⟩

/-- What construction establishes about port number `i`. -/
structure PortOk (d : Dir) (types : List NamedType) (p : NPort) (r : PortRange) (prog b : Bytes) : Prop where
  id : p.id = some (r.id : Int)
  ex : ∃ e de, p.elem.resolveType types = .ok e ∧ e.resolveDataElement = .ok de ∧ e.packLen = .ok r.len ∧
    compileProg d de = .ok prog ∧ portInit de r.len p.init = .ok b

/-- Relation between the ports and what the loop computed for them. -/
def PortsOk (d : Dir) (types : List NamedType) :
    List NPort → List PortRange → List Bytes → List Bytes → Prop
  | [], [], [], [] => True
  | p :: ps, r :: rs, c :: cs, b :: bs => PortOk d types p r c b ∧ PortsOk d types ps rs cs bs
  | _, _, _, _ => False

theorem addPort_ok {d : Dir} {types : List NamedType} {s s' : PortLayout} {p : NPort}
    (h : addPort d types s p = .ok s') :
    ∃ n prog b, s' = ⟨s.offset + n, s.ranges ++ [⟨s.offset, n, s.progs.length⟩], s.progs ++ [prog], s.initData ++ b⟩ ∧
      PortOk d types p ⟨s.offset, n, s.progs.length⟩ prog b := by
  unfold addPort at h
  simp only [bind_ok_iff, Except.ok.injEq] at h
  obtain ⟨_, _, e, h1, de, h2, n, h3, prog, h4, _, h5, b, h6, rfl⟩ := h
  refine ⟨n, prog, b, rfl, ?_, e, de, h1, h2, h3, h4, h6⟩
  unfold checkId at h5
  split at h5
  · simp at h5
  · split at h5
    · rename_i hp hi
      rw [hp, hi]
    · simp at h5

theorem addPorts_ok {d : Dir} {types : List NamedType} {ps : List NPort} {s s' : PortLayout}
    (h : addPorts d types s ps = .ok s') :
    ∃ rs cs bs, s'.ranges = s.ranges ++ rs ∧ s'.progs = s.progs ++ cs ∧ s'.initData = s.initData ++ bs.flatten ∧
      Consecutive s.offset s.progs.length rs s'.offset ∧ PortsOk d types ps rs cs bs := by
  induction ps generalizing s with
  | nil =>
    simp only [addPorts, Except.ok.injEq] at h
    subst h
    exact ⟨[], [], [], by simp, by simp, by simp, rfl, trivial⟩
  | cons p ps ih =>
    simp only [addPorts, bind_ok_iff] at h
    obtain ⟨s1, h1, h2⟩ := h
    obtain ⟨n, prog, b, rfl, hp⟩ := addPort_ok h1
    obtain ⟨rs, cs, bs, h3, h4, h5, h6, h7⟩ := ih h2
    refine ⟨_ :: rs, prog :: cs, b :: bs, by rw [h3]; simp, by rw [h4]; simp, by rw [h5]; simp, ?_, hp, h7⟩
    exact ⟨rfl, rfl, by simpa using h6⟩

theorem PortsOk.length {d : Dir} {types : List NamedType} {ps : List NPort} {rs : List PortRange}
    {cs bs : List Bytes} (h : PortsOk d types ps rs cs bs) :
    rs.length = ps.length ∧ cs.length = ps.length ∧ bs.length = ps.length := by
  induction ps generalizing rs cs bs with
  | nil => cases rs <;> cases cs <;> cases bs <;> simp_all [PortsOk]
  | cons p ps ih =>
    cases rs <;> cases cs <;> cases bs <;> simp only [PortsOk] at h
    have := ih h.2
    simp; omega

theorem PortsOk.get {d : Dir} {types : List NamedType} {ps : List NPort} {rs : List PortRange}
    {cs bs : List Bytes} (h : PortsOk d types ps rs cs bs) {i : Nat} {p : NPort} (hi : ps[i]? = some p) :
    ∃ r c b, rs[i]? = some r ∧ cs[i]? = some c ∧ bs[i]? = some b ∧ PortOk d types p r c b := by
  induction ps generalizing rs cs bs i with
  | nil => simp at hi
  | cons p0 ps ih =>
    cases rs <;> cases cs <;> cases bs <;> simp only [PortsOk] at h
    cases i with
    | zero =>
      simp only [List.getElem?_cons_zero, Option.some.injEq] at hi
      subst hi
      exact ⟨_, _, _, rfl, rfl, rfl, h.1⟩
    | succ i => exact ih h.2 (by simpa using hi)

theorem createPortFile_ok {s : PortLayout} {f : Option FileData} (h : createPortFile s = .ok f) :
    fileBytes f = s.initData ∧ s.initData.length = s.offset ∧ (f = none ↔ s.offset = 0) := by
  unfold createPortFile at h
  split at h
  · simp at h
  · rename_i hl
    simp only [ne_eq, Decidable.not_not] at hl
    split at h
    · rename_i h0
      simp only [bind_ok_iff, Except.ok.injEq] at h
      obtain ⟨g, h1, rfl⟩ := h
      unfold FileData.create at h1
      rw [if_neg (by omega)] at h1
      simp only at h1
      rw [if_neg (by omega)] at h1
      simp only [Except.ok.injEq] at h1
      subst h1
      refine ⟨rfl, hl, ?_⟩
      constructor
      · simp
      · omega
    · rename_i h0
      simp only [Except.ok.injEq] at h
      subst h
      refine ⟨?_, hl, by simp; omega⟩
      have : s.initData.length = 0 := by omega
      rw [List.length_eq_zero_iff.mp this]
      rfl

/-- The invariant of node data objects. -/
structure NodeData.Wf (types : List NamedType) (rq pv : List NPort) (nd : NodeData) : Prop where
  inC : Consecutive 0 0 nd.inRanges (fileBytes nd.inFile).length
  outC : Consecutive 0 0 nd.outRanges (fileBytes nd.outFile).length
  inP : ∃ bs, PortsOk .unpack types rq nd.inRanges nd.inProgs bs
  outP : ∃ bs, PortsOk .pack types pv nd.outRanges nd.outProgs bs
  vals : nd.outValues.length = pv.length
  inN : nd.inFile = none ↔ (fileBytes nd.inFile).length = 0
  outN : nd.outFile = none ↔ (fileBytes nd.outFile).length = 0

theorem build_inv {types : List NamedType} {rq pv : List NPort} {text : Str} {nd : NodeData}
    (h : NodeData.build types rq pv text = .ok nd) :
    ∃ i o df, addPorts .unpack types .empty rq = .ok i ∧ createPortFile i = .ok nd.inFile ∧
      addPorts .pack types .empty pv = .ok o ∧ createPortFile o = .ok nd.outFile ∧
      createDefinitionFile text = .ok df ∧
      nd = ⟨i.ranges, i.progs, nd.inFile, o.ranges, o.progs, nd.outFile, pv.map outPortValue, df, false⟩ := by
  unfold NodeData.build at h
  simp only [bind_ok_iff, Except.ok.injEq] at h
  obtain ⟨i, h1, f, h2, o, h3, g, h4, df, h5, rfl⟩ := h
  exact ⟨i, o, df, h1, h2, h3, h4, h5, rfl⟩

theorem build_wf {types : List NamedType} {rq pv : List NPort} {text : Str} {nd : NodeData}
    (h : NodeData.build types rq pv text = .ok nd) : nd.Wf types rq pv := by
  obtain ⟨i, o, df, h1, h2, h3, h4, _, h5⟩ := build_inv h
  obtain ⟨rs, cs, bs, a1, a2, a3, a4, a5⟩ := addPorts_ok h1
  obtain ⟨rs', cs', bs', b1, b2, b3, b4, b5⟩ := addPorts_ok h3
  obtain ⟨f1, f2, f3⟩ := createPortFile_ok h2
  obtain ⟨g1, g2, g3⟩ := createPortFile_ok h4
  simp only [PortLayout.empty, List.nil_append, List.length_nil] at a1 a2 a3 a4 b1 b2 b3 b4
  rw [h5]
  refine ⟨?_, ?_, ⟨bs, ?_⟩, ⟨bs', ?_⟩, by simp, ?_, ?_⟩
  · simp only; rw [a1, f1, f2]; exact a4
  · simp only; rw [b1, g1, g2]; exact b4
  · simp only; rw [a1, a2]; exact a5
  · simp only; rw [b1, b2]; exact b5
  · simp only; rw [f1, f2]; exact f3
  · simp only; rw [g1, g2]; exact g3

/-! ### Preservation -/

theorem fileBytes_write_length (f : FileData) (o : Int) (d : Bytes) :
    (fileBytes (some (f.write o d).1)).length = (fileBytes (some f)).length :=
  FileData.write_length f o d

namespace NodeData

theorem Wf.locked {types : List NamedType} {rq pv : List NPort} {nd : NodeData} (h : nd.Wf types rq pv)
    (b : Bool) : ({ nd with locked := b } : NodeData).Wf types rq pv := ⟨h.inC, h.outC, h.inP, h.outP, h.vals, h.inN, h.outN⟩

theorem Wf.setVal {types : List NamedType} {rq pv : List NPort} {nd : NodeData} (h : nd.Wf types rq pv)
    (k : Nat) (v : OutVal) : ({ nd with outValues := nd.outValues.set k v } : NodeData).Wf types rq pv :=
  ⟨h.inC, h.outC, h.inP, h.outP, by simpa using h.vals, h.inN, h.outN⟩

theorem Wf.outWrite {types : List NamedType} {rq pv : List NPort} {nd : NodeData} (h : nd.Wf types rq pv)
    (f : FileData) (hf : nd.outFile = some f) (o : Int) (d : Bytes) :
    ({ nd with outFile := some (f.write o d).1 } : NodeData).Wf types rq pv := by
  have hl := fileBytes_write_length f o d
  refine ⟨h.inC, ?_, h.inP, h.outP, h.vals, h.inN, ?_⟩
  · have := h.outC; rw [hf] at this; simp only; rw [hl]; exact this
  · have := h.outN; rw [hf] at this
    simp only [reduceCtorEq, false_iff] at this ⊢
    rw [hl]; exact this

theorem Wf.inWrite {types : List NamedType} {rq pv : List NPort} {nd : NodeData} (h : nd.Wf types rq pv)
    (f : FileData) (hf : nd.inFile = some f) (o : Int) (d : Bytes) :
    ({ nd with inFile := some (f.write o d).1 } : NodeData).Wf types rq pv := by
  have hl := fileBytes_write_length f o d
  refine ⟨?_, h.outC, h.inP, h.outP, h.vals, ?_, h.outN⟩
  · have := h.inC; rw [hf] at this; simp only; rw [hl]; exact this
  · have := h.inN; rw [hf] at this
    simp only [reduceCtorEq, false_iff] at this ⊢
    rw [hl]; exact this

theorem unpackRequire_state (nd : NodeData) (r : PortRange) :
    (nd.unpackRequire r).1 = nd ∨ (nd.unpackRequire r).1 = { nd with locked := true } := by
  unfold unpackRequire
  repeat' split
  all_goals first
    | exact Or.inl rfl
    | exact Or.inr rfl

theorem readRequire_state (nd : NodeData) (i : Int) :
    (nd.readRequire i).1 = nd ∨ (nd.readRequire i).1 = { nd with locked := true } := by
  unfold readRequire
  split
  · exact Or.inl rfl
  · exact unpackRequire_state _ _

theorem notifyLoop_state (rs : List PortRange) (nd : NodeData) :
    (nd.notifyLoop rs).1 = nd ∨ (nd.notifyLoop rs).1 = { nd with locked := true } := by
  induction rs generalizing nd with
  | nil => exact Or.inl rfl
  | cons r rs ih =>
    have := unpackRequire_state nd r
    unfold notifyLoop
    split
    · rename_i h; rw [h] at this; exact this
    · rename_i h; rw [h] at this; exact this
    · rename_i nd' v h
      rw [h] at this
      simp only at this
      rcases this with rfl | rfl
      · exact ih _
      · have := ih { nd with locked := true }
        simp only [or_self] at this
        exact Or.inr this

theorem inPortNotify_state (nd : NodeData) (c : Bool) (off len : Nat) :
    (nd.inPortNotify c off len).1 = nd ∨ (nd.inPortNotify c off len).1 = { nd with locked := true } := by
  unfold inPortNotify
  split
  · split
    · exact Or.inl rfl
    · exact notifyLoop_state _ _
  · exact Or.inl rfl

theorem afterRemote_state (nd : NodeData) (c : Bool) (off len : Nat) (ret : Int)
    (note : Option FileData.Notification) :
    (nd.afterRemote c off len ret note).1 = nd ∨ (nd.afterRemote c off len ret note).1 = { nd with locked := true } := by
  unfold afterRemote
  cases note with
  | none => exact Or.inl rfl
  | some _ =>
    have := inPortNotify_state nd c off len
    simp only
    split <;> (rename_i h; rw [h] at this; exact this)

theorem remoteWrite_state (nd : NodeData) (c : Bool) (off : Nat) (data : Bytes) (more : Bool) :
    (nd.remoteWrite c off data more).1 = nd ∨
    ∃ f b, nd.inFile = some f ∧
      (nd.remoteWrite c off data more).1 = { nd with inFile := some (f.write off data).1, locked := b } := by
  unfold remoteWrite
  split
  · exact Or.inl rfl
  · rename_i f hf
    right
    simp only
    rcases afterRemote_state { nd with inFile := some (f.inputWrite off data more true).1 } c off data.length
      (f.inputWrite off data more true).2.1 (f.inputWrite off data more true).2.2 with e | e
    · exact ⟨f, nd.locked, hf, by rw [e]; rfl⟩
    · exact ⟨f, true, hf, by rw [e]; rfl⟩

theorem Wf.step {types : List NamedType} {rq pv : List NPort} {nd : NodeData} (h : nd.Wf types rq pv)
    (a : Access) : (nd.step a).Wf types rq pv := by
  cases a with
  | write i v =>
    simp only [NodeData.step]
    unfold writeProvide
    split
    · exact h
    · split
      · exact h
      · split
        · exact h
        · split
          · exact h.locked true
          · simp only
            split
            · exact h.setVal _ _
            · rename_i f hf
              exact (h.setVal _ _).outWrite f hf _ _
  | read i =>
    simp only [NodeData.step]
    rcases readRequire_state nd i with e | e <;> rw [e]
    · exact h
    · exact h.locked true
  | remote c off data more =>
    simp only [NodeData.step]
    rcases remoteWrite_state nd c off data more with e | ⟨f, b, hf, e⟩ <;> rw [e]
    · exact h
    · exact (h.inWrite f hf _ _).locked b

theorem Wf.run {types : List NamedType} {rq pv : List NPort} (as : List Access) {nd : NodeData}
    (h : nd.Wf types rq pv) : (nd.run as).Wf types rq pv := by
  induction as generalizing nd with
  | nil => exact h
  | cons a as ih => exact ih (h.step a)

theorem Reachable.wf {types : List NamedType} {rq pv : List NPort} {text : Str} {nd : NodeData}
    (h : nd.Reachable types rq pv text) : nd.Wf types rq pv := by
  obtain ⟨nd0, as, h1, rfl⟩ := h
  exact (build_wf h1).run as

end NodeData

/-! ### From bytes to ports -/

theorem byteMap_length {off k : Nat} {rs : List PortRange} {stop : Nat} (h : Consecutive off k rs stop) :
    off + (byteMap rs).length = stop := by
  induction rs generalizing off k with
  | nil => simpa [byteMap, Consecutive] using h
  | cons r rs ih =>
    have := ih h.2.2
    simp only [byteMap, List.length_append, List.length_replicate]
    omega

theorem byteMap_get {off k : Nat} {rs : List PortRange} {stop : Nat} (h : Consecutive off k rs stop)
    {o : Nat} (h2 : off + o < stop) :
    ∃ (i : Nat) (r : PortRange), rs[i]? = some r ∧ r.id = k + i ∧ r.Owns (off + o) ∧ (byteMap rs)[o]? = some (k + i) := by
  induction rs generalizing off k o with
  | nil => simp only [Consecutive] at h; omega
  | cons r rs ih =>
    obtain ⟨h3, h4, h5⟩ := h
    by_cases hlt : o < r.len
    · refine ⟨0, r, rfl, by omega, by unfold PortRange.Owns; omega, ?_⟩
      simp only [byteMap]
      rw [List.getElem?_append_left (by simpa using hlt), List.getElem?_replicate, if_pos hlt, h4]
      rfl
    · obtain ⟨i, s, h6, h7, h8, h9⟩ := ih h5 (o := o - r.len) (by omega)
      refine ⟨i + 1, s, by simpa using h6, by omega, by rw [show off + o = off + r.len + (o - r.len) by omega]; exact h8, ?_⟩
      simp only [byteMap]
      rw [List.getElem?_append_right (by simp; omega), List.length_replicate, h9]
      congr 1; omega

theorem overlapsB_none {off len : Nat} {r : PortRange} (h : off + len ≤ r.offset ∨ r.offset + r.len ≤ off ∨ len = 0) :
    r.overlapsB off len = false := by
  simp only [PortRange.overlapsB, decide_eq_false_iff_not]
  omega

theorem byteToPortLoop_ok {rs : List PortRange} {size : Nat} (h : Consecutive 0 0 rs size) (fuel off stop : Nat)
    (hs : stop ≤ size) (hf : stop - off ≤ fuel) :
    NodeData.byteToPortLoop rs fuel off stop = .ok (rs.filter (PortRange.overlapsB off (stop - off))) := by
  induction fuel generalizing off with
  | zero =>
    simp only [NodeData.byteToPortLoop]
    rw [if_neg (by omega)]
    congr 1
    symm
    rw [List.filter_eq_nil_iff]
    intro r _
    rw [overlapsB_none (by omega)]
    simp
  | succ fuel ih =>
    simp only [NodeData.byteToPortLoop]
    by_cases hlt : off < stop
    · rw [if_pos hlt]
      obtain ⟨i, r, h1, h2, h3, h4⟩ := byteMap_get h (o := off) (by omega)
      rw [h4]
      simp only [Nat.zero_add] at h2 h3 ⊢
      rw [h1]
      simp only
      rw [if_neg (by omega)]
      have hn := h3
      unfold PortRange.Owns at hn
      rw [ih (r.offset + r.len) (by omega)]
      show Except.ok _ = _
      congr 1
      have hsplit : rs = rs.take i ++ r :: rs.drop (i + 1) := by
        have hi : i < rs.length := by
          rw [List.getElem?_eq_some_iff] at h1; exact h1.1
        rw [List.getElem?_eq_getElem hi] at h1
        simp only [Option.some.injEq] at h1
        rw [← h1, List.getElem_cons_drop, List.take_append_drop]
      have hpre : ∀ s ∈ rs.take i, s.offset + s.len ≤ r.offset := by
        intro s hs
        obtain ⟨j, hj⟩ := List.getElem?_of_mem hs
        rw [List.getElem?_take] at hj
        split at hj
        · rename_i hji
          exact h.disjoint hj h1 hji
        · simp at hj
      have hpost : ∀ s ∈ rs.drop (i + 1), r.offset + r.len ≤ s.offset := by
        intro s hs
        obtain ⟨j, hj⟩ := List.getElem?_of_mem hs
        rw [List.getElem?_drop] at hj
        exact h.disjoint h1 hj (by omega)
      generalize rs.take i = pre at hsplit hpre
      generalize rs.drop (i + 1) = post at hsplit hpost
      rw [hsplit]
      simp only [List.filter_append, List.filter_cons]
      have e1 : pre.filter (PortRange.overlapsB off (stop - off)) = [] := by
        rw [List.filter_eq_nil_iff]
        intro s hs
        have := hpre s hs
        rw [overlapsB_none (by omega)]; simp
      have e2 : pre.filter (PortRange.overlapsB (r.offset + r.len) (stop - (r.offset + r.len))) = [] := by
        rw [List.filter_eq_nil_iff]
        intro s hs
        have := hpre s hs
        rw [overlapsB_none (by omega)]; simp
      have e3 : r.overlapsB off (stop - off) = true := by
        simp only [PortRange.overlapsB, decide_eq_true_eq]; omega
      have e4 : r.overlapsB (r.offset + r.len) (stop - (r.offset + r.len)) = false := overlapsB_none (by omega)
      have e5 : post.filter (PortRange.overlapsB (r.offset + r.len) (stop - (r.offset + r.len))) =
          post.filter (PortRange.overlapsB off (stop - off)) := by
        apply List.filter_congr
        intro s hs
        have := hpost s hs
        simp only [PortRange.overlapsB, decide_eq_decide]
        omega
      rw [e1, e2, e3, e4, e5]
      simp
    · rw [if_neg hlt]
      congr 1
      symm
      rw [List.filter_eq_nil_iff]
      intro r _
      rw [overlapsB_none (by omega)]
      simp

/-- The bound on the number of iterations in `byteToPort` is immaterial. -/
theorem byteToPort_fuel {rs : List PortRange} {size : Nat} (h : Consecutive 0 0 rs size) (fuel start len : Nat)
    (hs : start + len ≤ size) (hf : len ≤ fuel) :
    NodeData.byteToPortLoop rs fuel start (start + len) = NodeData.byteToPortLoop rs len start (start + len) := by
  rw [byteToPortLoop_ok h fuel start _ hs (by omega), byteToPortLoop_ok h len start _ hs (by omega)]

/-! ### References -/

theorem resolveLoop_leaves (n : Nat) (e de : Elem) (h : e.resolveLoop n = .ok de) : e.leaves = de.leaves := by
  induction n generalizing e with
  | zero => cases e <;> simp_all [Elem.resolveLoop]
  | succ n ih =>
    cases e with
    | refType m t =>
      simp only [Elem.resolveLoop] at h
      simp only [Elem.leaves]
      exact ih t h
    | _ => simp_all [Elem.resolveLoop]

/-- The data length of a port is that of its type with references followed. -/
theorem port_len {d : Dir} {e de : Elem} {prog : Bytes} {n : Nat} (h1 : e.resolveDataElement = .ok de)
    (h2 : e.packLen = .ok n) (h3 : compileProg d de = .ok prog) : de.packLen = .ok n := by
  obtain ⟨code, m, hc, _⟩ := compileProg_inv h3
  obtain ⟨ls, h4, h5⟩ := de.compile_leaves code m hc
  have h6 := resolveLoop_leaves _ _ _ h1
  rw [packLen_leaves de ls h4]
  rw [packLen_leaves e ls (by rw [h6, h4])] at h2
  exact h2

end Apx
