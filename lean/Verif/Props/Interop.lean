import Verif.Props.GenCode
import Verif.Props.Forward

/-! C98: programs in C that use the generated code, and programs in Python that use a client, exchange
values. -/

namespace Apx
open Manager

variable {H : Type}

/-- A port of the node the code is generated for has type `d`, all references followed. -/
def Generated.PortOf (g : Generated) (side : Side) (p : Port) (d : Elem) : Prop :=
  p ∈ g.node.ports side ∧ ((g.node.ports side).map Port.name).Nodup ∧ p.elem.resolveDataElement = .ok d

/-- The bytes in the middle. -/
theorem mid_bytes (buf bs : Bytes) (off len : Nat) (hb : bs.length = len) (hfit : off + len ≤ buf.length) :
    ((buf.take off ++ bs ++ buf.drop (off + len)).drop off).take len = bs := by
  subst hb
  have h : (buf.take off).length = off := by rw [List.length_take]; omega
  rw [List.append_assoc, List.drop_append_of_le_length (by omega), List.drop_eq_nil_of_le (by omega), List.nil_append,
    List.take_append_of_le_length (by omega), List.take_of_length_le (Nat.le_refl _)]

/-- References do not change the length of a supported type. -/
theorem resolve_packLen {e d : Elem} (h : e.resolveDataElement = .ok d) (hs : d.CSupported) {sfx : Str}
    (hsfx : sfx = [] ∨ d.NoNested) : e.packLen = d.packLen := by
  obtain ⟨code, len, bp, lb, g1, -⟩ := packTop sfx d (resolveLoop_notRef _ _ _ h) hs hsfx 0 false
  obtain ⟨ls, h1, -⟩ := genLen sfx .pack d hs _ _ _ _ _ _ g1
  rw [packLen_leaves d ls h1, packLen_leaves e ls (by rw [resolveLoop_leaves _ _ _ h, h1])]

/-- C98, from C to Python: a program calls the write function generated for a provide port, in any state
of the output buffer, with an object that represents `v`.  The function reports the range it has changed.
When the bytes of this range arrive at the place of a require port of the same type in the file of a
Python client, after any history of that client, then the client's program is called once, for this port,
with a value equal to `v`; reading the port gives it; the other ports read as before. -/
theorem C98_to_python (n nR : Node) (g : Generated) (hg : generate n = .ok g) (p : Port) (d : Elem)
    (hp : g.PortOf .provide p d) (hs : d.CSupported) (sfx : Str) (direct : List Str)
    (R0 R : Endpoint H) (hR0 : Endpoint.ofNode nR = .ok R0) (asR : List (Act H)) (hR : R = R0.history asR)
    (a : Nat) (hann : R0.Announced nR asR a) (hst : R.stuck = false) (hlock : R.node.locked = false)
    (hend : a + (fileBytes R.node.inFile).length ≤ Rmf.cmdStartAddr) (k : Nat) (hk : nR.PortType .require k d)
    (offR : Nat) (hoffR : nR.PortStart .require k offR) (hlens : d.LensOk) (hnames : d.NamesOk) (hnest : d.NoNested)
    (len : Nat) (hlen : d.packLen = .ok len) (hpos : 0 < len) (v : PyVal) (hx : d.Exact v) (c : CVal)
    (hr : d.Repr sfx v c) (buf : Bytes) (hbuf : buf.length = g.outLen) :
    ∃ f m off, writeFunc g sfx direct p = .ok (f, len) ∧ f.call buf (writeArg d c) = some m ∧
      m.notes = [(off, len, decide (p.name ∈ direct))] ∧
      ∀ frame, DataFrame (a + offR) ((m.buf.drop off).take len) frame →
        ∃ (R' : Endpoint H) (v' : PyVal), R.receive frame = (R', none) ∧ R'.calls = R.calls ++ [(k, v')] ∧
          R'.node.readRequire k = (R'.node, .ok v') ∧ v'.Same v ∧ R'.stuck = false ∧
          ∀ j : Int, j ≠ k → (R'.node.readRequire j).2 = (R.node.readRequire j).2 := by
  obtain ⟨hm, hnd, hd⟩ := hp
  obtain ⟨s, -, -, hl, hfit, hw⟩ := C67_node_write_partial n g hg hnd p hm d hd hs sfx (.inr hnest) direct
  rw [resolve_packLen hd hs (.inr hnest : sfx = [] ∨ _), hlen] at hl
  cases hl
  obtain ⟨f, hf, hcall⟩ := hw (by omega)
  obtain ⟨bs, m, h1, h2, h3, h4, h5, -⟩ := hcall v c buf hr hbuf
  refine ⟨f, m, s.offset, hf, h3, h5, ?_⟩
  intro frame hfr
  rw [h4, mid_bytes buf bs _ _ h2 (by omega)] at hfr
  subst hR
  obtain ⟨R', v', r1, r2, r3, r4, r5, r6, -⟩ := sent_arrives hR0 asR a hann hst hlock hend k d hk offR hoffR hlens hnames
    hnest _ hlen hpos v hx bs (by rw [← resolveLoop_layout _ _ _ hd]; exact h1) frame hfr
  exact ⟨R', v', r1, r2, r3, r4, r5, r6⟩

/-- C98, from Python to C: a Python client has, after any history, last written `v` to a provide port; the
server has opened its file and kept a copy of it.  When the bytes of this port are, in the input buffer of
a C program, where the generated code has a require port of the same type, then the read function
generated for it stores an object that represents `v` into the object it is given, whatever this held
(character arrays must end in a zero byte), and leaves the buffer as it is. -/
theorem C98_to_c (n nP : Node) (g : Generated) (hg : generate n = .ok g) (p : Port) (d : Elem)
    (hp : g.PortOf .require p d) (hs : d.CSupported) (sfx : Str)
    (P0 P : Endpoint H) (hP0 : Endpoint.ofNode nP = .ok P0) (asP : List (Act H)) (hP : P = P0.history asP)
    (hopen : P0.Opened asP) (i : Nat) (hi : nP.PortType .provide i d) (offP : Nat)
    (hoffP : nP.PortStart .provide i offP) (hlens : d.LensOk) (hnames : d.NamesOk) (hnest : d.NoNested)
    (len : Nat) (hlen : d.packLen = .ok len) (hpos : 0 < len) (v : PyVal) (hw : P0.LastWrite asP i v)
    (copy : Bytes) (hcopy : copy.length = (fileBytes P.node.outFile).length) (c : CVal) (hr : d.Repr sfx v c) :
    ∃ f s, s ∈ g.require ∧ s.name = p.name ∧ readFunc g sfx p = .ok (f, len) ∧
      ∀ (buf : Bytes) (c0 : CVal), buf.length = g.inLen →
        (buf.drop s.offset).take len = serverCopy copy P offP len → d.Shape sfx c0 →
        ∃ m, f.call buf (.ptr c0) = some m ∧ m.buf = buf ∧ m.arg = .ptr c := by
  obtain ⟨hm, hnd, hd⟩ := hp
  obtain ⟨s, hsm, hsn, hl, hfit, hrd⟩ := C67_node_read_partial n g hg hnd p hm d hd hs sfx (.inr hnest)
  rw [resolve_packLen hd hs (.inr hnest : sfx = [] ∨ _), hlen] at hl
  cases hl
  obtain ⟨f, hf, hcall⟩ := hrd (by omega)
  subst hP
  obtain ⟨data, hlay, hb⟩ := lastWrite_data hP0 hw hi hlens hnames (noNested_noEmpty d hnest)
  rw [serverCopy_port hP0 hopen hi hlen hpos hoffP copy hcopy] at hb
  cases hb
  refine ⟨f, s, hsm, hsn, hf, ?_⟩
  intro buf c0 hbuf hbytes hsh
  exact hcall v c c0 buf hr hsh hbuf (by rw [hbytes, resolveLoop_layout _ _ _ hd]; exact hlay)

/-- C98, from C to C: what the write function generated for a provide port of one node stores, the read
function generated for a require port of the same type of another node delivers, once the bytes of the
range the former reports are where the latter has its port. -/
theorem C98_c_to_c (n n' : Node) (g g' : Generated) (hg : generate n = .ok g) (hg' : generate n' = .ok g')
    (p p' : Port) (d : Elem) (hp : g.PortOf .provide p d) (hp' : g'.PortOf .require p' d) (hs : d.CSupported)
    (sfx : Str) (hsfx : sfx = [] ∨ d.NoNested) (direct : List Str) (len : Nat) (hlen : d.packLen = .ok len) (hpos : 0 < len)
    (v : PyVal) (c : CVal) (hr : d.Repr sfx v c) (buf : Bytes) (hbuf : buf.length = g.outLen) :
    ∃ f m off f' s', writeFunc g sfx direct p = .ok (f, len) ∧ f.call buf (writeArg d c) = some m ∧
      m.notes = [(off, len, decide (p.name ∈ direct))] ∧ s' ∈ g'.require ∧ s'.name = p'.name ∧
      readFunc g' sfx p' = .ok (f', len) ∧
      ∀ (buf' : Bytes) (c0 : CVal), buf'.length = g'.inLen →
        (buf'.drop s'.offset).take len = (m.buf.drop off).take len → d.Shape sfx c0 →
        ∃ m', f'.call buf' (.ptr c0) = some m' ∧ m'.buf = buf' ∧ m'.arg = .ptr c := by
  obtain ⟨hm, hnd, hd⟩ := hp
  obtain ⟨hm', hnd', hd'⟩ := hp'
  obtain ⟨s, -, -, hl, hfit, hw⟩ := C67_node_write_partial n g hg hnd p hm d hd hs sfx hsfx direct
  rw [resolve_packLen hd hs hsfx, hlen] at hl
  obtain ⟨s', hsm, hsn, hl', hfit', hrd⟩ := C67_node_read_partial n' g' hg' hnd' p' hm' d hd' hs sfx hsfx
  rw [resolve_packLen hd' hs hsfx, hlen] at hl'
  have e := Except.ok.inj hl
  have e' := Except.ok.inj hl'
  rw [← e] at hfit hw
  rw [← e'] at hfit' hrd
  obtain ⟨f, hf, hcall⟩ := hw (by omega)
  obtain ⟨bs, m, h1, h2, h3, h4, h5, -⟩ := hcall v c buf hr hbuf
  obtain ⟨f', hf', hcall'⟩ := hrd (by omega)
  refine ⟨f, m, s.offset, f', s', hf, h3, h5, hsm, hsn, hf', ?_⟩
  intro buf' c0 hb hbytes hsh
  refine hcall' v c c0 buf' hr hsh hb ?_
  rw [hbytes, h4, mid_bytes buf bs _ _ h2 (by omega), resolveLoop_layout _ _ _ hd', ← resolveLoop_layout _ _ _ hd]
  exact h1

/-! The record and the ports of the example of C94; the generator needs a name for the type. -/

def ioP : Node := (Node.new ['C', 'P']).run
  [.addType ['T'] fwRec none, .addPort .provide ['A'] ['C'] none,
   .addPort .provide ['B'] "T[\"T\"]".toList (some "={7, 8}".toList), .finalize false false]

def ioR : Node := (Node.new ['C', 'R']).run
  [.addType ['T'] fwRec none, .addPort .require ['Q'] ['L'] none,
   .addPort .require ['B'] "T[\"T\"]".toList (some "={0, 0}".toList), .finalize false false]

def ioObj : CVal := .struct (.cons ['x'] (.int 3) (.cons ['y'] (.int (-4)) .nil))

def ioCheck (side : Side) (g : Generated) : Bool :=
  match (g.node.ports side)[1]? with
  | some p => decide (((g.node.ports side).map Port.name).Nodup ∧ p.elem.resolveDataElement = .ok fwDe) &&
    decide (p.name = ['B'] ∧ g.outLen = (if side = .provide then 4 else 0) ∧ g.inLen = (if side = .require then 7 else 0))
  | none => false

theorem ioPort (n : Node) (side : Side)
    (h : (match generate n with | .ok g => ioCheck side g | .error _ => false) = true) :
    ∃ g p, generate n = .ok g ∧ g.PortOf side p fwDe ∧ p.name = ['B'] ∧
      g.outLen = (if side = .provide then 4 else 0) ∧ g.inLen = (if side = .require then 7 else 0) := by
  cases hg : generate n with
  | error x => rw [hg] at h; cases h
  | ok g =>
    rw [hg] at h
    simp only [ioCheck] at h
    cases hp : (g.node.ports side)[1]? with
    | none => rw [hp] at h; cases h
    | some p =>
      rw [hp] at h
      simp only [Bool.and_eq_true, decide_eq_true_eq] at h
      obtain ⟨⟨h1, h2⟩, h3, h4, h5⟩ := h
      exact ⟨g, p, rfl, ⟨List.mem_of_getElem? hp, h1, h2⟩, h3, h4, h5⟩

theorem ioSupported : fwDe.CSupported ∧ fwDe.Repr [] (fwVal 3 (-4)) ioObj := by
  refine ⟨?_, rfl, ⟨_, rfl, .u8, 3, rfl, by decide, rfl, rfl⟩, rfl, ⟨_, rfl, .s16, -4, rfl, by decide, rfl, rfl⟩, trivial⟩
  simp only [fwDe, Elem.CSupported, Fields.CSupported, Fields.names]
  exact ⟨by decide, rfl, rfl, trivial⟩

/-- A C program made for a node that provides the record writes the record; the Python client is called with it. -/
example : ∃ (g : Generated) (p : Port) (R0 : Endpoint Unit), generate ioP = .ok g ∧ Endpoint.ofNode fwR = .ok R0 ∧
    ∃ f m off, writeFunc g [] [] p = .ok (f, 3) ∧ f.call [9, 9, 9, 9] (writeArg fwDe ioObj) = some m ∧
      m.notes = [(off, 3, false)] ∧
      ∀ frame, DataFrame (256 + 4) ((m.buf.drop off).take 3) frame →
        ∃ (R' : Endpoint Unit) (v' : PyVal), (R0.history fwHistR).receive frame = (R', none) ∧
          R'.calls = (R0.history fwHistR).calls ++ [(1, v')] ∧ v'.Same (fwVal 3 (-4)) := by
  obtain ⟨g, p, hg, hp, hn, ho, -⟩ := ioPort ioP .provide (by decide +kernel)
  obtain ⟨R0, hR0, hcR⟩ := fwR_checked
  refine ⟨g, p, R0, hg, hR0, ?_⟩
  simp only [fwCheckR, decide_eq_true_eq] at hcR
  obtain ⟨r1, r2, r3, r4, r5, r6⟩ := hcR
  have hann : R0.Announced fwR fwHistR 256 :=
    ⟨fwHistR.take 1, fwInfo, fwInfoMsg, fwHistR.drop 2, rfl,
      ⟨fwInfoMsg.drop 4, by decide +kernel, fwInfoMsg.take 4, false, by decide +kernel, by decide +kernel⟩,
      ⟨⟨256, rfl, by decide⟩, by decide, by decide, by decide, by decide, by decide⟩,
      by decide +kernel, rfl, by rw [r1]; rfl, r2, r3⟩
  obtain ⟨f, m, off, h1, h2, h3, h4⟩ := C98_to_python ioP fwR g hg p fwDe hp ioSupported.1 [] [] R0 _ hR0 fwHistR rfl 256
    hann r4 r5 (by rw [r6]; decide) 1 (fwPort _ _ _ _ (by decide +kernel)) 4 ⟨[4], by decide +kernel, rfl⟩
    (by simp [fwDe, Elem.LensOk, Fields.LensOk]) (by simp [fwDe, Elem.NamesOk, Fields.NamesOk])
    (by simp [fwDe, Elem.NoNested, Fields.AllFlat, Elem.IsFlat]) 3 (by decide +kernel) (by decide) (fwVal 3 (-4)) fwExact
    ioObj ioSupported.2 [9, 9, 9, 9] (by rw [ho]; rfl)
  refine ⟨f, m, off, h1, h2, by simpa using h3, ?_⟩
  intro frame hfr
  obtain ⟨R', v', a1, a2, -, a4, -⟩ := h4 frame hfr
  exact ⟨R', v', a1, a2, a4⟩

/-- Another C program, made for a node that requires the record, reads what the first has written. -/
example : ∃ g p g' p', generate ioP = .ok g ∧ generate ioR = .ok g' ∧
    ∃ f m off f' s', writeFunc g [] [] p = .ok (f, 3) ∧ f.call [9, 9, 9, 9] (writeArg fwDe ioObj) = some m ∧
      s' ∈ g'.require ∧ readFunc g' [] p' = .ok (f', 3) ∧
      ∀ (buf' : Bytes) (c0 : CVal), buf'.length = 7 → (buf'.drop s'.offset).take 3 = (m.buf.drop off).take 3 →
        fwDe.Shape [] c0 → ∃ m', f'.call buf' (.ptr c0) = some m' ∧ m'.arg = .ptr ioObj := by
  obtain ⟨g, p, hg, hp, hn, ho, -⟩ := ioPort ioP .provide (by decide +kernel)
  obtain ⟨g', p', hg', hp', hn', -, hi⟩ := ioPort ioR .require (by decide +kernel)
  refine ⟨g, p, g', p', hg, hg', ?_⟩
  obtain ⟨f, m, off, f', s', h1, h2, h3, h4, h5, h6, h7⟩ := C98_c_to_c ioP ioR g g' hg hg' p p' fwDe hp hp' ioSupported.1 []
    (.inl rfl) [] 3 (by decide +kernel) (by decide) (fwVal 3 (-4)) ioObj ioSupported.2 [9, 9, 9, 9] (by rw [ho]; rfl)
  refine ⟨f, m, off, f', s', h1, h2, h4, h6, ?_⟩
  intro buf' c0 hb hb' hsh
  obtain ⟨m', b1, -, b3⟩ := h7 buf' c0 (by rw [hb, hi]; rfl) hb' hsh
  exact ⟨m', b1, b3⟩

/-- A C program reads what the Python client has last written. -/
example : ∃ (g : Generated) (p : Port) (P0 : Endpoint Unit), generate ioR = .ok g ∧ Endpoint.ofNode fwP = .ok P0 ∧
    ∃ f s, s ∈ g.require ∧ readFunc g [] p = .ok (f, 3) ∧
      ∀ (buf : Bytes) (c0 : CVal), buf.length = 7 →
        (buf.drop s.offset).take 3 = serverCopy [9, 9, 9, 9] (P0.history fwHistP) 1 3 → fwDe.Shape [] c0 →
        ∃ m, f.call buf (.ptr c0) = some m ∧ m.arg = .ptr ioObj := by
  obtain ⟨g, p, hg, hp, hn, -, hi⟩ := ioPort ioR .require (by decide +kernel)
  obtain ⟨P0, hP0, hcP⟩ := fwP_checked
  refine ⟨g, p, P0, hg, hP0, ?_⟩
  obtain ⟨hopen, hw, hcopy⟩ := fwP_history P0 hcP
  obtain ⟨f, s, h1, -, h3, h4⟩ := C98_to_c ioR fwP g hg p fwDe hp ioSupported.1 [] P0 _ hP0 fwHistP rfl hopen 1
    (fwPort _ _ _ _ (by decide +kernel)) 1 ⟨[1], by decide +kernel, rfl⟩
    (by simp [fwDe, Elem.LensOk, Fields.LensOk]) (by simp [fwDe, Elem.NamesOk, Fields.NamesOk])
    (by simp [fwDe, Elem.NoNested, Fields.AllFlat, Elem.IsFlat]) 3 (by decide +kernel) (by decide) (fwVal 3 (-4)) hw
    [9, 9, 9, 9] (by rw [hcopy]; rfl) ioObj ioSupported.2
  refine ⟨f, s, h1, h3, ?_⟩
  intro buf c0 hb hbytes hsh
  obtain ⟨m, b1, -, b3⟩ := h4 buf c0 (by rw [hb, hi]; rfl) hbytes hsh
  exact ⟨m, b1, b3⟩

end Apx
