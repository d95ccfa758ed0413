import Verif.Spec.Com
import Verif.Props.GenCode
import Verif.Props.Import
import Verif.Proofs.Tools

/-! C87: the emitted communication layer. -/

namespace Apx

/-! ### Places in the buffer -/

theorem replaced_same (buf bs : Bytes) (o n : Nat) (hb : bs.length = n) (ho : o + n ≤ buf.length) :
    ((buf.take o ++ bs ++ buf.drop (o + n)).drop o).take n = bs := by
  have h : (buf.take o).length = o := by simp; omega
  rw [List.append_assoc, List.drop_left' h, List.take_left' hb]

theorem replaced_other (buf bs : Bytes) (o n o' n' : Nat) (hb : bs.length = n) (ho : o + n ≤ buf.length)
    (hd : o' + n' ≤ o ∨ o + n ≤ o') :
    ((buf.take o ++ bs ++ buf.drop (o + n)).drop o').take n' = (buf.drop o').take n' := by
  apply List.ext_getElem?
  intro i
  simp only [List.getElem?_take, List.getElem?_drop]
  split
  · rename_i hi
    rcases hd with hd | hd
    · rw [List.append_assoc, List.getElem?_append_left (by simp; omega), List.getElem?_take, if_pos (by omega)]
    · rw [List.getElem?_append_right (by simp; omega), List.getElem?_drop]
      congr 1
      simp
      omega
  · rfl

theorem genSignals_apart (side : Side) (types : List NamedType) (ports : List Port) :
    ∀ (off : Nat) (ss : List Signal), genSignals side types off ports = .ok ss →
      (∀ s ∈ ss, off ≤ s.offset ∧ s.offset + s.packLen ≤ off + totalLen ss) ∧
      ss.Pairwise (fun s t => s.offset + s.packLen ≤ t.offset) := by
  induction ports with
  | nil =>
    intro off ss h
    simp only [genSignals, Except.ok.injEq] at h
    subst h
    simp
  | cons p ports ih =>
    intro off ss h
    simp only [genSignals, bind_ok_iff, Except.ok.injEq] at h
    obtain ⟨s, h1, ss', h2, rfl⟩ := h
    obtain ⟨i1, i2⟩ := ih _ _ h2
    have ho : s.offset = off := by
      unfold genSignal at h1
      simp only [bind_ok_iff] at h1
      obtain ⟨_, _, _, _, n, _, e, _, hm⟩ := h1
      unfold mkSignal at hm
      rw [bind_ok_iff] at hm
      obtain ⟨b, _, hm⟩ := hm
      split at hm
      · cases hm; rfl
      · cases hm
    constructor
    · intro t ht
      simp only [totalLen, List.map_cons, List.foldr_cons]
      rcases List.mem_cons.mp ht with rfl | ht
      · omega
      · have := i1 t ht
        simp only [totalLen] at this
        omega
    · rw [List.pairwise_cons]
      exact ⟨fun t ht => by have := (i1 t ht).1; omega, i2⟩

/-- Ports of different names have places apart from each other. -/
theorem generated_apart {n : Node} {g : Generated} (hg : generate n = .ok g) (s t : Signal) (hs : s ∈ g.provide)
    (ht : t ∈ g.provide) (hne : s.name ≠ t.name) :
    s.offset + s.packLen ≤ t.offset ∨ t.offset + t.packLen ≤ s.offset := by
  unfold generate at hg
  simp only [bind_ok_iff] at hg
  obtain ⟨n', h1, rs, h2, ps, h3, o, h4, i, h5, h6⟩ := hg
  cases h6
  have hp := (genSignals_apart _ _ _ _ _ h3).2
  simp only at hs ht
  have key : ∀ l : List Signal, l.Pairwise (fun s t => s.offset + s.packLen ≤ t.offset) → s ∈ l → t ∈ l →
      s.offset + s.packLen ≤ t.offset ∨ t.offset + t.packLen ≤ s.offset := by
    intro l hl
    induction l with
    | nil => simp
    | cons x l ih =>
      rw [List.pairwise_cons] at hl
      intro h1 h2
      rcases List.mem_cons.mp h1 with rfl | h1
      · rcases List.mem_cons.mp h2 with rfl | h2
        · exact absurd rfl hne
        · exact Or.inl (hl.1 t h2)
      · rcases List.mem_cons.mp h2 with he | h2
        · subst he
          exact Or.inr (hl.1 s (by assumption))
        · exact ih hl.2 h1 h2
  exact key ps hp hs ht

theorem generated_facts {n : Node} {g : Generated} (hg : generate n = .ok g) :
    g.provide.map Signal.name = g.node.provides.map Port.name ∧ g.outInit.length = g.outLen ∧
      ∀ s ∈ g.provide, s.offset + s.packLen ≤ g.outLen := by
  unfold generate at hg
  simp only [bind_ok_iff] at hg
  obtain ⟨n', h1, rs, h2, ps, h3, o, h4, i, h5, h6⟩ := hg
  cases h6
  refine ⟨(genSignals_each _ _ _ _ _ h3).1, ?_, ?_⟩
  · unfold emitInit at h4
    split at h4
    · split at h4
      · rename_i hl
        cases h4
        exact hl
      · cases h4
    · rename_i hz
      cases h4
      simp only [List.length_nil]
      omega
  · intro s hs
    have := (genSignals_apart _ _ _ _ _ h3).1 s hs
    simp only
    omega

theorem find_signal {ss : List Signal} (hnd : (ss.map Signal.name).Nodup) {s : Signal} (hs : s ∈ ss) :
    ss.find? (fun t => t.name = s.name) = some s := by
  induction ss with
  | nil => simp at hs
  | cons x l ih =>
    rw [List.map_cons, List.nodup_cons] at hnd
    rcases List.mem_cons.mp hs with rfl | hs
    · simp
    · have hne : x.name ≠ s.name := fun h => hnd.1 (by rw [h]; exact List.mem_map_of_mem hs)
      rw [List.find?_cons_of_neg (by simpa using hne)]
      exact ih hnd.2 hs

theorem find_provided {ps : List Port} (hnd : (ps.map Port.name).Nodup) {p : Port} (hp : p ∈ ps) :
    ps.find? (fun q => q.name = p.name) = some p := by
  induction ps with
  | nil => simp at hp
  | cons x l ih =>
    rw [List.map_cons, List.nodup_cons] at hnd
    rcases List.mem_cons.mp hp with rfl | hp
    · simp
    · have hne : x.name ≠ p.name := fun h => hnd.1 (by rw [h]; exact List.mem_map_of_mem hp)
      rw [List.find?_cons_of_neg (by simpa using hne)]
      exact ih hnd.2 hp

/-! ### Variables -/

theorem lookup_append {α : Type} (l r : List (Str × α)) (k : Str) :
    (l ++ r).lookup k = (l.lookup k).or (r.lookup k) := by
  induction l with
  | nil => simp
  | cons x l ih =>
    obtain ⟨a, b⟩ := x
    simp only [List.cons_append, List.lookup_cons, ih]
    split <;> simp

theorem comVars_kept (fs : List ComFunc) (vars : List (Str × CVal)) (k : Str) (x : CVal) (h : vars.lookup k = some x) :
    (comVars vars fs).lookup k = some x := by
  induction fs generalizing vars with
  | nil => exact h
  | cons f fs ih =>
    apply ih
    split
    · exact h
    · rw [lookup_append, h]; rfl

theorem comVars_lookup (fs : List ComFunc) (hnd : (fs.map ComFunc.var).Nodup) (vars : List (Str × CVal))
    (hv : ∀ f ∈ fs, vars.lookup f.var = none) : ∀ f ∈ fs, (comVars vars fs).lookup f.var = some f.init := by
  induction fs generalizing vars with
  | nil => simp
  | cons f fs ih =>
    rw [List.map_cons, List.nodup_cons] at hnd
    have h0 := hv f (by simp)
    intro q hq
    simp only [comVars, h0, Option.isSome_none, Bool.false_eq_true, if_false]
    rcases List.mem_cons.mp hq with rfl | hq
    · apply comVars_kept
      rw [lookup_append, h0]
      simp
    · refine ih hnd.2 _ (fun r hr => ?_) q hq
      have hne : r.var ≠ f.var := fun h => hnd.1 (by rw [← h]; exact List.mem_map_of_mem hr)
      rw [lookup_append, hv r (by simp [hr])]
      have : (r.var == f.var) = false := by simpa using hne
      simp [List.lookup_cons, this]

theorem setVar_lookup (vars : List (Str × CVal)) (k : Str) (v x : CVal) (h : vars.lookup k = some x) (k' : Str) :
    (setVar vars k v).lookup k' = if k' = k then some v else vars.lookup k' := by
  induction vars with
  | nil => simp at h
  | cons y l ih =>
    obtain ⟨a, b⟩ := y
    simp only [setVar, List.map_cons] at ih ⊢
    by_cases hak : a = k
    · subst hak
      simp only [if_pos]
      by_cases hk : k' = a
      · subst hk; simp
      · have : (k' == a) = false := by simpa using hk
        simp only [List.lookup_cons, this, if_neg hk]
        clear ih h
        induction l with
        | nil => rfl
        | cons z l ih2 =>
          obtain ⟨c, e⟩ := z
          by_cases hc : c = a
          · subst hc
            simp only [List.map_cons, if_pos, List.lookup_cons, this, ih2]
          · simp only [List.map_cons, if_neg hc, List.lookup_cons, ih2]
    · have hka : (k == a) = false := by simpa using fun h => hak h.symm
      simp only [List.lookup_cons, hka] at h
      simp only [if_neg hak, List.lookup_cons, ih h]
      by_cases hk : k' = a
      · subst hk
        simp [hak]
      · have : (k' == a) = false := by simpa using hk
        simp only [this]

/-! ### Histories -/

theorem valueAfter_snoc (f : ComFunc) (l : List (ComFunc × CVal)) (h : ComFunc × CVal) :
    valueAfter f (l ++ [h]) = if h.1.port = f.port then h.2 else valueAfter f l := by
  simp [valueAfter, List.foldl_append]

theorem changes_snoc (b l : List (ComFunc × CVal)) (f : ComFunc) (v : CVal) :
    changes b (l ++ [(f, v)]) = changes b l ++ (if v = valueAfter f (b ++ l) then [] else [f]) := by
  induction l generalizing b with
  | nil => simp [changes]
  | cons h l ih =>
    obtain ⟨f', v'⟩ := h
    simp only [List.cons_append, changes, ih]
    have : b ++ [(f', v')] ++ l = b ++ (f', v') :: l := by simp
    rw [this]
    split <;> simp

theorem sends_append (g : Generated) (sfx : Str) (direct : List Str) (a b : List (ComFunc × CVal)) (s : ComState) :
    s.sends g sfx direct (a ++ b) = (s.sends g sfx direct a).bind fun s => s.sends g sfx direct b := by
  induction a generalizing s with
  | nil => rfl
  | cons h a ih =>
    obtain ⟨f, v⟩ := h
    simp only [List.cons_append, ComState.sends]
    cases s.send g sfx direct f v with
    | none => rfl
    | some s' => exact ih s'

/-- The place of a port in the notifications. -/
def Generated.note (g : Generated) (direct : List Str) (port : Str) : Option (Nat × Nat × Bool) :=
  (g.provide.find? fun s => s.name = port).map fun s => (s.offset, s.packLen, decide (port ∈ direct))

/-- What holds after any calls. -/
structure ComInv (g : Generated) (sfx : Str) (direct : List Str) (fs : List ComFunc) (before : List (ComFunc × CVal))
    (st : ComState) : Prop where
  len : st.buf.length = g.outLen
  vars : ∀ f ∈ fs, st.vars.lookup f.var = some (valueAfter f before)
  sent : ∀ f ∈ fs, f ∈ changes [] before → ∃ p d v bs, Sends g sfx f p d ∧ d.Repr sfx v (valueAfter f before) ∧
    p.elem.layout v = some bs ∧ g.portBytes f.port st.buf = some bs
  kept : ∀ f ∈ fs, f ∉ changes [] before → valueAfter f before = f.init ∧
    g.portBytes f.port st.buf = g.portBytes f.port g.outInit
  others : ∀ port, port ∉ fs.map ComFunc.port → g.portBytes port st.buf = g.portBytes port g.outInit
  notes : st.notes.map some = (changes [] before).map fun f => g.note direct f.port

/-- One call of a write function. -/
theorem callWrite_ok {n : Node} {g : Generated} (hg : generate n = .ok g) (hnd : (g.node.provides.map Port.name).Nodup)
    (hpos : 0 < g.outLen) {sfx : Str} (direct : List Str) {f : ComFunc} {p : Port} {d : Elem} (hs : Sends g sfx f p d)
    (v : PyVal) (c : CVal) (hr : d.Repr sfx v c) (buf : Bytes) (hb : buf.length = g.outLen) :
    ∃ m bs, callWrite g sfx direct f.port buf (if f.complex then .ptr c else c) = some m ∧ m.buf.length = g.outLen ∧
      p.elem.layout v = some bs ∧ g.portBytes f.port m.buf = some bs ∧
      (∀ port, port ≠ f.port → g.portBytes port m.buf = g.portBytes port buf) ∧
      m.notes.map some = [g.note direct f.port] ∧ m.arg = (if f.complex then .ptr c else c) := by
  obtain ⟨hsn, _, _⟩ := generated_facts hg
  have hsnd : (g.provide.map Signal.name).Nodup := by rw [hsn]; exact hnd
  obtain ⟨s, s1, s2, s3, s4, s5⟩ := C67_node_write_partial n g hg hnd p hs.port d hs.elem hs.supported sfx hs.suffix direct
  obtain ⟨w, w1, w2⟩ := s5 hpos
  obtain ⟨bs, m, m1, m2, m3, m4, m5, m6⟩ := w2 v c buf hr hb
  have hfind : g.provide.find? (fun t => t.name = f.port) = some s := by
    rw [← hs.name, ← s2]; exact find_signal hsnd s1
  refine ⟨m, bs, ?_, ?_, m1, ?_, ?_, ?_, by rw [m6, hs.reference]; rfl⟩
  · unfold callWrite
    rw [← hs.name, find_provided hnd hs.port]
    simp only [w1]
    rw [hs.reference]
    exact m3
  · rw [m4]
    simp [m2]
    omega
  · simp only [Generated.portBytes, hfind, Option.map_some, m4]
    rw [replaced_same buf bs _ _ m2 (by omega)]
  · intro port hp
    simp only [Generated.portBytes]
    cases hf : g.provide.find? (fun t => t.name = port) with
    | none => rfl
    | some t =>
      have ht := List.mem_of_find?_eq_some hf
      have htn : t.name = port := by simpa using List.find?_some hf
      simp only [Option.map_some, m4]
      rw [replaced_other buf bs _ _ _ _ m2 (by omega)]
      exact (generated_apart hg t s ht s1 (by rw [htn, s2, hs.name]; exact hp))
  · simp only [m5, Generated.note, hfind, Option.map_some, List.map_cons, List.map_nil, hs.name]

theorem send_step {n : Node} {g : Generated} (hg : generate n = .ok g) (hnd : (g.node.provides.map Port.name).Nodup)
    (hpos : 0 < g.outLen) {sfx : Str} (direct : List Str) {fs : List ComFunc} (hv : (fs.map ComFunc.var).Nodup)
    (hp : (fs.map ComFunc.port).Nodup) {before : List (ComFunc × CVal)} {st : ComState}
    (hi : ComInv g sfx direct fs before st) (f : ComFunc) (hf : f ∈ fs) (p : Port) (d : Elem) (hs : Sends g sfx f p d)
    (v : PyVal) (c : CVal) (hr : d.Repr sfx v c) :
    ∃ st', st.send g sfx direct f c = some st' ∧ ComInv g sfx direct fs (before ++ [(f, c)]) st' := by
  have same : ∀ q ∈ fs, q.port = f.port → q = f := by
    intro q hq he
    exact map_nodup_inj hp hq hf he
  have samev : ∀ q ∈ fs, q.var = f.var → q = f := by
    intro q hq he
    exact map_nodup_inj hv hq hf he
  have hval : ∀ q ∈ fs, valueAfter q (before ++ [(f, c)]) = if q = f then c else valueAfter q before := by
    intro q hq
    rw [valueAfter_snoc]
    by_cases he : q = f
    · subst he; simp
    · rw [if_neg he, if_neg (fun h => he (same q hq h.symm))]
  have hch := changes_snoc [] before f c
  simp only [List.nil_append] at hch
  unfold ComState.send
  rw [hi.vars f hf]
  by_cases hc : c = valueAfter f before
  · rw [if_pos hc, List.append_nil] at hch
    simp only [if_pos hc]
    refine ⟨st, rfl, hi.len, ?_, ?_, ?_, hi.others, ?_⟩
    · intro q hq
      rw [hval q hq, hi.vars q hq]
      split
      · rename_i he; rw [he, hc]
      · rfl
    · intro q hq
      rw [hch, hval q hq]
      split
      · rename_i he
        subst he
        rw [hc]
        exact hi.sent q hq
      · exact hi.sent q hq
    · intro q hq
      rw [hch, hval q hq]
      split
      · rename_i he
        subst he
        rw [hc]
        exact hi.kept q hq
      · exact hi.kept q hq
    · rw [hch]; exact hi.notes
  · rw [if_neg hc] at hch
    simp only [if_neg hc]
    obtain ⟨m, bs, m1, m2, m3, m4, m5, m6, -⟩ := callWrite_ok hg hnd hpos direct hs v c hr st.buf hi.len
    refine ⟨_, by rw [m1]; rfl, m2, ?_, ?_, ?_, ?_, ?_⟩
    · intro q hq
      simp only
      rw [setVar_lookup _ _ _ _ (hi.vars f hf), hval q hq]
      by_cases he : q = f
      · subst he; simp
      · rw [if_neg he, if_neg (fun h => he (samev q hq h)), hi.vars q hq]
    · intro q hq hqc
      rw [hval q hq]
      by_cases he : q = f
      · subst he
        simp only [if_pos]
        exact ⟨p, d, v, bs, hs, hr, m3, m4⟩
      · rw [if_neg he]
        have : q ∈ changes [] before := by
          rw [hch] at hqc
          simpa [he] using hqc
        obtain ⟨p', d', v', bs', x1, x2, x3, x4⟩ := hi.sent q hq this
        refine ⟨p', d', v', bs', x1, x2, x3, ?_⟩
        simp only
        rw [m5 q.port (fun h => he (same q hq h))]
        exact x4
    · intro q hq hqc
      rw [hch] at hqc
      simp only [List.mem_append, List.mem_singleton, not_or] at hqc
      rw [hval q hq, if_neg hqc.2]
      refine ⟨(hi.kept q hq hqc.1).1, ?_⟩
      simp only
      rw [m5 q.port (fun h => hqc.2 (same q hq h))]
      exact (hi.kept q hq hqc.1).2
    · intro port hport
      simp only
      rw [m5 port (fun h => hport (by rw [h]; exact List.mem_map_of_mem hf))]
      exact hi.others port hport
    · simp only
      rw [List.map_append, m6, hi.notes, hch, List.map_append]
      rfl

/-! ### C87 -/

/-- C87: whatever is sent, in whatever order: nothing undefined happens; a port whose function was called with another
value than before holds the value last sent, a port whose function was not still holds its initial data, as does every
port without a function; and there is one notification for each call that changed a value, with the place of the port. -/
theorem C87_history_partial (n : Node) (g : Generated) (hg : generate n = .ok g)
    (hnd : (g.node.provides.map Port.name).Nodup) (hpos : 0 < g.outLen) (sfx : Str) (direct : List Str) (fs : List ComFunc)
    (hv : (fs.map ComFunc.var).Nodup) (hp : (fs.map ComFunc.port).Nodup) (hist : List (ComFunc × CVal))
    (hh : ∀ h ∈ hist, h.1 ∈ fs ∧ ∃ p d v, Sends g sfx h.1 p d ∧ d.Repr sfx v h.2) :
    ∃ st, (ComState.start g fs).sends g sfx direct hist = some st ∧
      (∀ f ∈ fs, f ∈ changes [] hist → ∃ p d v bs, Sends g sfx f p d ∧ d.Repr sfx v (valueAfter f hist) ∧
        p.elem.layout v = some bs ∧ g.portBytes f.port st.buf = some bs) ∧
      (∀ f ∈ fs, f ∉ changes [] hist → valueAfter f hist = f.init ∧
        g.portBytes f.port st.buf = g.portBytes f.port g.outInit) ∧
      (∀ port, port ∉ fs.map ComFunc.port → g.portBytes port st.buf = g.portBytes port g.outInit) ∧
      st.notes.map some = (changes [] hist).map fun f => g.note direct f.port := by
  have key : ∀ (rest before : List (ComFunc × CVal)) (st : ComState), ComInv g sfx direct fs before st →
      (∀ h ∈ rest, h.1 ∈ fs ∧ ∃ p d v, Sends g sfx h.1 p d ∧ d.Repr sfx v h.2) →
      ∃ st', st.sends g sfx direct rest = some st' ∧ ComInv g sfx direct fs (before ++ rest) st' := by
    intro rest
    induction rest with
    | nil => intro before st hi _; exact ⟨st, rfl, by simpa using hi⟩
    | cons h rest ih =>
      intro before st hi hr
      obtain ⟨f, c⟩ := h
      obtain ⟨hf, p, d, v, hs, hrep⟩ := hr (f, c) (by simp)
      obtain ⟨st1, e1, i1⟩ := send_step hg hnd hpos direct hv hp hi f hf p d hs v c hrep
      obtain ⟨st2, e2, i2⟩ := ih _ st1 i1 (fun h hh => hr h (by simp [hh]))
      refine ⟨st2, ?_, by simpa using i2⟩
      simp only [ComState.sends, e1, Option.bind_some, e2]
  have h0 : ComInv g sfx direct fs [] (ComState.start g fs) := by
    refine ⟨(generated_facts hg).2.1, ?_, ?_, ?_, fun _ _ => rfl, rfl⟩
    · intro f hf
      exact comVars_lookup fs hv [] (fun _ _ => rfl) f hf
    · intro f _ h
      simp [changes] at h
    · intro f _ _
      exact ⟨rfl, rfl⟩
  obtain ⟨st, e, i⟩ := key hist [] _ h0 hh
  exact ⟨st, e, i.sent, i.kept, i.others, i.notes⟩

/-- C87: if the initial data of every port are the initial value of its data element, every port holds the value last
sent, or the initial one, after any calls. Missing from the full property: initial values that differ, functions that
share a variable, types without write function (C67). -/
theorem C87_send_partial (n : Node) (g : Generated) (hg : generate n = .ok g)
    (hnd : (g.node.provides.map Port.name).Nodup) (hpos : 0 < g.outLen) (sfx : Str) (direct : List Str) (fs : List ComFunc)
    (hv : (fs.map ComFunc.var).Nodup) (hp : (fs.map ComFunc.port).Nodup)
    (hinit : ∀ f ∈ fs, ∃ p d v bs, Sends g sfx f p d ∧ d.Repr sfx v f.init ∧ p.elem.layout v = some bs ∧
      g.portBytes f.port g.outInit = some bs) (hist : List (ComFunc × CVal))
    (hh : ∀ h ∈ hist, h.1 ∈ fs ∧ ∃ p d v, Sends g sfx h.1 p d ∧ d.Repr sfx v h.2) :
    ∃ st, (ComState.start g fs).sends g sfx direct hist = some st ∧
      ∀ f ∈ fs, ∃ p d v bs, Sends g sfx f p d ∧ d.Repr sfx v (valueAfter f hist) ∧ p.elem.layout v = some bs ∧
        g.portBytes f.port st.buf = some bs := by
  obtain ⟨st, h1, h2, h3, _⟩ := C87_history_partial n g hg hnd hpos sfx direct fs hv hp hist hh
  refine ⟨st, h1, fun f hf => ?_⟩
  by_cases hc : f ∈ changes [] hist
  · exact h2 f hf hc
  · obtain ⟨e1, e2⟩ := h3 f hf hc
    rw [e1, e2]
    exact hinit f hf

/-- C87: a receive function stores the value that is in the input buffer. -/
theorem C87_receive_partial (n : Node) (g : Generated) (hg : generate n = .ok g)
    (hnd : (g.node.requires.map Port.name).Nodup) (hpos : 0 < g.inLen) (sfx : Str) (f : ComFunc) (p : Port)
    (hp : p ∈ g.node.requires) (hn : p.name = f.port) (d : Elem) (hd : p.elem.resolveDataElement = .ok d)
    (hs : d.CSupported) (hsfx : sfx = [] ∨ d.NoNested) :
    ∃ s ∈ g.require, s.name = f.port ∧ ∀ (v : PyVal) (c c0 : CVal) (buf : Bytes), d.Repr sfx v c → d.Shape sfx c0 →
      buf.length = g.inLen → p.elem.layout v = some ((buf.drop s.offset).take s.packLen) →
      comReceive g sfx f buf c0 = some c := by
  obtain ⟨s, h1, h2, _, _, h3⟩ := C67_node_read_partial n g hg hnd p hp d hd hs sfx hsfx
  obtain ⟨r, r1, r2⟩ := h3 hpos
  refine ⟨s, h1, by rw [h2, hn], ?_⟩
  intro v c c0 buf a1 a2 a3 a4
  obtain ⟨m, m1, _, m3⟩ := r2 v c c0 buf a1 a2 a3 a4
  unfold comReceive
  rw [← hn, find_provided hnd hp]
  simp only [r1, m1, m3]

/-- C87: the node of a component: its provide ports are the require ports of the component, and the other way round. -/
theorem C87_node (ceilLog : Nat → Nat) (ws : Workspace) (swc : AComponent) (m : Node) (h : comNode ceilLog ws swc = .ok m) :
    m.name = swc.name ∧
      ∀ side, (m.ports side).map Port.name = ((swc.ports side.other).filter (fun p => (ws.typeOf p).isSome)).map APort.name := by
  simp only [comNode, bind_ok_iff] at h
  obtain ⟨n, h1, h2⟩ := h
  obtain ⟨c1, c2, _⟩ := C80_ports ceilLog ws swc none n h1
  obtain ⟨m1, _, _, m4⟩ := mirror_ok n m none h2
  refine ⟨by rw [m1]; exact c1, fun side => ?_⟩
  rw [← (c2 side.other).1]
  obtain ⟨l, l1, l2⟩ := m4 side
  have e1 : l.map Port.name = (n.ports side.other).map Port.name := by
    refine map_ok_map l1 Port.name Port.name ?_
    intro a b hab
    unfold Port.mirror at hab
    rw [bind_ok_iff] at hab
    obtain ⟨s, _, hab⟩ := hab
    exact (mkPort_facts _ _ _ _ hab).1
  have e2 : (m.ports side).map Port.name = l.map Port.name := by
    refine map_ok_map l2 Port.name Port.name ?_
    intro a b hab
    unfold resolvePort at hab
    split at hab
    · rw [bind_ok_iff] at hab
      obtain ⟨e, _, hab⟩ := hab
      cases hab
      rfl
    · cases hab
      rfl
  rw [e2, e1]

/-! ### Examples and violations -/

/-- A node with two ports. -/
def coNode : Node := (Node.new ['N']).run
  [.addPort .provide ['a'] ['C'] (some "=5".toList), .addPort .provide "a_b".toList ['S', '[', '2', ']'] none]

def coFirst : ComFunc := ⟨['a'], ['x'], false, .int 5⟩
def coSecond : ComFunc := ⟨"a_b".toList, ['c'], true, .ints [0, 0]⟩

/-- The outcome of calls: the buffer and the notifications. -/
def coRun (n : Node) (fs : List ComFunc) (hist : List (ComFunc × CVal)) : Option (Bytes × List (Nat × Nat × Bool)) :=
  match generate n with
  | .ok g => ((ComState.start g fs).sends g [] [] hist).map fun s => (s.buf, s.notes)
  | .error _ => none

/-- Three calls of the first function, the second of which changes nothing, and one of the second. -/
example : coRun coNode [coFirst, coSecond]
    [(coFirst, .int 7), (coFirst, .int 7), (coSecond, .ints [1, 258]), (coFirst, .int 5)] =
      some ([5, 1, 0, 2, 1], [(0, 1, false), (1, 4, false), (0, 1, false)]) := by decide +kernel

/-- C87 fails if the initial value of the data element is not that of the port: sending the former as the first value
writes nothing, and the port keeps the latter. -/
example :
    coRun coNode [{ coFirst with init := .int 0 }] [({ coFirst with init := .int 0 }, .int 0)] =
      some ([5, 0, 0, 0, 0], []) := by decide +kernel

/-- Data element `b_c` of port `a` and data element `c` of port `a_b`. -/
def coShared : List ComFunc := [⟨['a'], "b_c".toList, false, .int 5⟩, ⟨"a_b".toList, ['c'], false, .int 5⟩]

/-- C87 fails for functions of different ports that share a variable: after 9 has been sent to both ports, the second
one still has its old value. -/
example :
    coRun ((Node.new ['N']).run [.addPort .provide ['a'] ['C'] (some "=5".toList),
        .addPort .provide "a_b".toList ['C'] (some "=5".toList)]) coShared (coShared.map fun f => (f, .int 9)) =
      some ([9, 5], [(0, 1, false)]) := by decide +kernel

/-- The node of the component `imSwc`. -/
example : (comNode exactCeilLog imWs imSwc).toOption.map (fun m => (m.provides.map Port.name, m.requires.map Port.name)) =
    some (["VehSpeed".toList, "Lamp".toList], ["OutSpeed".toList]) := by decide +kernel

/-- What the theorems ask for. -/
example : ∃ g, generate coNode = .ok g ∧ (g.node.provides.map Port.name).Nodup ∧ 0 < g.outLen ∧
    ([coFirst, coSecond].map ComFunc.var).Nodup ∧ ([coFirst, coSecond].map ComFunc.port).Nodup ∧
    ∀ f ∈ [coFirst, coSecond], ∃ p d v bs, Sends g [] f p d ∧ d.Repr [] v f.init ∧ p.elem.layout v = some bs ∧
      g.portBytes f.port g.outInit = some bs := by
  have h : (match generate coNode with
      | .ok g => decide ((g.node.provides.map fun p => (p.name, p.elem)) =
          [(['a'], .prim .u8 none none none), ("a_b".toList, .prim .u16 none none (some 2))]) && decide (0 < g.outLen) &&
          decide (g.portBytes ['a'] g.outInit = some [5]) && decide (g.portBytes "a_b".toList g.outInit = some [0, 0, 0, 0])
      | .error _ => false) = true := by decide +kernel
  cases hg : generate coNode with
  | error x => rw [hg] at h; cases h
  | ok g =>
    rw [hg] at h
    simp only [Bool.and_eq_true, decide_eq_true_eq] at h
    obtain ⟨⟨⟨h1, h2⟩, h3⟩, h4⟩ := h
    have hnames : g.node.provides.map Port.name = [['a'], "a_b".toList] := by
      have := congrArg (List.map Prod.fst) h1
      simpa [List.map_map, Function.comp_def] using this
    have port : ∀ x, x ∈ [(['a'], Elem.prim .u8 none none none), ("a_b".toList, Elem.prim .u16 none none (some 2))] →
        ∃ p ∈ g.node.provides, p.name = x.1 ∧ p.elem = x.2 := by
      intro x hx
      rw [← h1] at hx
      obtain ⟨p, hp, rfl⟩ := List.mem_map.mp hx
      exact ⟨p, hp, rfl, rfl⟩
    refine ⟨g, rfl, by rw [hnames]; decide, h2, by decide, by decide, ?_⟩
    intro f hf
    simp only [List.mem_cons, List.not_mem_nil, or_false] at hf
    rcases hf with rfl | rfl
    · obtain ⟨p, hp, e1, e2⟩ := port _ (List.mem_cons_self)
      refine ⟨p, .prim .u8 none none none, .int 5, [5], ⟨hp, e1, by rw [e2]; rfl, by simp [Elem.CSupported, TypeCode.integer],
        Or.inl rfl, rfl⟩, ⟨.u8, 5, rfl, by decide, rfl, rfl⟩, by rw [e2]; decide +kernel, h3⟩
    · obtain ⟨p, hp, e1, e2⟩ := port _ (List.mem_cons_of_mem _ List.mem_cons_self)
      refine ⟨p, .prim .u16 none none (some 2), .list [.int 0, .int 0], [0, 0, 0, 0], ⟨hp, e1, by rw [e2]; rfl,
        by simp [Elem.CSupported, TypeCode.integer], Or.inl rfl, rfl⟩,
        Or.inl ⟨.u16, [0, 0], rfl, by decide, rfl, rfl, rfl⟩, by rw [e2]; decide +kernel, h4⟩

end Apx
