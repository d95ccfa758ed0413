import Verif.Proofs.VmLax
import Verif.Proofs.VmRead
import Verif.Props.Vm

/-! C25, C28: exactly which values are packed, and what becomes of the buffer. -/

namespace Apx

/-- C28, exactly: a program packs a value if and only if the value has a layout in which fields that are empty records may
have any value, its arrays meet the condition of C29, and the buffer has room for it; the result is the buffer with the
layout at the offset. Everything else raises an exception. -/
theorem C28_exactly (e : Elem) (p : Bytes) (hp : compileProg .pack e = .ok p) (hl : e.LensOk) (hn : e.NamesOk) (v : PyVal)
    (data : Bytes) (off : Nat) (r : Bytes) :
    execPackProg p data off v = .ok r ↔
      ∃ bs, e.laxLayout v = some bs ∧ e.ArraysOk v ∧ off + bs.length ≤ data.length ∧
        r = data.take off ++ bs ++ data.drop (off + bs.length) := by
  obtain ⟨code, n, hce, rfl⟩ := compileProg_inv hp
  have hfwd : ∀ bs, e.laxLayout v = some bs → e.ArraysOk v → off + bs.length ≤ data.length →
      execPackProg (progHeader .pack n ++ code) data off v = .ok (put data off bs) := by
    intro bs hlay ha hd
    have hlen := Elem.laxLayout_length' e code n hce v bs hlay
    obtain ⟨key', _, hsim⟩ := Elem.simLax e code n v bs (VmState.init v) hce hl hn hlay ha (.top v) (by
      intro k _ m hm
      simp [dictLen, VmState.init] at hm)
    unfold execPackProg
    rw [run_header]
    have hv : verifyDataLen (n % 4294967296) ⟨VmState.init v, data, off⟩ = .ok ⟨VmState.init v, data, off⟩ := by
      unfold verifyDataLen
      have : n % 4294967296 ≤ n := Nat.mod_le _ _
      rw [if_neg (show ¬ (data.length : Int) - (off : Nat) < ((n % 4294967296 : Nat) : Int) by omega)]
    rw [hv, ok_bind]
    have := hsim data off [] hd
    rw [List.append_nil] at this
    rw [this, runVm_nil]
    rfl
  constructor
  · intro h
    have h' := h
    unfold execPackProg at h
    rw [run_header, bind_ok_iff] at h
    obtain ⟨m, h, _⟩ := h
    rw [bind_ok_iff] at h
    obtain ⟨m0, h0, h⟩ := h
    unfold verifyDataLen at h0
    split at h0
    · simp at h0
    · rename_i hle
      simp only [Except.ok.injEq] at h0
      subst h0
      have ho : off ≤ data.length := by
        simp only at hle
        omega
      have h2 : runVm .pack false (code ++ []) ⟨VmState.init v, data, off⟩ = .ok m := by
        rw [List.append_nil]; exact h
      obtain ⟨bs, k1, k2, k3, _⟩ := Elem.invLax e code n v (VmState.init v) hce hl hn (.top v) (by
        intro hk; exact absurd rfl hk) data off [] m ho h2
      rw [hfwd bs k1 k2 k3] at h'
      exact ⟨bs, k1, k2, k3, (Except.ok.inj h').symm⟩
  · rintro ⟨bs, h1, h2, h3, rfl⟩
    exact hfwd bs h1 h2 h3

/-- C28 is violated by every type with an empty record as field: whatever is given for that field, also what is no
dictionary, the value is packed if the rest of it fits. -/
theorem C28_every_empty_violated (e : Elem) (p : Bytes) (hp : compileProg .pack e = .ok p) (hl : e.LensOk) (hn : e.NamesOk)
    (v : PyVal) (bs : Bytes) (hv : e.layout v = none) (hb : e.laxLayout v = some bs) (ha : e.ArraysOk v) (data : Bytes)
    (off : Nat) (hd : off + bs.length ≤ data.length) : e.layout v = none ∧ ∃ r, execPackProg p data off v = .ok r :=
  ⟨hv, _, (C28_exactly e p hp hl hn v data off _).mpr ⟨bs, hb, ha, hd, rfl⟩⟩

mutual
theorem Elem.laxLayout_of (e : Elem) (v : PyVal) (bs : Bytes) (h : e.layout v = some bs) : e.laxLayout v = some bs := by
  match e with
  | .prim tc mn mx a => simpa only [Elem.laxLayout] using h
  | .record fs none =>
    cases v with
    | dict d =>
      rw [Elem.layout] at h
      rw [Elem.laxLayout]
      exact Fields.laxLayout_of fs d bs h
    | _ => simp [Elem.layout] at h
  | .record fs (some _) => simp [Elem.layout] at h
  | .refId _ => simp [Elem.layout] at h
  | .refName _ => simp [Elem.layout] at h
  | .refType _ t =>
    rw [Elem.layout] at h
    rw [Elem.laxLayout]
    exact Elem.laxLayout_of t v bs h
theorem Fields.laxLayout_of (fs : Fields) (d : List (Str × PyVal)) (bs : Bytes) (h : fs.layout d = some bs) :
    fs.laxLayout d = some bs := by
  match fs with
  | .nil => exact h
  | .cons none _ _ => simp [Fields.layout] at h
  | .cons (some k) e r =>
    obtain ⟨v, b1, b2, h1, h2, h3, rfl⟩ := Fields.layout_cons h
    have h4 : (if e.isEmptyRecord then some [] else e.laxLayout v) = some b1 := by
      split
      · rename_i hem
        unfold Elem.isEmptyRecord at hem
        split at hem
        · rename_i a
          cases a <;> cases v <;> simp_all [Elem.layout, Fields.layout]
        · rename_i a
          cases a <;> cases v <;> simp_all [Elem.layout, Fields.layout]
        · cases hem
      · exact Elem.laxLayout_of e v b1 h2
    simp only [Fields.laxLayout, h1, h4, Fields.laxLayout_of r d b2 h3]
end

/-- C28: nothing that fits is refused: a layout is a layout in the wider sense. -/
theorem C28_wider (e : Elem) (v : PyVal) (bs : Bytes) (h : e.layout v = some bs) : e.laxLayout v = some bs :=
  e.laxLayout_of v bs h

/-- C25: for every type, bytes outside the `packLen` bytes at the offset keep their value. -/
theorem C25_untouched_every (e : Elem) (p : Bytes) (hp : compileProg .pack e = .ok p) (hl : e.LensOk) (hn : e.NamesOk)
    (v : PyVal) (data r : Bytes) (off n : Nat) (hlen : e.packLen = .ok n) (h : execPackProg p data off v = .ok r) :
    r.length = data.length ∧ ∀ i, i < off ∨ off + n ≤ i → r[i]? = data[i]? := by
  obtain ⟨bs, h1, -, h3, rfl⟩ := (C28_exactly e p hp hl hn v data off r).mp h
  obtain ⟨code, n', hce, rfl⟩ := compileProg_inv hp
  have h5 := Elem.laxLayout_length' e code n' hce v bs h1
  rw [compile_packLen e code n' hce] at hlen
  cases hlen
  refine ⟨put_length _ _ _ h3, ?_⟩
  intro i hi
  rcases hi with hi | hi
  · rw [List.append_assoc, List.getElem?_append_left (by simp; omega), List.getElem?_take_of_lt hi]
  · rw [List.getElem?_append_right (by simp; omega), List.getElem?_drop]
    congr 1
    simp; omega

/-- C28: for every type the buffer is never overrun: if it is too short at the offset, packing raises. -/
theorem C28_too_short_every (e : Elem) (p : Bytes) (hp : compileProg .pack e = .ok p) (hl : e.LensOk) (hn : e.NamesOk)
    (v : PyVal) (data : Bytes) (off n : Nat) (hlen : e.packLen = .ok n) (hd : data.length < off + n) :
    ∃ x, execPackProg p data off v = .error x := by
  cases h : execPackProg p data off v with
  | error x => exact ⟨x, rfl⟩
  | ok r =>
    obtain ⟨bs, h1, -, h3, -⟩ := (C28_exactly e p hp hl hn v data off r).mp h
    obtain ⟨code, n', hce, rfl⟩ := compileProg_inv hp
    have h5 := Elem.laxLayout_length' e code n' hce v bs h1
    rw [compile_packLen e code n' hce] at hlen
    cases hlen
    omega

/-- C29, exactly: a value that fits and has room is packed if and only if no array in a record has more elements than the
dictionary has entries; otherwise packing raises. -/
theorem C29_exactly_partial (e : Elem) (p : Bytes) (hp : compileProg .pack e = .ok p) (hl : e.LensOk) (hn : e.NamesOk)
    (v : PyVal) (bs : Bytes) (hlay : e.layout v = some bs) (data : Bytes) (off : Nat)
    (hd : off + bs.length ≤ data.length) :
    ((∃ r, execPackProg p data off v = .ok r) ↔ e.ArraysOk v) ∧
      (¬ e.ArraysOk v → ∃ x, execPackProg p data off v = .error x) := by
  have h : (∃ r, execPackProg p data off v = .ok r) ↔ e.ArraysOk v := by
    constructor
    · rintro ⟨r, h⟩
      exact ((C28_exactly e p hp hl hn v data off r).mp h).choose_spec.2.1
    · exact fun ha => ⟨_, (C28_exactly e p hp hl hn v data off _).mpr ⟨bs, C28_wider e v bs hlay, ha, hd, rfl⟩⟩
  refine ⟨h, fun ha => ?_⟩
  cases hx : execPackProg p data off v with
  | error x => exact ⟨x, rfl⟩
  | ok r => exact absurd (h.mp ⟨r, hx⟩) ha

/-- C27, for every type and all bytes: unpacking gives the value that the `packLen` bytes at the offset stand for, and
raises an exception if they stand for none (because a text is not UTF-8, or the type has a record in a record). -/
theorem C27_exactly (e : Elem) (u : Bytes) (hu : compileProg .unpack e = .ok u) (hl : e.LensOk) (hn : e.NamesOk) (n : Nat)
    (hlen : e.packLen = .ok n) (data : Bytes) (off : Nat) (hd : off + n ≤ data.length) :
    (∀ v, execUnpackProg u data off = .ok v ↔ e.ReadsAs ((data.drop off).take n) v) ∧
      ((∀ v, ¬ e.ReadsAs ((data.drop off).take n) v) → ∃ x, execUnpackProg u data off = .error x) := by
  obtain ⟨code, m, hc, rfl⟩ := compileProg_inv hu
  rw [compile_packLen e code m hc] at hlen
  cases hlen
  have key : ∀ v, execUnpackProg (progHeader .unpack n ++ code) data off = .ok v ↔
      e.ReadsAs ((data.drop off).take n) v := by
    intro v
    unfold execUnpackProg
    rw [run_header]
    have hv : verifyDataLen (n % 4294967296) ⟨VmState.init .null, data, off⟩ = .ok ⟨VmState.init .null, data, off⟩ := by
      unfold verifyDataLen
      have : n % 4294967296 ≤ n := Nat.mod_le _ _
      rw [if_neg (show ¬ (data.length : Int) - (off : Nat) < ((n % 4294967296 : Nat) : Int) by omega)]
    rw [hv, ok_bind]
    exact elem_read e code n hc hl hn data off hd v
  refine ⟨key, fun h => ?_⟩
  cases hx : execUnpackProg (progHeader .unpack n ++ code) data off with
  | error x => exact ⟨x, rfl⟩
  | ok v => exact absurd ((key v).mp hx) (h v)

/-- C27: bytes stand for at most one value. -/
theorem C27_unique (e : Elem) (u : Bytes) (hu : compileProg .unpack e = .ok u) (hl : e.LensOk) (hn : e.NamesOk) (n : Nat)
    (hlen : e.packLen = .ok n) (b : Bytes) (hb : b.length = n) (v v' : PyVal) (h : e.ReadsAs b v) (h' : e.ReadsAs b v') :
    v = v' := by
  have key := (C27_exactly e u hu hl hn n hlen b 0 (by omega)).1
  rw [List.drop_zero, List.take_of_length_le (by omega)] at key
  have h1 := (key v).mpr h
  rw [(key v').mpr h'] at h1
  exact (Except.ok.inj h1).symm

/-- C27: bytes beyond the buffer are never read: if it is too short at the offset, unpacking raises. -/
theorem C27_too_short (e : Elem) (u : Bytes) (hu : compileProg .unpack e = .ok u) (n : Nat)
    (hlen : e.packLen = .ok n) (hn : n < 4294967296) (data : Bytes) (off : Nat) (hd : data.length < off + n) :
    ∃ x, execUnpackProg u data off = .error x := by
  obtain ⟨code, m, hc, rfl⟩ := compileProg_inv hu
  rw [compile_packLen e code m hc] at hlen
  cases hlen
  unfold execUnpackProg
  rw [run_header]
  unfold verifyDataLen
  rw [if_pos (show (data.length : Int) - (off : Nat) < ((n % 4294967296 : Nat) : Int) by omega)]
  exact ⟨_, rfl⟩

theorem not_arraysOk (fs : Fields) (d : List (Str × PyVal)) (n : Nat) (h : fs.HasIntArray n) (hd : d.length < n) :
    ¬ fs.ArraysOk d := by
  intro ha
  match fs with
  | .nil => exact h
  | .cons name e r =>
    rcases h with h | h
    · have := ha.1 n h; omega
    · exact not_arraysOk r d n h hd ha.2.2

/-- C29 fails for every record that has an array: a dictionary with fewer entries than the array has elements is never
packed, whatever it contains. -/
theorem C29_every_violated (fs : Fields) (p : Bytes) (hp : compileProg .pack (.record fs none) = .ok p)
    (hl : (Elem.record fs none).LensOk) (hn : (Elem.record fs none).NamesOk) (n : Nat) (ha : fs.HasIntArray n)
    (d : List (Str × PyVal)) (hd : d.length < n) (data : Bytes) (off : Nat) :
    ∃ x, execPackProg p data off (.dict d) = .error x := by
  cases hx : execPackProg p data off (.dict d) with
  | error x => exact ⟨x, rfl⟩
  | ok r =>
    obtain ⟨-, -, h, -⟩ := (C28_exactly _ p hp hl hn _ data off r).mp hx
    exact absurd h (not_arraysOk fs d n ha hd)

theorem dictSet_length_le (d : List (Str × PyVal)) (k : Str) (v : PyVal) : (dictSet d k v).length ≤ d.length + 1 := by
  induction d with
  | nil => simp [dictSet]
  | cons x d ih =>
    unfold dictSet
    split <;> simp only [List.length_cons] <;> omega

theorem readsAs_entries (fs : Fields) (b : Bytes) (acc d : List (Str × PyVal)) (h : fs.ReadsAs b acc d) :
    d.length ≤ acc.length + fs.length := by
  match fs with
  | .nil => rw [h.2]; exact Nat.le_add_right _ _
  | .cons none _ _ => exact h.elim
  | .cons (some k) e r =>
    obtain ⟨-, b1, b2, v, -, -, h⟩ := h
    have h1 := readsAs_entries r b2 _ d h
    have h2 := dictSet_length_le acc k v
    simp only [Fields.length]
    omega

/-- C27 fails for every record with an array of more elements than the record has fields: no bytes can be packed back
after unpacking, for any record. -/
theorem C27_every_array_violated (fs : Fields) (p u : Bytes) (hp : compileProg .pack (.record fs none) = .ok p)
    (hu : compileProg .unpack (.record fs none) = .ok u) (hl : (Elem.record fs none).LensOk)
    (hn : (Elem.record fs none).NamesOk) (m n : Nat) (hlen : (Elem.record fs none).packLen = .ok m)
    (ha : fs.HasIntArray n) (hf : fs.length < n) (bytes : Bytes) (hb : bytes.length = m) (v : PyVal)
    (hv : execUnpackProg u bytes 0 = .ok v) (data : Bytes) (off : Nat) :
    ∃ x, execPackProg p data off v = .error x := by
  have h := ((C27_exactly _ u hu hl hn m hlen bytes 0 (by omega)).1 v).mp hv
  obtain ⟨d, rfl, h⟩ := h
  have := readsAs_entries fs _ _ _ h
  simp only [List.length_nil] at this
  exact C29_every_violated fs p hp hl hn n ha d (by omega) data off

section Examples

/-- `{"b"a[4]"c"T[..]"d"S[2]}` reads the bytes of the text before the null byte, whatever comes behind it. -/
example : exFlat.ReadsAs [104, 0, 105, 255, 249, 255, 255, 255, 3, 0, 4, 0]
    (.dict [("b".toList, .str "h".toList), ("c".toList, .int (-7)), ("d".toList, .list [.int 3, .int 4])]) := by
  refine ⟨_, rfl, ?_, [104, 0, 105, 255], _, _, rfl, Or.inr ⟨"h".toList, rfl, rfl, rfl, by decide +kernel⟩, ?_, [249, 255, 255, 255], _, _, rfl,
    ⟨.s32, rfl, by decide +kernel⟩, ?_, [3, 0, 4, 0], [], _, rfl, Or.inl ⟨.u16, _, rfl, rfl, rfl, by decide +kernel⟩, rfl, rfl⟩ <;>
    simp [Elem.IsFlat]

/-- A record with a number and an empty record. -/
def exEmpty : Elem :=
  .record (.cons (some "n".toList) (.prim .u8 none none none) (.cons (some "a".toList) (.record .nil none) .nil)) none

example : exEmpty.LensOk ∧ exEmpty.NamesOk ∧ (compileProg .pack exEmpty).toOption.isSome ∧
    exEmpty.layout (.dict [("n".toList, .int 3), ("a".toList, .int 5)]) = none ∧
    exEmpty.laxLayout (.dict [("n".toList, .int 3), ("a".toList, .int 5)]) = some [3] ∧
    exEmpty.laxLayout (.dict [("n".toList, .int 3)]) = none ∧
    exEmpty.laxLayout (.dict [("n".toList, .int 300), ("a".toList, .dict [])]) = none := by
  refine ⟨?_, ?_, by decide +kernel⟩
  · simp [exEmpty, Elem.LensOk, Fields.LensOk]
  · simp [exEmpty, Elem.NamesOk, Fields.NamesOk]

/-- `{"a"C[3]}` -/
example : (Fields.cons (some "a".toList) (.prim .u8 none none (some 3)) .nil).HasIntArray 3 ∧
    (Fields.cons (some "a".toList) (.prim .u8 none none (some 3)) .nil).length = 1 :=
  ⟨Or.inl ⟨.u8, none, none, rfl, by decide⟩, rfl⟩

end Examples

end Apx
