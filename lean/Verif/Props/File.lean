import Verif.Spec.File

/-! C19-C21: file contents and notifications. -/

namespace Apx.FileData

theorem write_fits (f : FileData) (o : Nat) (d : Bytes) (h : o + d.length ≤ f.data.length) :
    f.write (o : Int) d = (⟨f.data.take o ++ d ++ f.data.drop (o + d.length)⟩, (d.length : Int)) := by
  unfold write
  rw [if_neg (by omega)]
  simp

theorem write_rejects (f : FileData) (o : Int) (d : Bytes) (h : o < 0 ∨ o + d.length > f.data.length) :
    f.write o d = (f, -1) := by
  unfold write
  rw [if_pos h]

theorem write_length (f : FileData) (o : Int) (d : Bytes) :
    (f.write o d).1.data.length = f.data.length := by
  by_cases h : o < 0 ∨ o + d.length > f.data.length
  · rw [write_rejects f o d h]
  · obtain ⟨n, rfl⟩ := Int.eq_ofNat_of_zero_le (show 0 ≤ o by omega)
    rw [write_fits f n d (by omega)]
    simp; omega

/-- C19: a write inside the file stores the data at exactly `[offset, offset+len)`, leaves every
other byte and the length alone and returns `len(data)`; any other write returns -1 and changes
nothing. -/
theorem C19_write (f : FileData) (offset : Int) (data : Bytes) :
    let r := f.write offset data
    ((0 ≤ offset ∧ offset + data.length ≤ f.data.length) →
      r.2 = data.length ∧ r.1.data.length = f.data.length ∧
      ∀ i : Nat, r.1.data[i]? =
        if offset ≤ i ∧ (i : Int) < offset + data.length then data[i - offset.toNat]? else f.data[i]?) ∧
    (¬ (0 ≤ offset ∧ offset + data.length ≤ f.data.length) → r = (f, -1)) := by
  constructor
  · rintro ⟨h0, h1⟩
    obtain ⟨o, rfl⟩ := Int.eq_ofNat_of_zero_le h0
    refine ⟨by rw [write_fits f o data (by omega)], write_length .., ?_⟩
    rw [write_fits f o data (by omega)]
    intro i
    simp only [Int.toNat_natCast]
    by_cases hlt : i < o
    · rw [if_neg (by omega), List.append_assoc, List.getElem?_append_left (by simp; omega),
        List.getElem?_take_of_lt hlt]
    · by_cases hin : i < o + data.length
      · rw [if_pos (by omega), List.append_assoc, List.getElem?_append_right (by simp; omega),
          List.getElem?_append_left (by simp; omega)]
        congr 1; simp; omega
      · rw [if_neg (by omega), List.getElem?_append_right (by simp; omega), List.getElem?_drop]
        congr 1; simp; omega
  · intro h
    exact write_rejects f offset data (by omega)

/-- C19: a read inside the file returns exactly the stored bytes, any other read `None`. -/
theorem C19_read (f : FileData) (offset : Int) (length : Nat) :
    ((0 ≤ offset ∧ offset + length ≤ f.data.length) →
      ∃ bs, f.read offset length = some bs ∧ bs.length = length ∧
        ∀ i, i < length → bs[i]? = f.data[offset.toNat + i]?) ∧
    (¬ (0 ≤ offset ∧ offset + length ≤ f.data.length) → f.read offset length = none) := by
  constructor
  · rintro ⟨h0, h1⟩
    obtain ⟨o, rfl⟩ := Int.eq_ofNat_of_zero_le h0
    refine ⟨(f.data.drop o).take length, ?_, by simp; omega, fun i hi => ?_⟩
    · unfold read slice
      rw [if_neg (by omega)]
      simp only
      rw [if_neg (by omega)]
      simp only [Int.toNat_natCast]
      rw [show ((o : Int) + length - o).toNat = length by omega]
    · rw [List.getElem?_take_of_lt hi, List.getElem?_drop]; simp
  · intro h
    unfold read
    rw [if_pos (by omega)]

/-- Not part of C19 (a negative length is not a byte count): such a read is not refused, it
returns bytes from the middle of the file. -/
theorem C19_negative_length : (FileData.mk [1, 2, 3, 4, 5]).read 1 (-2) = some [2, 3, 4] := by decide

theorem writeAll_length (ws : List WriteReq) : ∀ f : FileData,
    (writeAll f ws).data.length = f.data.length := by
  induction ws with
  | nil => intro f; rfl
  | cons w ws ih => intro f; simp only [writeAll]; rw [ih, write_length]

/-- C19 for whole histories: after any requests (any integer offsets, any data) the file has its
original length and every byte holds what the last accepted request covering it wrote, or its
initial value. -/
theorem C19_history (f : FileData) (ws : List WriteReq) :
    (writeAll f ws).data.length = f.data.length ∧
    ∀ i (h : i < f.data.length),
      (writeAll f ws).data[i]? = some (expectedByte f.data.length i ws f.data[i]) := by
  refine ⟨writeAll_length ws f, ?_⟩
  induction ws generalizing f with
  | nil => intro i h; simp [writeAll, expectedByte, h]
  | cons w ws ih =>
    intro i h
    have hl := write_length f w.offset w.data
    have hi : i < (f.write w.offset w.data).1.data.length := by rw [hl]; exact h
    simp only [writeAll, expectedByte]
    rw [ih (f.write w.offset w.data).1 i hi, hl]
    congr 2
    have hc := C19_write f w.offset w.data
    simp only at hc
    by_cases hf : w.Fits f.data.length
    · obtain ⟨-, -, hb⟩ := hc.1 hf
      have hbi := hb i
      rw [List.getElem?_eq_getElem hi, List.getElem?_eq_getElem h] at hbi
      by_cases hcov : w.Covers i
      · rw [if_pos ⟨hf, hcov⟩]
        rw [if_pos (show w.offset ≤ i ∧ (i : Int) < w.offset + w.data.length from hcov)] at hbi
        rw [List.getD_eq_getElem?_getD, ← hbi]; rfl
      · rw [if_neg (fun x => hcov x.2)]
        rw [if_neg (show ¬ (w.offset ≤ i ∧ (i : Int) < w.offset + w.data.length) from hcov)] at hbi
        simpa using hbi
    · rw [if_neg (fun x => hf x.1)]
      have := hc.2 hf
      simp only [this]

example : (writeAll ⟨[0, 0, 0, 0]⟩ [⟨1, [7, 8]⟩, ⟨3, [1, 1]⟩, ⟨2, [9]⟩, ⟨-1, [5]⟩]).data = [0, 7, 9, 0] := by
  decide

/-- C19: creation. -/
theorem C19_create (length : Int) (d : Bytes) :
    (0 ≤ length → create length none = .ok ⟨List.replicate length.toNat 0⟩) ∧
    ((d.length : Int) = length → create length (some d) = .ok ⟨d⟩) ∧
    ((d.length : Int) ≠ length → create length (some d) = .error .valueError) ∧
    (length < 0 → create length none = .error .valueError) := by
  refine ⟨fun h => ?_, fun h => ?_, fun h => ?_, fun h => ?_⟩
  · unfold create; rw [if_neg (by omega)]
  · unfold create; rw [if_neg (by omega)]; simp only; rw [if_neg (by simp [h])]
  · unfold create
    split
    · rfl
    · simp only; rw [if_pos h]
  · unfold create; rw [if_pos h]

/-- C20: in any history of writes to an input file with a handler, the notifications are, in
order, exactly those of the accepted writes with more bit clear; each carries that write's offset
and length, and the handler sees the content with this and all earlier writes applied. -/
theorem C20_notifications (f : FileData) (ws : List (WriteReq × Bool)) :
    (inputWriteAll f true ws).1 = writeAll f (ws.map (·.1)) ∧
    ∀ (k : Nat) (w : WriteReq) (more : Bool), ws[k]? = some (w, more) →
      (inputWriteAll f true ws).2 =
        (inputWriteAll f true (ws.take k)).2 ++
        (if w.Fits f.data.length ∧ more = false then
          [⟨writeAll f ((ws.take (k + 1)).map (·.1)), w.offset, w.data.length⟩] else []) ++
        (inputWriteAll (writeAll f ((ws.take (k + 1)).map (·.1))) true (ws.drop (k + 1))).2 := by
  have hfst : ∀ f : FileData, (inputWriteAll f true ws).1 = writeAll f (ws.map (·.1)) := by
    induction ws with
    | nil => intro f; rfl
    | cons wm ws ih =>
      obtain ⟨w, more⟩ := wm
      intro f
      simp only [inputWriteAll, List.map_cons, writeAll, inputWrite]
      exact ih _
  refine ⟨hfst f, ?_⟩
  intro k
  induction k generalizing f ws with
  | zero =>
    intro w more hk
    cases ws with
    | nil => simp at hk
    | cons wm ws =>
      simp only [List.getElem?_cons_zero, Option.some.injEq] at hk
      subst hk
      simp only [inputWriteAll, inputWrite, List.take_zero, List.nil_append, Nat.zero_add,
        List.take_succ_cons, List.map_cons, List.map_nil, writeAll, List.drop_succ_cons, List.drop_zero]
      congr 1
      by_cases hf : w.Fits f.data.length
      · have hr : (f.write w.offset w.data).2 = w.data.length := ((C19_write f w.offset w.data).1 hf).1
        rw [hr]
        cases more
        · simp [hf]
        · simp
      · have hr : f.write w.offset w.data = (f, -1) := (C19_write f w.offset w.data).2 hf
        rw [hr]
        simp [hf]
  | succ k ih =>
    intro w more hk
    cases ws with
    | nil => simp at hk
    | cons wm ws =>
      obtain ⟨w0, more0⟩ := wm
      simp only [List.getElem?_cons_succ] at hk
      have hfst' : ∀ f : FileData, (inputWriteAll f true ws).1 = writeAll f (ws.map (·.1)) := by
        intro f
        clear hk ih hfst
        induction ws generalizing f with
        | nil => rfl
        | cons wm ws ih =>
          obtain ⟨w, more⟩ := wm
          simp only [inputWriteAll, List.map_cons, writeAll, inputWrite]
          exact ih _
      have := ih (f.write w0.offset w0.data).1 ws hfst' w more hk
      simp only [inputWriteAll, List.take_succ_cons, List.map_cons, writeAll, List.drop_succ_cons,
        List.append_assoc]
      congr 1
      simp only [inputWrite]
      rw [this, write_length]
      simp only [List.append_assoc]

/-- C20: without a handler nothing is notified. -/
theorem C20_no_handler (f : FileData) (ws : List (WriteReq × Bool)) : (inputWriteAll f false ws).2 = [] := by
  induction ws generalizing f with
  | nil => rfl
  | cons wm ws ih =>
    obtain ⟨w, more⟩ := wm
    simp only [inputWriteAll, inputWrite]
    rw [ih]
    simp

example : (inputWriteAll ⟨[0, 0, 0]⟩ true [(⟨0, [1]⟩, false), (⟨1, [2]⟩, true), (⟨2, [3, 4]⟩, false), (⟨2, [5]⟩, false)]).2
    = [⟨⟨[1, 0, 0]⟩, 0, 1⟩, ⟨⟨[1, 2, 5]⟩, 2, 1⟩] := by decide

/-- C21, what does hold: after all fragments of a write that fits have arrived, every byte is
stored, and there has been exactly one notification, covering the last fragment only. Missing:
the bytes of all earlier fragments. -/
theorem C21_fragments_partial (ds : List Bytes) (last : Bytes) : ∀ (f : FileData) (offset : Nat),
    (offset + (ds ++ [last]).flatten.length ≤ f.data.length) →
    inputWriteAll f true (fragments offset (ds ++ [last])) =
      ((f.write offset (ds ++ [last]).flatten).1,
        [⟨(f.write offset (ds ++ [last]).flatten).1, offset + ds.flatten.length, last.length⟩]) := by
  induction ds with
  | nil =>
    intro f offset h
    simp only [List.nil_append, List.flatten_cons, List.flatten_nil, List.append_nil] at h ⊢
    simp only [fragments, inputWriteAll, inputWrite, write_fits f offset last h]
    simp
  | cons d ds ih =>
    intro f offset h
    simp only [List.cons_append, List.flatten_cons, List.length_append] at h ⊢
    have hfr : fragments (offset : Int) (d :: (ds ++ [last])) =
        (⟨offset, d⟩, true) :: fragments ((offset + d.length : Nat) : Int) (ds ++ [last]) := by
      cases ds <;> simp [fragments]
    rw [hfr]
    simp only [inputWriteAll, inputWrite]
    have hw := write_fits f offset d (by omega)
    have hlen := write_length f offset d
    rw [ih (f.write offset d).1 (offset + d.length) (by rw [hlen]; omega)]
    have hcomb : ((f.write (offset : Int) d).1.write ((offset + d.length : Nat) : Int) (ds ++ [last]).flatten).1 =
        (f.write (offset : Int) (d ++ (ds ++ [last]).flatten)).1 := by
      rw [write_fits _ _ _ (by rw [hlen]; omega), write_fits f offset (d ++ (ds ++ [last]).flatten) (by rw [List.length_append]; omega), hw]
      simp only [FileData.mk.injEq]
      have e1 : List.take (offset + d.length) (f.data.take offset ++ d ++ f.data.drop (offset + d.length)) = f.data.take offset ++ d := by
        rw [List.take_left' (by simp; omega)]
      have e2 : List.drop (offset + d.length + (ds ++ [last]).flatten.length) (f.data.take offset ++ d ++ f.data.drop (offset + d.length)) =
          f.data.drop (offset + (d ++ (ds ++ [last]).flatten).length) := by
        rw [← List.drop_drop, List.drop_left' (by simp; omega), List.drop_drop]
        congr 1; simp only [List.length_append]; omega
      rw [e1, e2]
      simp
    rw [hcomb]
    have : ((offset + d.length : Nat) : Int) + (ds.flatten.length : Int) = (offset : Int) + ((d.length + ds.flatten.length : Nat) : Int) := by
      omega
    rw [this]
    simp

/-- C21, violation: whenever a write that fits is split, the handler is never told about any byte of the fragments
before the last. -/
theorem C21_fragments_violated (f : FileData) (offset : Nat) (ds : List Bytes) (last : Bytes)
    (h : offset + (ds ++ [last]).flatten.length ≤ f.data.length) (i : Nat) (hi : offset ≤ i ∧ i < offset + ds.flatten.length) :
    (WriteReq.mk offset (ds ++ [last]).flatten).Covers i ∧
      ¬ Notified (inputWriteAll f true (fragments offset (ds ++ [last]))).2 i := by
  constructor
  · simp only [WriteReq.Covers, List.flatten_append, List.length_append]
    omega
  · rw [C21_fragments_partial ds last f offset h]
    rintro ⟨n, hn, h1, h2⟩
    simp only [List.mem_singleton] at hn
    subst hn
    simp only at h1
    omega

/-- A write of four bytes split into two fragments, after which the handler was
never told about the first two bytes. -/
example :
    ∃ (f : FileData) (offset : Int) (ds : List Bytes),
      (WriteReq.mk offset ds.flatten).Fits f.data.length ∧
      ∃ i : Nat, (WriteReq.mk offset ds.flatten).Covers i ∧
        ¬ Notified (inputWriteAll f true (fragments offset ds)).2 i := by
  refine ⟨⟨[0, 0, 0, 0]⟩, 0, [[1, 2], [3, 4]], by decide, 1, by decide, ?_⟩
  rintro ⟨n, hn, h1, h2⟩
  have : (inputWriteAll ⟨[0, 0, 0, 0]⟩ true (fragments 0 [[1, 2], [3, 4]])).2 =
    [⟨⟨[1, 2, 3, 4]⟩, 2, 2⟩] := by decide
  rw [this] at hn
  simp at hn
  subst hn
  simp at h1

example : inputWriteAll ⟨[0, 0, 0, 0, 0]⟩ true (fragments 1 [[1], [2, 3], [4]]) =
    (⟨[0, 1, 2, 3, 4]⟩, [⟨⟨[0, 1, 2, 3, 4]⟩, 4, 1⟩]) := by decide

end Apx.FileData
