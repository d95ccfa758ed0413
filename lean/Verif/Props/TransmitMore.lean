import Verif.Props.Transmit

/-! C93: what a peer is told when a message is taken in part and others follow. -/

namespace Apx.Socket

/-- What has been told stays told. -/
theorem run_recorder_keeps (k : Nat) : ∀ (l : List Event) (bs : Bytes), bs.length ≤ k →
    ∃ t, (run recorder ⟨true, true, l⟩ bs).1.handler = l ++ t := by
  induction k with
  | zero =>
    intro l bs hk
    have : bs = [] := List.eq_nil_of_length_eq_zero (by omega)
    subst this
    rw [run_none _ _ (by rfl)]
    exact ⟨[], by simp⟩
  | succ k ih =>
    intro l bs hk
    cases hs : splitMsg bs with
    | none => rw [run_none _ _ hs]; exact ⟨[], by simp⟩
    | some x =>
      obtain ⟨m, r⟩ := x
      rw [run_some _ _ hs]
      simp only [deliver1, recorder, Bool.not_true, Bool.false_eq_true, if_false, if_true]
      obtain ⟨t, ht⟩ := ih (l ++ [.msg m]) r (by have := splitMsg_length hs; omega)
      simp only [recorder] at ht
      exact ⟨.msg m :: t, by rw [ht]; simp⟩

/-- A message of the same length has the same header. -/
theorem send_same_length {m m' f : Bytes} (h : send m = .ok f) (hl : m'.length = m.length) :
    ∃ hd, f = hd ++ m ∧ send m' = .ok (hd ++ m') := by
  unfold send at h ⊢
  rw [hl]
  rw [bind_ok_iff] at h
  obtain ⟨hd, h1, h2⟩ := h
  cases h2
  exact ⟨hd, rfl, by rw [h1]; rfl⟩

theorem transmitAll_append {l r : List (Bytes × Nat)} {p : Bytes} (h : transmitAll (l ++ r) = .ok p) :
    ∃ a b, transmitAll l = .ok a ∧ transmitAll r = .ok b ∧ p = a ++ b := by
  induction l generalizing p with
  | nil => exact ⟨[], p, rfl, h, rfl⟩
  | cons x l ih =>
    obtain ⟨f, fs, h1, h2, rfl⟩ := transmitAll_cons_ok h
    obtain ⟨a, b, h3, h4, rfl⟩ := ih h2
    refine ⟨f.take x.2 ++ a, b, ?_, h4, by simp⟩
    obtain ⟨d, k⟩ := x
    unfold transmitAll transmit
    rw [h1, h3]; rfl

theorem transmitAll_whole {l : List (Bytes × Nat)} (hl : ∀ x ∈ l, Whole x) {p : Bytes} (h : transmitAll l = .ok p) :
    sendAll (l.map Prod.fst) = .ok p := by
  induction l generalizing p with
  | nil => exact h
  | cons x l ih =>
    obtain ⟨f, fs, h1, h2, rfl⟩ := transmitAll_cons_ok h
    rw [List.map_cons]
    unfold sendAll
    rw [h1, ih (fun y hy => hl y (List.mem_cons_of_mem _ hy)) h2, List.take_of_length_le (hl x List.mem_cons_self f h1)]
    rfl

/-- The messages in front are told, in their order. -/
theorem run_told (ms : List Bytes) : ∀ (l : List Event) (a b : Bytes), sendAll ms = .ok a →
    run recorder ⟨true, true, l⟩ (a ++ b) = run recorder ⟨true, true, l ++ ms.map .msg⟩ b := by
  induction ms with
  | nil => intro l a b h; cases h; simp
  | cons m ms ih =>
    intro l a b h
    obtain ⟨f, fs, h1, h2, rfl⟩ := sendAll_cons_ok h
    rw [List.append_assoc, run_some _ _ (splitMsg_send h1 (fs ++ b))]
    simp only [deliver1, recorder, Bool.not_true, Bool.false_eq_true, if_false, if_true]
    have := ih (l ++ [.msg m]) fs b h2
    simp only [recorder] at this
    rw [this]
    simp

/-- C93 fails whenever only a part of a message is taken and others follow: if the last `lost` bytes of message `m` are not
taken, the sender does not notice, and the peer, after all messages before `m`, is told a message that was never sent.
It is `m` with its last `lost` bytes replaced by the bytes that follow it. -/
theorem C93_taken_violated (k : Nat) (before after : List (Bytes × Nat)) (m : Bytes) (taken lost : Nat) (p f fs : Bytes)
    (hp : transmitAll ((ackMsg, k) :: before ++ (m, taken) :: after) = .ok p)
    (hw : ∀ x ∈ (ackMsg, k) :: before, Whole x) (hf : send m = .ok f) (hfs : transmitAll after = .ok fs)
    (ht : taken + lost = f.length) (hm : lost ≤ m.length) (hl : lost ≤ fs.length)
    (hne : fs.take lost ≠ m.drop (m.length - lost)) (cs : List Bytes) (hc : Chunking p cs) :
    (∃ more, (worker recorder (initial []) cs).1.handler =
      .connected :: (before.map fun x => .msg x.1) ++ .msg (m.take (m.length - lost) ++ fs.take lost) :: more) ∧
    m.take (m.length - lost) ++ fs.take lost ≠ m ∧
    ¬ ∃ u, Received (((ackMsg, k) :: before ++ (m, taken) :: after).map Prod.fst) p (worker recorder (initial []) cs).1.handler u := by
  have hdiff : m.take (m.length - lost) ++ fs.take lost ≠ m := by
    intro h
    apply hne
    have h2 : m.take (m.length - lost) ++ fs.take lost = m.take (m.length - lost) ++ m.drop (m.length - lost) := by
      rw [h, List.take_append_drop]
    exact List.append_cancel_left h2
  have htold : ∃ more, (worker recorder (initial []) cs).1.handler =
      .connected :: (before.map fun x => .msg x.1) ++ .msg (m.take (m.length - lost) ++ fs.take lost) :: more := by
    obtain ⟨a, b, h1, h2, rfl⟩ := transmitAll_append hp
    have h1 := transmitAll_whole hw h1
    obtain ⟨f', fs', h3, h4, rfl⟩ := transmitAll_cons_ok h2
    simp only at h3 h4
    rw [hf] at h3; cases h3
    rw [hfs] at h4; cases h4
    rw [List.map_cons] at h1
    obtain ⟨fa, as, h5, h6, rfl⟩ := sendAll_cons_ok h1
    have hne : cs ≠ [] := by
      rintro rfl
      have := hc.1
      simp only [List.flatten_nil] at this
      have h7 := send_ne_nil h5
      cases fa with
      | nil => exact h7 rfl
      | cons => cases this
    unfold initial
    rw [worker_eq recorder cs hc.2 hne, hc.1, List.nil_append, List.append_assoc,
      run_some recorder _ (splitMsg_send h5 _)]
    simp only [deliver1, recorder, Bool.not_false, if_true]
    rw [if_pos ⟨rfl, trivial⟩]
    simp only [List.nil_append]
    have h7 := run_told (before.map Prod.fst) [.connected] as (f.take taken ++ fs) h6
    simp only [recorder] at h7
    rw [h7]
    obtain ⟨hd, rfl, h8⟩ := send_same_length (m' := m.take (m.length - lost) ++ fs.take lost) hf (by simp; omega)
    have hbytes : (hd ++ m).take taken ++ fs = (hd ++ (m.take (m.length - lost) ++ fs.take lost)) ++ fs.drop lost := by
      rw [List.length_append] at ht
      rw [List.take_append, List.take_of_length_le (by omega), show taken - hd.length = m.length - lost by omega]
      simp only [List.append_assoc, List.take_append_drop]
    rw [hbytes]
    have h9 := run_some recorder ⟨true, true, [.connected] ++ (before.map Prod.fst).map .msg⟩ (splitMsg_send h8 (fs.drop lost))
    simp only [deliver1, recorder, Bool.not_true, Bool.false_eq_true, if_false, if_true] at h9
    rw [h9]
    obtain ⟨t, h10⟩ := run_recorder_keeps _ (([.connected] ++ (before.map Prod.fst).map .msg) ++
      [.msg (m.take (m.length - lost) ++ fs.take lost)]) (fs.drop lost) (Nat.le_refl _)
    simp only [recorder] at h10
    exact ⟨t, by rw [h10]; simp [Function.comp_def]⟩
  refine ⟨htold, hdiff, ?_⟩
  obtain ⟨more, htold⟩ := htold
  rw [htold]
  rintro ⟨u, done, rest, d, h1, -, -, h2, -⟩
  cases done with
  | nil => simp [told] at h2
  | cons x done =>
    simp only [told, List.cons_append, List.cons.injEq, true_and] at h2
    simp only [List.map_append, List.map_cons, List.cons_append, List.cons.injEq] at h1
    have hb : (before.map fun x => (Event.msg x.1)) = (before.map Prod.fst).map .msg := by simp
    rw [hb] at h2
    have e1 := congrArg (fun l => l[(before.map Prod.fst).length]?) h1.2
    have e2 := congrArg (fun l => l[((before.map Prod.fst).map Event.msg).length]?) h2
    simp only [List.length_map, List.getElem?_map] at e1 e2
    rw [List.getElem?_append_right (by simp)] at e1 e2
    simp only [List.length_map, Nat.sub_self, List.getElem?_cons_zero] at e1 e2
    cases h : done[before.length]? with
    | none => rw [h] at e2; simp at e2
    | some y =>
      have h11 := List.getElem?_eq_some_iff.mp h
      rw [List.getElem?_append_left h11.1, h] at e1
      rw [h] at e2
      simp only [Option.map_some, Option.some.injEq, Event.msg.injEq] at e1 e2
      exact hdiff (e2.trans e1.symm)

/-- The hypotheses hold of the messages `[1, 2, 3]`, of which the last byte is not taken, and `[4]`. -/
example : transmitAll ([(ackMsg, 9)] ++ [([1, 2, 3], 3), ([4], 2)]) = .ok [8, 0xbf, 0xff, 0xfc, 0, 0, 0, 0, 0, 3, 1, 2, 1, 4] ∧
    send [1, 2, 3] = .ok [3, 1, 2, 3] ∧ transmitAll [([4], 2)] = .ok [1, 4] ∧
    ([1, 4] : Bytes).take 1 ≠ ([1, 2, 3] : Bytes).drop (3 - 1) := by decide

end Apx.Socket
