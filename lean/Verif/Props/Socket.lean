import Verif.Proofs.Socket

/-! C10-C12: message reassembly in the TCP socket adapter. -/

namespace Apx.Socket

/-- C10: for every handler (with any state, possibly raising), from every adapter state with any
unprocessed bytes, two ways of cutting the same stream into chunks leave the handler, the
adapter and the unprocessed remainder in exactly the same state. -/
theorem C10_chunking_irrelevant {σ : Type} (H : Handler σ) (s : State σ) (u stream : Bytes)
    (cs ds : List Bytes) (hc : Chunking stream cs) (hd : Chunking stream ds) :
    worker H (s, .waiting u) cs = worker H (s, .waiting u) ds := by
  obtain ⟨hc1, hc2⟩ := hc
  obtain ⟨hd1, hd2⟩ := hd
  have hnil : ∀ l : List Bytes, (∀ c ∈ l, c ≠ []) → l.flatten = [] → l = [] := by
    intro l hl hf
    cases l with
    | nil => rfl
    | cons c l =>
      simp only [List.flatten_cons, List.append_eq_nil_iff] at hf
      exact absurd hf.1 (hl c (by simp))
  by_cases hs : stream = []
  · subst hs
    rw [hnil cs hc2 hc1, hnil ds hd2 hd1]
  · have h1 : cs ≠ [] := by rintro rfl; exact hs hc1.symm
    have h2 : ds ≠ [] := by rintro rfl; exact hs hd1.symm
    rw [worker_eq H cs hc2 h1, worker_eq H ds hd2 h2, hc1, hd1]

/-- C10, as seen by a recording handler: the events equal those of the stream arriving at once. -/
theorem C10_events_same_as_whole (stream : Bytes) (hs : stream ≠ []) (cs : List Bytes)
    (hc : Chunking stream cs) :
    worker recorder (initial []) cs = worker recorder (initial []) [stream] :=
  C10_chunking_irrelevant recorder _ _ stream cs [stream] hc ⟨by simp, by simp [hs]⟩

example : Chunking [8, 0xbf, 0xff, 0xfc, 0, 0, 0, 0, 0, 2, 5, 6]
    [[8, 0xbf], [0xff, 0xfc, 0, 0, 0, 0], [0, 2], [5], [6]] := by
  constructor
  · rfl
  · decide

theorem run_sendAll {σ : Type} (H : Handler σ) (ms : List Bytes) : ∀ (h : σ) (stream : Bytes),
    sendAll ms = .ok stream →
    run H ⟨true, true, h⟩ stream =
      (⟨true, true, (deliverAll H h ms).1⟩,
        match (deliverAll H h ms).2 with
        | none => .waiting []
        | some e => .ended (some e)) := by
  induction ms with
  | nil =>
    intro h stream hs
    simp only [sendAll, Except.ok.injEq] at hs
    subst hs
    rw [run_none _ _ splitMsg_nil]; rfl
  | cons m ms ih =>
    intro h stream hs
    unfold sendAll at hs
    cases hf : send m with
    | error e => rw [hf] at hs; simp [bind, Except.bind] at hs
    | ok f =>
      cases hfs : sendAll ms with
      | error e => rw [hf, hfs] at hs; simp [bind, Except.bind] at hs
      | ok fs =>
        rw [hf, hfs] at hs
        simp only [bind, Except.bind, Except.ok.injEq] at hs
        subst hs
        rw [run_some H _ (splitMsg_send hf fs)]
        unfold deliver1
        simp only [Bool.not_true, Bool.false_eq_true, if_false, if_true]
        cases hm : H.onMsgReceived h m with
        | mk h' o =>
          cases o with
          | some e => simp [deliverAll, hm]
          | none =>
            simp only
            rw [ih h' fs hfs]
            simp [deliverAll, hm]

theorem sendAll_ok (ms : List Bytes) (hl : ∀ m ∈ ms, m.length < 2 ^ 31) :
    ∃ stream, sendAll ms = .ok stream := by
  induction ms with
  | nil => exact ⟨[], rfl⟩
  | cons m ms ih =>
    obtain ⟨fs, hfs⟩ := ih (fun x hx => hl x (by simp [hx]))
    have := hl m (by simp)
    obtain ⟨bs, h1, _⟩ := NumHeader.C02_numheader32_roundtrip (m.length : Int) (by omega) (by omega)
    refine ⟨(bs ++ m) ++ fs, ?_⟩
    unfold sendAll send
    rw [h1, hfs]; rfl

/-- C11: the peer sends the acknowledge and then any messages (each shorter than 2^31 bytes, the
limit of the framing), every one framed as `send` does. Under every chunking a recording handler
sees `onConnected` once and then exactly those messages in that order; nothing is left over and
the worker keeps waiting for more. -/
theorem C11_exactly_once_in_order (ms : List Bytes) (hl : ∀ m ∈ ms, m.length < 2 ^ 31) :
    ∃ stream, sendAll (ackMsg :: ms) = .ok stream ∧ ∀ cs, Chunking stream cs →
      worker recorder (initial []) cs =
        (⟨true, true, .connected :: ms.map .msg⟩, .waiting []) := by
  obtain ⟨stream, hst⟩ := sendAll_ok (ackMsg :: ms) (by
    intro m hm
    rcases List.mem_cons.mp hm with rfl | hm
    · decide
    · exact hl m hm)
  refine ⟨stream, hst, fun cs hc => ?_⟩
  obtain ⟨fs, hfs⟩ := sendAll_ok ms hl
  have hack : send ackMsg = .ok ([8] ++ ackMsg) := by decide
  unfold sendAll at hst
  rw [hack, hfs] at hst
  simp only [bind, Except.bind, Except.ok.injEq] at hst
  have hne : cs ≠ [] := by
    rintro rfl
    rw [← hst] at hc
    exact absurd hc.1 (by simp)
  unfold initial
  rw [worker_eq recorder cs hc.2 hne, hc.1, ← hst, List.nil_append,
    run_some recorder _ (splitMsg_send hack fs)]
  unfold deliver1
  simp only [Bool.not_false, if_true]
  rw [if_pos ⟨rfl, trivial⟩]
  simp only [recorder]
  have := run_sendAll recorder ms ([] ++ [.connected]) fs hfs
  simp only [recorder] at this
  rw [this]
  have hdel : ∀ (ms : List Bytes) (l : List Event), deliverAll recorder l ms = (l ++ ms.map .msg, none) := by
    intro ms
    induction ms with
    | nil => intro l; simp [deliverAll]
    | cons m ms ih => intro l; simp [deliverAll, recorder] at *; rw [ih]; simp
  have h2 := hdel ms ([] ++ [.connected])
  simp only [recorder] at h2
  rw [h2]
  rfl

/-- C11 for arbitrary handlers: once connected, the worker hands the sent messages to the handler
one after the other; if the handler raises, later messages are not delivered and the worker
ends with that exception. -/
theorem C11_any_handler {σ : Type} (H : Handler σ) (h : σ) (ms : List Bytes) (stream : Bytes)
    (hs : sendAll ms = .ok stream) (cs : List Bytes) (hc : Chunking stream cs) :
    worker H (⟨true, true, h⟩, .waiting []) cs =
      (⟨true, true, (deliverAll H h ms).1⟩,
        match (deliverAll H h ms).2 with
        | none => .waiting []
        | some e => .ended (some e)) := by
  by_cases hne : cs = []
  · subst hne
    have hst : stream = [] := hc.1.symm
    subst hst
    rw [← run_sendAll H ms h [] hs, run_none _ _ splitMsg_nil]; rfl
  · rw [worker_eq H cs hc.2 hne, hc.1, List.nil_append, run_sendAll H ms h stream hs]

/-- Messages of 2^31 bytes or more cannot be framed: `send` raises. -/
theorem C11_too_long (m : Bytes) (h : 2 ^ 31 ≤ m.length) : send m = .error .valueError := by
  unfold send
  rw [NumHeader.C02_numheader32_rejects (m.length : Int) (.inr (by omega))]; rfl

example : sendAll [ackMsg, [0, 1, 2], [], [7]] =
    .ok [8, 0xbf, 0xff, 0xfc, 0, 0, 0, 0, 0, 3, 0, 1, 2, 0, 1, 7] := by decide

/-- The possible records: nothing, or `onConnected` first and messages only after it. -/
def WellOrdered (s : State (List Event)) : Prop :=
  (s.isAcknowledgeSeen = false ∧ s.handler = []) ∨
  (s.isAcknowledgeSeen = true ∧ ∃ ms : List Bytes, s.handler = .connected :: ms.map .msg)

theorem deliver1_wellOrdered (s : State (List Event)) (m : Bytes) (h : WellOrdered s)
    (hs : s.handlerSet = true) :
    WellOrdered (deliver1 recorder s m).1 ∧ (deliver1 recorder s m).1.handlerSet = true := by
  obtain ⟨ack, hset, hd⟩ := s
  simp only at hs
  subst hs
  rcases h with ⟨h1, h2⟩ | ⟨h1, ms, h2⟩
  · simp only at h1 h2; subst h1; subst h2
    unfold deliver1
    simp only [Bool.not_false, if_true]
    split
    · exact ⟨.inr ⟨rfl, [], rfl⟩, rfl⟩
    · exact ⟨.inl ⟨rfl, rfl⟩, rfl⟩
  · simp only at h1 h2; subst h1; subst h2
    unfold deliver1
    simp only [Bool.not_true, if_true, Bool.false_eq_true, if_false]
    exact ⟨.inr ⟨rfl, ms ++ [m], by simp [recorder]⟩, trivial⟩

theorem run_wellOrdered (n : Nat) : ∀ (s : State (List Event)) (bs : Bytes), bs.length ≤ n →
    WellOrdered s → s.handlerSet = true → WellOrdered (run recorder s bs).1 := by
  induction n with
  | zero =>
    intro s bs hl h hs
    have : bs = [] := List.length_eq_zero_iff.mp (by omega)
    subst this
    rw [run_none _ _ splitMsg_nil]; exact h
  | succ n ih =>
    intro s bs hl h hs
    cases hsp : splitMsg bs with
    | none => rw [run_none _ _ hsp]; exact h
    | some mr =>
      obtain ⟨m, r⟩ := mr
      have := splitMsg_length hsp
      rw [run_some _ _ hsp]
      have hw := deliver1_wellOrdered s m h hs
      cases hd : deliver1 recorder s m with
      | mk s' o =>
        rw [hd] at hw
        cases o with
        | some e => exact hw.1
        | none => exact ih s' r (by omega) hw.1 hw.2

/-- C12: whatever bytes arrive in whatever chunks, the callbacks made so far are either none at
all or `onConnected` exactly once followed only by messages. -/
theorem C12_nothing_before_ack (cs : List Bytes) (hcs : ∀ c ∈ cs, c ≠ []) :
    (worker recorder (initial []) cs).1.handler = [] ∨
    ∃ ms : List Bytes, (worker recorder (initial []) cs).1.handler = .connected :: ms.map .msg := by
  by_cases hne : cs = []
  · subst hne; left; rfl
  · unfold initial
    rw [worker_eq recorder cs hcs hne]
    have := run_wellOrdered _ ⟨false, true, []⟩ ([] ++ cs.flatten) (Nat.le_refl _) (.inl ⟨rfl, rfl⟩) rfl
    rcases this with ⟨_, h⟩ | ⟨_, h⟩
    · left; exact h
    · right; exact h

/-- C12: if the first message of the stream is anything but the acknowledge, no callback is ever
made, whatever follows, and the worker ends with `RuntimeError` as soon as that message is
complete. -/
theorem C12_wrong_first_message (m f rest : Bytes) (hm : m ≠ ackMsg) (hf : send m = .ok f)
    (cs : List Bytes) (hc : Chunking (f ++ rest) cs) :
    worker recorder (initial []) cs = (⟨false, true, []⟩, .ended (some .runtimeError)) := by
  have hne : cs ≠ [] := by
    rintro rfl
    have hsp := splitMsg_send hf rest
    rw [← hc.1] at hsp
    simp [splitMsg, header32] at hsp
  unfold initial
  rw [worker_eq recorder cs hc.2 hne, hc.1, List.nil_append, run_some recorder _ (splitMsg_send hf rest)]
  unfold deliver1
  simp [hm]

example : ∃ f, send [1, 2, 3] = .ok f ∧ [1, 2, 3] ≠ ackMsg ∧ Chunking (f ++ [9]) [[3, 1], [2, 3, 9]] :=
  ⟨[3, 1, 2, 3], by decide, by decide, rfl, by decide⟩

end Apx.Socket
