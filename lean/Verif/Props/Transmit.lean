import Verif.Spec.Transmit
import Verif.Props.Socket
import Verif.Proofs.Signature

/-! C93: connections that break. -/

namespace Apx.Socket

theorem splitMsg_cut {m f u : Bytes} (h : send m = .ok f) (hu : u <+: f) (hne : u ≠ f) : splitMsg u = none := by
  cases hs : splitMsg u with
  | none => rfl
  | some mr =>
    obtain ⟨m', r⟩ := mr
    obtain ⟨t, ht⟩ := hu
    have h1 := splitMsg_append hs t
    have h2 := splitMsg_send h []
    rw [List.append_nil] at h2
    rw [ht, h2] at h1
    simp only [Option.some.injEq, Prod.mk.injEq] at h1
    have : t = [] := (List.append_eq_nil_iff.1 h1.2.symm).2
    subst this
    exact absurd (by simpa using ht) hne

theorem send_ne_nil {m f : Bytes} (h : send m = .ok f) : f ≠ [] := by
  rintro rfl
  have := splitMsg_send h []
  simp [splitMsg_nil] at this

theorem sendAll_cons_ok {m : Bytes} {ms : List Bytes} {stream : Bytes} (h : sendAll (m :: ms) = .ok stream) :
    ∃ f fs, send m = .ok f ∧ sendAll ms = .ok fs ∧ stream = f ++ fs := by
  unfold sendAll at h
  simp only [bind_ok_iff] at h
  obtain ⟨f, h1, fs, h2, h3⟩ := h
  cases h3
  exact ⟨f, fs, h1, h2, rfl⟩

theorem prefix_append_cases {p a b : Bytes} (h : p <+: a ++ b) : (p <+: a ∧ p ≠ a) ∨ ∃ q, p = a ++ q ∧ q <+: b := by
  by_cases hl : p.length < a.length
  · left
    refine ⟨List.prefix_of_prefix_length_le h (List.prefix_append _ _) (by omega), ?_⟩
    rintro rfl; omega
  · right
    obtain ⟨q, rfl⟩ := List.prefix_of_prefix_length_le (List.prefix_append a b) h (by omega)
    exact ⟨q, rfl, (List.prefix_append_right_inj a).1 h⟩

/-- After the acknowledge. -/
theorem run_break (ms : List Bytes) : ∀ (l : List Event) (stream p : Bytes), sendAll ms = .ok stream → p <+: stream →
    ∃ done rest d u, ms = done ++ rest ∧ sendAll done = .ok d ∧ p = d ++ u ∧
      (match rest with
        | [] => u = []
        | m :: _ => ∃ f, send m = .ok f ∧ u <+: f ∧ u ≠ f) ∧
      run recorder ⟨true, true, l⟩ p = (⟨true, true, l ++ done.map .msg⟩, .waiting u) := by
  induction ms with
  | nil =>
    intro l stream p hs hp
    cases hs
    have : p = [] := List.prefix_nil.1 hp
    subst this
    exact ⟨[], [], [], [], rfl, rfl, rfl, rfl, by rw [run_none _ _ splitMsg_nil]; simp⟩
  | cons m ms ih =>
    intro l stream p hs hp
    obtain ⟨f, fs, h1, h2, rfl⟩ := sendAll_cons_ok hs
    rcases prefix_append_cases hp with ⟨h3, h4⟩ | ⟨q, rfl, h3⟩
    · exact ⟨[], m :: ms, [], p, rfl, rfl, rfl, ⟨f, h1, h3, h4⟩, by
        rw [run_none _ _ (splitMsg_cut h1 h3 h4)]; simp⟩
    · obtain ⟨done, rest, d, u, e1, e2, e3, e4, e5⟩ := ih (l ++ [.msg m]) fs q h2 h3
      refine ⟨m :: done, rest, f ++ d, u, by rw [e1]; rfl, ?_, by rw [e3, List.append_assoc], e4, ?_⟩
      · unfold sendAll
        rw [h1, e2]; rfl
      · rw [run_some recorder _ (splitMsg_send h1 q)]
        unfold deliver1
        simp only [Bool.not_true, Bool.false_eq_true, if_false, if_true, recorder]
        simp only [recorder] at e5
        rw [e5]; simp

/-- C93: wherever the connection breaks, and however the bytes before were cut into chunks, the peer has been told
exactly the messages that have arrived completely: nothing that was not sent, nothing out of order, and nothing of the
message that was cut, whose bytes it still keeps. -/
theorem C93_break_partial (ms : List Bytes) (stream : Bytes) (hs : sendAll (ackMsg :: ms) = .ok stream) (p : Bytes)
    (hp : p <+: stream) (cs : List Bytes) (hc : Chunking p cs) :
    ∃ s u, worker recorder (initial []) cs = (s, .waiting u) ∧ Received (ackMsg :: ms) p s.handler u := by
  obtain ⟨f, fs, h1, h2, rfl⟩ := sendAll_cons_ok hs
  by_cases hne : cs = []
  · subst hne
    have : p = [] := hc.1.symm
    subst this
    exact ⟨⟨false, true, []⟩, [], rfl, [], ackMsg :: ms, [], rfl, rfl, rfl, rfl, f, h1, List.nil_prefix,
      fun h => send_ne_nil h1 h.symm⟩
  · unfold initial
    rw [worker_eq recorder cs hc.2 hne, hc.1, List.nil_append]
    rcases prefix_append_cases hp with ⟨h3, h4⟩ | ⟨q, rfl, h3⟩
    · exact ⟨⟨false, true, []⟩, p, by rw [run_none _ _ (splitMsg_cut h1 h3 h4)], [], ackMsg :: ms, [], rfl, rfl, rfl, rfl,
        f, h1, h3, h4⟩
    · obtain ⟨done, rest, d, u, e1, e2, e3, e4, e5⟩ := run_break ms [.connected] fs q h2 h3
      refine ⟨⟨true, true, .connected :: done.map .msg⟩, u, ?_, ackMsg :: done, rest, f ++ d, by rw [e1]; rfl, ?_,
        by rw [e3, List.append_assoc], rfl, e4⟩
      · rw [run_some recorder _ (splitMsg_send h1 q)]
        unfold deliver1
        simp only [Bool.not_false, if_true, recorder]
        rw [if_pos ⟨rfl, trivial⟩]
        simp only [List.nil_append]
        simp only [recorder, List.cons_append, List.nil_append] at e5
        rw [e5]
      · unfold sendAll
        rw [h1, e2]; rfl

theorem transmitAll_cons_ok {x : Bytes × Nat} {l : List (Bytes × Nat)} {stream : Bytes}
    (h : transmitAll (x :: l) = .ok stream) :
    ∃ f fs, send x.1 = .ok f ∧ transmitAll l = .ok fs ∧ stream = f.take x.2 ++ fs := by
  obtain ⟨data, taken⟩ := x
  unfold transmitAll transmit at h
  simp only [bind_ok_iff] at h
  obtain ⟨g, ⟨f, h1, h2⟩, fs, h3, h4⟩ := h
  cases h4
  cases h2
  exact ⟨f, fs, h1, h3, rfl⟩

theorem transmitAll_prefix (l : List (Bytes × Nat)) (hl : ∀ x ∈ l.dropLast, Whole x) (p : Bytes) (hp : transmitAll l = .ok p) :
    ∃ stream, sendAll (l.map Prod.fst) = .ok stream ∧ p <+: stream := by
  induction l generalizing p with
  | nil => cases hp; exact ⟨[], rfl, List.prefix_refl _⟩
  | cons x l ih =>
    obtain ⟨f, fs, h1, h2, rfl⟩ := transmitAll_cons_ok hp
    cases l with
    | nil =>
      cases h2
      refine ⟨f ++ [], ?_, ?_⟩
      · simp only [List.map_cons, List.map_nil]
        unfold sendAll
        rw [h1]; rfl
      · rw [List.append_nil, List.append_nil]; exact List.take_prefix _ _
    | cons y l =>
      obtain ⟨stream, h3, h4⟩ := ih (fun z hz => hl z (by simp [List.dropLast, hz])) fs h2
      refine ⟨f ++ stream, ?_, ?_⟩
      · rw [List.map_cons]
        unfold sendAll
        rw [h1, h3]; rfl
      · rw [List.take_of_length_le (hl x (by simp [List.dropLast]) f h1)]
        exact (List.prefix_append_right_inj f).2 h4

/-- C93 when the operating system takes what it is given, except perhaps of the last message. -/
theorem C93_taken_partial (ms : List (Bytes × Nat)) (taken : Nat) (hw : ∀ x ∈ ((ackMsg, taken) :: ms).dropLast, Whole x)
    (p : Bytes) (hp : transmitAll ((ackMsg, taken) :: ms) = .ok p) (cs : List Bytes) (hc : Chunking p cs) :
    ∃ s u, worker recorder (initial []) cs = (s, .waiting u) ∧
      Received (ackMsg :: ms.map Prod.fst) p s.handler u := by
  obtain ⟨stream, h1, h2⟩ := transmitAll_prefix _ hw p hp
  exact C93_break_partial _ stream h1 p h2 cs hc

/-- C93 fails when a message is taken in part and another one follows: the sender does not notice, the next message
follows at once, and the peer is told a message made of both that was never sent. -/
example :
    ∃ p, transmitAll [(ackMsg, 9), ([1, 2, 3], 3), ([4], 2)] = .ok p ∧
      worker recorder (initial []) [p] = (⟨true, true, [.connected, .msg [1, 2, 1]]⟩, .waiting [4]) ∧
      ¬ ∃ u, Received [ackMsg, [1, 2, 3], [4]] p [.connected, .msg [1, 2, 1]] u := by
  refine ⟨[8, 0xbf, 0xff, 0xfc, 0, 0, 0, 0, 0, 3, 1, 2, 1, 4], by decide, ?_, ?_⟩
  · rw [show initial ([] : List Event) = (⟨false, true, []⟩, .waiting []) from rfl,
      worker_eq recorder _ (by decide) (by decide)]
    have e1 : splitMsg ([] ++ [[8, 0xbf, 0xff, 0xfc, 0, 0, 0, 0, 0, 3, 1, 2, 1, 4]].flatten) =
        some (ackMsg, [3, 1, 2, 1, 4]) := by decide
    have e2 : splitMsg [3, 1, 2, 1, 4] = some ([1, 2, 1], [4]) := by decide
    have e3 : splitMsg [4] = none := by decide
    rw [run_some _ _ e1]
    simp only [deliver1, recorder, Bool.not_false, if_true]
    rw [if_pos ⟨rfl, trivial⟩]
    simp only []
    rw [run_some _ _ e2]
    simp only [deliver1, Bool.not_true, Bool.false_eq_true, if_false, if_true]
    rw [run_none _ _ e3]
    rfl
  · rintro ⟨u, done, rest, d, h1, -, -, h2, -⟩
    cases done with
    | nil => simp [told] at h2
    | cons a done =>
      simp only [told, List.cons.injEq, true_and] at h2
      cases done with
      | nil => simp at h2
      | cons b done =>
        simp only [List.cons_append, List.cons.injEq] at h1
        simp only [List.map_cons, List.cons.injEq, Event.msg.injEq] at h2
        rw [← h1.2.1] at h2
        exact absurd h2.1 (by decide)

/-- The hypotheses of `C93_break_partial`: a connection that breaks inside the second message. -/
example : sendAll [ackMsg, [0, 1, 2], [7]] = .ok [8, 0xbf, 0xff, 0xfc, 0, 0, 0, 0, 0, 3, 0, 1, 2, 1, 7] ∧
    ([8, 0xbf, 0xff, 0xfc, 0, 0, 0, 0, 0, 3, 0, 1] : Bytes) <+: [8, 0xbf, 0xff, 0xfc, 0, 0, 0, 0, 0, 3, 0, 1, 2, 1, 7] ∧
    Chunking [8, 0xbf, 0xff, 0xfc, 0, 0, 0, 0, 0, 3, 0, 1] [[8, 0xbf, 0xff], [0xfc, 0, 0, 0, 0, 0, 3], [0, 1]] :=
  ⟨by decide, ⟨[2, 1, 7], rfl⟩, rfl, by decide⟩

/-- The hypothesis of `C93_taken_partial`: the last message is taken in part. -/
example : ∀ x ∈ [(ackMsg, 9), (([0, 1, 2] : Bytes), 10), (([7] : Bytes), 1)].dropLast, Whole x := by
  intro x hx
  simp only [List.dropLast, List.mem_cons, List.not_mem_nil, or_false] at hx
  rcases hx with rfl | rfl
  · intro f hf
    have : send ackMsg = .ok ([8] ++ ackMsg) := by decide
    rw [this] at hf; cases hf; decide
  · intro f hf
    have : send [0, 1, 2] = .ok [3, 0, 1, 2] := by decide
    rw [this] at hf; cases hf; decide

end Apx.Socket
