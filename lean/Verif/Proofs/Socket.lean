import Verif.Proofs.NumHeader
import Verif.Props.NumHeader
import Verif.Spec.Stream

namespace Apx.Socket
open Apx.NumHeader

/-- A NumHeader32 at the front of a byte string. -/
def header32 : Bytes → Option (Nat × Nat)
  | [] => none
  | b :: rest =>
    if b.toNat < 128 then some (1, b.toNat)
    else match rest with
      | b2 :: b3 :: b4 :: _ =>
        some (4, (b.toNat - 128) * 16777216 + b2.toNat * 65536 + b3.toNat * 256 + b4.toNat)
      | _ => none

theorem decode32_eq (buf : Bytes) (o : Nat) :
    decode32 buf o (some buf.length) =
      match header32 (buf.drop o) with
      | none => .ok (0, none)
      | some (k, v) => .ok (k, some v) := by
  unfold decode32
  match h : buf.drop o with
  | [] =>
    have : buf.length ≤ o := List.drop_eq_nil_iff.mp h
    rw [decode_none _ _ _ _ (by omega)]; rfl
  | b :: rest =>
    have hl : (buf.drop o).length = rest.length + 1 := by rw [h]; rfl
    rw [List.length_drop] at hl
    have g : ∀ i, buf[o + i]? = (b :: rest)[i]? := by
      intro i; rw [← h, List.getElem?_drop]
    have g0 : buf[o]? = some b := g 0
    by_cases hb : b.toNat < 128
    · rw [decode_short _ _ _ _ b (by omega) g0 hb]
      simp [header32, hb]
    · match rest with
      | b2 :: b3 :: b4 :: r =>
        simp at hl
        rw [decode32_long _ _ _ b b2 b3 b4 (by omega) g0 (by omega) (g 1) (g 2) (g 3)]
        simp [header32, hb]
      | [] => simp at hl; rw [decode32_wait _ _ _ b (by omega) g0 (by omega) (by omega)]; simp [header32, hb]
      | [_] => simp at hl; rw [decode32_wait _ _ _ b (by omega) g0 (by omega) (by omega)]; simp [header32, hb]
      | [_, _] => simp at hl; rw [decode32_wait _ _ _ b (by omega) g0 (by omega) (by omega)]; simp [header32, hb]

theorem header32_pos {bs : Bytes} {k v : Nat} (h : header32 bs = some (k, v)) :
    0 < k ∧ k ≤ bs.length := by
  match bs with
  | [] => simp [header32] at h
  | b :: rest =>
    simp only [header32] at h
    split at h
    · simp at h; simp; omega
    · split at h
      · simp at h; simp; omega
      · simp at h

theorem header32_append {bs : Bytes} {k v : Nat} (h : header32 bs = some (k, v)) (t : Bytes) :
    header32 (bs ++ t) = some (k, v) := by
  match bs with
  | [] => simp [header32] at h
  | b :: rest =>
    simp only [header32] at h
    split at h
    · rename_i hb
      simp only [List.cons_append, header32, hb, if_true]; exact h
    · rename_i hb
      split at h
      · simp only [List.cons_append, header32, hb, if_false]; exact h
      · simp at h

/-- First complete message of a byte string and what follows it. -/
def splitMsg (bs : Bytes) : Option (Bytes × Bytes) :=
  match header32 bs with
  | none => none
  | some (k, v) => if k + v ≤ bs.length then some ((bs.drop k).take v, bs.drop (k + v)) else none

theorem splitMsg_length {bs m r : Bytes} (h : splitMsg bs = some (m, r)) : r.length < bs.length := by
  unfold splitMsg at h
  split at h
  · simp at h
  · rename_i k v hh
    have := header32_pos hh
    split at h
    · simp at h; rw [← h.2]; simp; omega
    · simp at h

theorem splitMsg_append {bs m r : Bytes} (h : splitMsg bs = some (m, r)) (t : Bytes) :
    splitMsg (bs ++ t) = some (m, r ++ t) := by
  unfold splitMsg at h
  split at h
  · simp at h
  · rename_i k v hh
    have := header32_pos hh
    split at h
    · rename_i hle
      simp only [Option.some.injEq, Prod.mk.injEq] at h
      unfold splitMsg
      rw [header32_append hh]
      simp only
      rw [if_pos (by simp; omega)]
      rw [List.drop_append_of_le_length (by omega), List.drop_append_of_le_length (by omega),
        List.take_append_of_le_length (by simp; omega), h.1, h.2]
    · simp at h

/-- The effect of one message on the adapter. -/
def deliver1 {σ : Type} (H : Handler σ) (s : State σ) (msg : Bytes) : State σ × Option PyErr :=
  if !s.isAcknowledgeSeen then
    if msg.length = 8 ∧ msg = ackMsg then
      if s.handlerSet then
        ({ s with isAcknowledgeSeen := true, handler := (H.onConnected s.handler).1 },
          (H.onConnected s.handler).2)
      else ({ s with isAcknowledgeSeen := true }, some .attributeError)
    else (s, some .runtimeError)
  else if s.handlerSet then
    ({ s with handler := (H.onMsgReceived s.handler msg).1 }, (H.onMsgReceived s.handler msg).2)
  else (s, none)

/-- Consume all complete messages of a byte string. -/
def run {σ : Type} (H : Handler σ) (s : State σ) (bs : Bytes) : State σ × Worker :=
  match _h : splitMsg bs with
  | none => (s, .waiting bs)
  | some (m, r) =>
    match deliver1 H s m with
    | (s', none) => run H s' r
    | (s', some e) => (s', .ended (some e))
termination_by bs.length
decreasing_by exact splitMsg_length _h

theorem run_none {σ : Type} (H : Handler σ) (s : State σ) {bs : Bytes} (h : splitMsg bs = none) :
    run H s bs = (s, .waiting bs) := by
  rw [run]; split
  · rfl
  · rename_i h'; rw [h] at h'; simp at h'

theorem run_some {σ : Type} (H : Handler σ) (s : State σ) {bs m r : Bytes}
    (h : splitMsg bs = some (m, r)) :
    run H s bs = match deliver1 H s m with
      | (s', none) => run H s' r
      | (s', some e) => (s', .ended (some e)) := by
  rw [run]; split
  · rename_i h'; rw [h] at h'; simp at h'
  · rename_i h'; rw [h] at h'; simp at h'; obtain ⟨rfl, rfl⟩ := h'; rfl

theorem parseMessage_eq {σ : Type} (H : Handler σ) (s : State σ) (buf : Bytes) (i : Nat)
    (hi : i ≤ buf.length) :
    parseMessage H s buf i buf.length =
      match splitMsg (buf.drop i) with
      | none => (s, .ok i)
      | some (m, r) =>
        match deliver1 H s m with
        | (s', none) => (s', .ok (buf.length - r.length))
        | (s', some e) => (s', .error e) := by
  unfold parseMessage
  rw [decode32_eq]
  unfold splitMsg
  cases hh : header32 (buf.drop i) with
  | none => rfl
  | some kv =>
    obtain ⟨k, v⟩ := kv
    have hp := header32_pos hh
    obtain ⟨k, rfl⟩ : ∃ k', k = k' + 1 := ⟨k - 1, by omega⟩
    simp only [Option.getD_some, List.length_drop, List.drop_drop]
    rw [List.length_drop] at hp
    by_cases hle : i + (k + 1) + v ≤ buf.length
    · rw [if_pos hle, if_pos (show k + 1 + v ≤ buf.length - i by omega)]
      simp only [List.length_drop]
      rw [show buf.length - (buf.length - (i + (k + 1 + v))) = i + (k + 1) + v by omega]
      unfold deliver1
      cases s.isAcknowledgeSeen
      · simp only [Bool.not_false, if_true]
        split
        · cases s.handlerSet
          · rfl
          · simp only [if_true]
            cases ho : H.onConnected s.handler with
            | mk h o => cases o <;> rfl
        · rfl
      · simp only [Bool.not_true]
        cases s.handlerSet
        · rfl
        · simp only [if_true]
          rw [if_neg (by simp), if_neg (by simp)]
          cases ho : H.onMsgReceived s.handler (List.take v (List.drop (i + (k + 1)) buf)) with
          | mk h o => cases o <;> rfl
    · rw [if_neg hle, if_neg (by omega)]

theorem splitMsg_suffix {bs m r : Bytes} (h : splitMsg bs = some (m, r)) :
    r = bs.drop (bs.length - r.length) := by
  unfold splitMsg at h
  split at h
  · simp at h
  · split at h
    · simp only [Option.some.injEq, Prod.mk.injEq] at h
      rw [← h.2]; simp only [List.length_drop]; congr 1; omega
    · simp at h

theorem splitMsg_nil : splitMsg [] = none := rfl

theorem parseLoop_eq {σ : Type} (H : Handler σ) (buf : Bytes) (n : Nat) :
    ∀ (s : State σ) (i : Nat), i ≤ buf.length → buf.length - i ≤ n →
    (∃ s' j, run H s (buf.drop i) = (s', .waiting (buf.drop j)) ∧ i ≤ j ∧ j ≤ buf.length ∧
      parseLoop H s buf i buf.length = (s', .ok (j : Int))) ∨
    (∃ s' e, run H s (buf.drop i) = (s', .ended (some e)) ∧
      parseLoop H s buf i buf.length = (s', .error e)) := by
  induction n with
  | zero =>
    intro s i hi hn
    left
    refine ⟨s, i, ?_, by omega, hi, ?_⟩
    · have : buf.drop i = [] := List.drop_eq_nil_iff.mpr (by omega)
      rw [this, run_none _ _ splitMsg_nil]
    · rw [parseLoop, if_neg (by omega)]
  | succ n ih =>
    intro s i hi hn
    by_cases hlt : i < buf.length
    · rw [parseLoop, if_pos hlt, parseMessage_eq H s buf i hi]
      cases hs : splitMsg (buf.drop i) with
      | none =>
        left
        exact ⟨s, i, run_none _ _ hs, by omega, hi, by simp⟩
      | some mr =>
        obtain ⟨m, r⟩ := mr
        have hl := splitMsg_length hs
        have hsuf := splitMsg_suffix hs
        rw [List.length_drop] at hl
        rw [List.length_drop, List.drop_drop] at hsuf
        rw [show i + (buf.length - i - r.length) = buf.length - r.length by omega] at hsuf
        rw [run_some H s hs]
        simp only
        cases hd : deliver1 H s m with
        | mk s' o =>
          cases o with
          | some e => right; exact ⟨s', e, rfl, rfl⟩
          | none =>
            simp only
            rw [if_neg (by omega), if_neg (by omega)]
            have hr : run H s' r = run H s' (buf.drop (buf.length - r.length)) := by rw [← hsuf]
            rw [hr]
            rcases ih s' (buf.length - r.length) (by omega) (by omega) with
              ⟨s2, j, h1, h2, h3, h4⟩ | h
            · left; exact ⟨s2, j, h1, by omega, h3, h4⟩
            · right; exact h
    · left
      refine ⟨s, i, ?_, by omega, hi, ?_⟩
      · have : buf.drop i = [] := List.drop_eq_nil_iff.mpr (by omega)
        rw [this, run_none _ _ splitMsg_nil]
      · rw [parseLoop, if_neg (by omega)]

theorem workerStep_eq {σ : Type} (H : Handler σ) (s : State σ) (u c : Bytes) (hc : c ≠ []) :
    workerStep H s u c = run H s (u ++ c) := by
  unfold workerStep parseData
  rw [if_neg (by simp [hc])]
  simp only
  rcases parseLoop_eq H (u ++ c) _ s 0 (by omega) (Nat.le_refl _) with ⟨s', j, h1, h2, h3, h4⟩ | ⟨s', e, h1, h2⟩
  · rw [List.drop_zero] at h1
    rw [h4, h1]
    simp only
    rw [if_neg (by omega)]
    by_cases hj : (j : Int) > 0
    · rw [if_pos hj]; simp
    · rw [if_neg hj]
      have : j = 0 := by omega
      subst this; simp
  · rw [List.drop_zero] at h1
    rw [h2, h1]

theorem run_append {σ : Type} (H : Handler σ) (n : Nat) : ∀ (s : State σ) (a b : Bytes),
    a.length ≤ n →
    run H s (a ++ b) = match run H s a with
      | (s', .waiting r) => run H s' (r ++ b)
      | (s', .ended e) => (s', .ended e) := by
  induction n with
  | zero =>
    intro s a b h
    have : a = [] := List.length_eq_zero_iff.mp (by omega)
    subst this
    rw [run_none H s splitMsg_nil]
  | succ n ih =>
    intro s a b h
    cases hs : splitMsg a with
    | none => rw [run_none H s hs]
    | some mr =>
      obtain ⟨m, r⟩ := mr
      have hl := splitMsg_length hs
      rw [run_some H s hs, run_some H s (splitMsg_append hs b)]
      cases hd : deliver1 H s m with
      | mk s' o =>
        cases o with
        | some e => rfl
        | none => simp only; exact ih s' r b (by omega)

theorem worker_ended {σ : Type} (H : Handler σ) (s : State σ) (e : Option PyErr) (cs : List Bytes) :
    worker H (s, .ended e) cs = (s, .ended e) := by
  cases cs <;> rfl

theorem worker_eq {σ : Type} (H : Handler σ) (cs : List Bytes) (hcs : ∀ c ∈ cs, c ≠ []) (hne : cs ≠ []) :
    ∀ (s : State σ) (u : Bytes), worker H (s, .waiting u) cs = run H s (u ++ cs.flatten) := by
  induction cs with
  | nil => exact absurd rfl hne
  | cons c cs ih =>
    intro s u
    rw [worker, workerStep_eq H s u c (hcs c (by simp))]
    rw [List.flatten_cons, ← List.append_assoc, run_append H _ s (u ++ c) cs.flatten (Nat.le_refl _)]
    cases cs with
    | nil =>
      rw [worker]
      cases hr : run H s (u ++ c) with
      | mk s' w =>
        cases w with
        | ended e => rfl
        | waiting r =>
          have h := run_append H _ s (u ++ c) [] (Nat.le_refl _)
          rw [List.append_nil, hr] at h
          simpa using h
    | cons d ds =>
      cases hr : run H s (u ++ c) with
      | mk s' w =>
        cases w with
        | ended e => simp only [worker]
        | waiting r => exact ih (fun c hc => hcs c (by simp [hc])) (by simp) s' r

/-- A framed message in front of a byte string is split off. -/
theorem splitMsg_send {m f : Bytes} (h : send m = .ok f) (t : Bytes) :
    splitMsg (f ++ t) = some (m, t) := by
  unfold send at h
  cases hh : encode32 (m.length : Int) with
  | error e => rw [hh] at h; simp [bind, Except.bind] at h
  | ok hd =>
    rw [hh] at h
    simp only [bind, Except.bind, Except.ok.injEq] at h
    subst h
    have hrange : (m.length : Int) < 2147483648 := by
      apply Decidable.byContradiction; intro hx
      have := C02_numheader32_rejects (m.length : Int) (.inr (by omega))
      rw [hh] at this; simp at this
    obtain ⟨bs, h1, h2⟩ := C02_numheader32_roundtrip (m.length : Int) (by omega) hrange
    rw [hh] at h1
    simp only [Except.ok.injEq] at h1
    subst h1
    have h3 := h2 [] (m ++ t)
    simp only [List.nil_append, List.length_nil, Int.toNat_natCast] at h3
    unfold decode32 at h3
    rw [decode_end_none] at h3
    have h4 := decode32_eq (hd ++ (m ++ t)) 0
    unfold decode32 at h4
    rw [h3] at h4
    simp only [List.drop_zero] at h4
    have h5 : header32 (hd ++ (m ++ t)) = some (hd.length, m.length) := by
      cases hx : header32 (hd ++ (m ++ t)) with
      | none => rw [hx] at h4; simp at h4
      | some kv => obtain ⟨k, v⟩ := kv; rw [hx] at h4; simp at h4; rw [h4.1, h4.2]
    rw [List.append_assoc]
    unfold splitMsg
    rw [h5]
    simp only
    rw [if_pos (by simp <;> omega), List.drop_left' rfl, List.take_left' rfl, ← List.append_assoc, List.drop_left' (by simp)]

end Apx.Socket
