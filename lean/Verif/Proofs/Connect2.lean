import Verif.Proofs.Connect

namespace Apx.Connect
open Manager

/-- The frames for connection `i`. -/
def framesFor (i : Nat) (l : List (Nat × Bytes)) : List Bytes := (l.filter fun p => p.1 = i).map Prod.snd

theorem worker_ok (handler : Option Nat) (m : Msg Nat) (hm : plain m = true) (d : Bytes) (hd : frame m = .ok d) (rest : List (Msg Nat)) :
    (worker handler (m :: rest)).1 =
      match handler with
      | some h => (h, d) :: (worker handler rest).1
      | none => (worker handler rest).1 := by
  cases m with
  | connect h => cases hm
  | stop => cases hm
  | fileInfo x =>
    unfold frame at hd
    rw [bind_ok_iff] at hd
    obtain ⟨y, h1, h2⟩ := hd
    cases h2
    simp only [worker, h1]
    cases handler <;> rfl
  | writeData a x =>
    unfold frame at hd
    rw [bind_ok_iff] at hd
    obtain ⟨y, h1, h2⟩ := hd
    cases h2
    simp only [worker, h1]
    cases handler <;> rfl
  | fileOpen a =>
    unfold frame at hd
    simp only [bind_ok_iff] at hd
    obtain ⟨x, h0, y, h1, h2⟩ := hd
    cases h2
    simp only [worker, h0, h1]
    cases handler <;> rfl

/-- Where the manager's thread stands. -/
structure Inv (s : Sess) : Prop where
  handler : ∀ h, s.handler = some h → ∃ a, s.adapters[h]? = some a ∧ a.sent ≠ []
  queue : ∀ h, Msg.connect h ∈ s.life.queue → ∃ a, s.adapters[h]? = some a ∧ a.sent ≠ []
  receiving : ∀ (j : Nat) (a : Adapter), s.adapters[j]? = some a → a.receiving = true → a.sent ≠ []
  sent : ∀ i ext, ∃ rest, framesFor i (worker none (s.life.queue ++ ext)).1 = s.frames i ++ rest
  going : s.ended = none → ∀ i ext,
    framesFor i (worker none (s.life.queue ++ ext)).1 = s.frames i ++ framesFor i (worker s.handler (s.life.queue.drop s.taken ++ ext)).1

theorem Inv.new : Inv Sess.new :=
  ⟨(fun h hh => by cases hh), (fun h hh => by cases hh), (fun j a ha => by cases ha), fun i ext => ⟨_, rfl⟩, fun _ i ext => rfl⟩

/-- Changes of flags of adapters, new adapters and new messages. -/
theorem Inv.change {s t : Sess} (h : Inv s) (ht : s.taken ≤ s.life.queue.length) (h1 : t.taken = s.taken) (h2 : t.handler = s.handler) (h3 : t.ended = s.ended)
    (h4 : ∀ (j : Nat) (a : Adapter), s.adapters[j]? = some a → ∃ b, t.adapters[j]? = some b ∧ b.sent = a.sent)
    (h5 : ∀ (j : Nat) (b : Adapter), t.adapters[j]? = some b → s.adapters[j]? = none → b.sent.drop 1 = [] ∧ (b.receiving = true → b.sent ≠ []))
    (h6 : ∀ (j : Nat) (a b : Adapter), s.adapters[j]? = some a → t.adapters[j]? = some b → b.receiving = true → a.receiving = true)
    (x : List (Msg Nat)) (h7 : t.life.queue = s.life.queue ++ x)
    (h8 : ∀ k, Msg.connect k ∈ x → ∃ a, s.adapters[k]? = some a ∧ a.sent ≠ []) : Inv t := by
  have keep : ∀ k : Nat, (∃ a : Adapter, s.adapters[k]? = some a ∧ a.sent ≠ []) → ∃ a : Adapter, t.adapters[k]? = some a ∧ a.sent ≠ [] := by
    rintro k ⟨a, ha, hs⟩
    obtain ⟨b, hb, he⟩ := h4 k a ha
    exact ⟨b, hb, by rw [he]; exact hs⟩
  have hfr : ∀ i, t.frames i = s.frames i := by
    intro i
    unfold Sess.frames
    rcases hs : s.adapters[i]? with _ | a
    · rcases hb : t.adapters[i]? with _ | b
      · rfl
      · exact (h5 i b hb hs).1
    · obtain ⟨b, hb, he⟩ := h4 i a hs
      rw [hb]
      simp only [he]
  refine ⟨?_, ?_, ?_, ?_, ?_⟩
  · intro k hk
    rw [h2] at hk
    exact keep k (h.handler k hk)
  · intro k hk
    rw [h7, List.mem_append] at hk
    rcases hk with hk | hk
    · exact keep k (h.queue k hk)
    · exact keep k (h8 k hk)
  · intro j b hb hr
    rcases hs : s.adapters[j]? with _ | a
    · exact (h5 j b hb hs).2 hr
    · obtain ⟨c, hc, he⟩ := h4 j a hs
      rw [hb] at hc; cases hc
      rw [he]
      exact h.receiving j a hs (h6 j a b hs hb hr)
  · intro i ext
    rw [h7, List.append_assoc, hfr]
    exact h.sent i (x ++ ext)
  · intro he i ext
    rw [h3] at he
    rw [h7, List.append_assoc, hfr, h2, h1, h.going he i (x ++ ext), List.drop_append_of_le_length ht, List.append_assoc]

theorem framesFor_cons (i h : Nat) (d : Bytes) (l : List (Nat × Bytes)) :
    framesFor i ((h, d) :: l) = (if h = i then [d] else []) ++ framesFor i l := by
  unfold framesFor
  by_cases hi : h = i
  · simp [hi]
  · simp [hi]

theorem Inv.work {s : Sess} (h : Inv s) : Inv s.work := by
  have hdrop : ∀ m, s.life.queue[s.taken]? = some m → s.life.queue.drop s.taken = m :: s.life.queue.drop (s.taken + 1) := by
    intro m hm
    obtain ⟨hl, he⟩ := List.getElem?_eq_some_iff.mp hm
    rw [List.drop_eq_getElem_cons hl, he]
  rcases work_cases s with ⟨e, -⟩ | ⟨hw, hq, e⟩ | ⟨k, hw, hq, e⟩ | ⟨m, x, hw, -, hq, -, e⟩ | ⟨m, d, hw, hp, hq, hf, e⟩
  · rw [e]; exact h
  · rw [e]
    exact ⟨h.handler, h.queue, h.receiving, h.sent, fun he => by cases he⟩
  · rw [e]
    refine ⟨?_, h.queue, h.receiving, h.sent, ?_⟩
    · intro j hj
      cases hj
      exact h.queue k (List.mem_of_getElem? hq)
    · intro he i ext
      have := h.going hw.2 i ext
      rw [hdrop _ hq, List.cons_append] at this
      simp only [worker] at this
      exact this
  · rw [e]
    exact ⟨h.handler, h.queue, h.receiving, h.sent, fun he => by cases he⟩
  · rw [e]
    have hgo := fun i ext => h.going hw.2 i ext
    simp only [hdrop _ hq, List.cons_append, worker_ok _ _ hp _ hf] at hgo
    rcases send_cases { s with taken := s.taken + 1 } d with ⟨e', hn⟩ | ⟨k, a, hk, ha, hc, e'⟩ | ⟨k, a, hk, ha, hc, e'⟩
    · rw [e']
      simp only at hn
      refine ⟨h.handler, h.queue, h.receiving, h.sent, ?_⟩
      intro he i ext
      have := hgo i ext
      rcases hh : s.handler with _ | k
      · rw [hh] at this
        exact this
      · obtain ⟨a, ha, -⟩ := h.handler k hh
        rw [hn k hh] at ha
        cases ha
    · rw [e']
      exact ⟨h.handler, h.queue, h.receiving, h.sent, fun he => by cases he⟩
    · rw [e']
      simp only at hk ha
      have hkl : k < s.adapters.length := (List.getElem?_eq_some_iff.mp ha).1
      have hne : a.sent ≠ [] := by
        obtain ⟨b, hb, hb'⟩ := h.handler k hk
        rw [ha] at hb; cases hb
        exact hb'
      have keep : ∀ j : Nat, (∃ a : Adapter, s.adapters[j]? = some a ∧ a.sent ≠ []) →
          ∃ b : Adapter, (s.adapters.set k { a with sent := a.sent ++ [d] })[j]? = some b ∧ b.sent ≠ [] := by
        rintro j ⟨b, hb, hb'⟩
        by_cases hj : k = j
        · subst hj
          exact ⟨_, List.getElem?_set_self hkl, by simp⟩
        · exact ⟨b, by rw [List.getElem?_set_ne hj]; exact hb, hb'⟩
      have hfr : ∀ i, Sess.frames { s with taken := s.taken + 1, adapters := s.adapters.set k { a with sent := a.sent ++ [d] } } i =
          s.frames i ++ (if k = i then [d] else []) := by
        intro i
        unfold Sess.frames
        by_cases hi : k = i
        · subst hi
          simp only [List.getElem?_set_self hkl, ha, if_true]
          rw [List.drop_append_of_le_length (by have := List.length_pos_iff.mpr hne; omega)]
        · simp only [List.getElem?_set_ne hi, if_neg hi, List.append_nil]
      have hgoing : ∀ i ext, framesFor i (worker none (s.life.queue ++ ext)).1 =
          s.frames i ++ (if k = i then [d] else []) ++ framesFor i (worker (some k) (s.life.queue.drop (s.taken + 1) ++ ext)).1 := by
        intro i ext
        have := hgo i ext
        rw [hk] at this
        simp only [framesFor_cons] at this
        rw [this, List.append_assoc]
      refine ⟨fun j hj => keep j (h.handler j hj), fun j hj => keep j (h.queue j hj), ?_, ?_, ?_⟩
      · intro j b hb hr
        simp only at hb
        by_cases hj : k = j
        · subst hj
          rw [List.getElem?_set_self hkl] at hb
          cases hb
          simp
        · rw [List.getElem?_set_ne hj] at hb
          exact h.receiving j b hb hr
      · intro i ext
        refine ⟨framesFor i (worker (some k) (s.life.queue.drop (s.taken + 1) ++ ext)).1, ?_⟩
        rw [hfr]; exact hgoing i ext
      · intro he i ext
        rw [hfr]
        simp only [hk]
        exact hgoing i ext

theorem Inv.works (n : Nat) {s : Sess} (h : Inv s) : Inv (s.works n) := by
  induction n generalizing s with
  | zero => exact h
  | succ n ih => exact ih h.work

theorem Inv.stopManager {s : Sess} (h : Inv s) (ht : s.taken ≤ s.life.queue.length) : Inv s.stopManager.1 := by
  obtain ⟨q, hq⟩ := life_step_queue s.life .stop
  have hq' : s.life.stop.1.queue = s.life.queue ++ q := hq
  have hnc : ∀ k, Msg.connect k ∉ q := by
    intro k hk
    unfold Life.stop at hq'
    split at hq'
    · have : s.life.queue ++ [Msg.stop] = s.life.queue ++ q := by
        rw [← hq']
        simp only
        split <;> rfl
      have := List.append_cancel_left this
      rw [← this] at hk
      simp at hk
    · have := List.append_cancel_left (show s.life.queue ++ [] = s.life.queue ++ q by simpa using hq')
      rw [← this] at hk
      cases hk
  have key : Inv { s with life := s.life.stop.1 } :=
    h.change ht rfl rfl rfl (fun j a ha => ⟨a, ha, rfl⟩) (fun j b hb hs => by simp only at hb; rw [hs] at hb; cases hb)
      (fun j a b ha hb hr => by simp only at hb; rw [ha] at hb; cases hb; exact hr) q hq' (fun k hk => absurd hk (hnc k))
  unfold Sess.stopManager
  split
  · rename_i l hl
    rw [hl] at key
    split
    · exact key.works _
    · exact key
  · rename_i l x hl
    rw [hl] at key
    exact key

theorem Inv.step {s : Sess} (h : Inv s) (ht : s.taken ≤ s.life.queue.length) (e : Event) : Inv (s.step e) := by
  have hmod : ∀ (k : Nat) (f : Adapter → Adapter), (∀ a, (f a).sent = a.sent ∧ ((f a).receiving = true → a.receiving = true)) →
      Inv { s with adapters := s.adapters.modify k f } := by
    intro k f hf
    refine h.change ht rfl rfl rfl ?_ ?_ ?_ [] (by simp) (fun k hk => by cases hk)
    · intro j a ha
      refine ⟨if k = j then f a else a, ?_, ?_⟩
      · simp only [List.getElem?_modify, ha, Option.map_eq_map, Option.map_some]
      · split
        · exact (hf a).1
        · rfl
    · intro j b hb hs
      simp only [List.getElem?_modify, hs, Option.map_eq_map, Option.map_none] at hb
      cases hb
    · intro j a b ha hb hr
      simp only [List.getElem?_modify, ha, Option.map_eq_map, Option.map_some, Option.some.injEq] at hb
      rw [← hb] at hr
      split at hr
      · exact (hf a).2 hr
      · exact hr
  have hput : ∀ m : Msg Nat, (∀ k, m = .connect k → ∃ a, s.adapters[k]? = some a ∧ a.sent ≠ []) →
      Inv { s with life := (s.life.step (.put m)).1 } := by
    intro m hm
    refine h.change ht rfl rfl rfl (fun j a ha => ⟨a, ha, rfl⟩) (fun j b hb hs => by simp only at hb; rw [hs] at hb; cases hb)
      (fun j a b ha hb hr => by simp only at hb; rw [ha] at hb; cases hb; exact hr) [m] rfl ?_
    intro k hk
    exact hm k (by simpa using (List.mem_singleton.mp hk).symm)
  cases e with
  | connect o =>
    show Inv (s.connectTcp o).1
    have happ : ∀ (a : Adapter) (l : Life Nat), l.queue = s.life.queue → a.sent.drop 1 = [] → (a.receiving = true → a.sent ≠ []) →
        Inv { s with adapters := s.adapters ++ [a], current := some s.adapters.length, life := l } := by
      intro a l hl ha hr
      refine h.change ht rfl rfl rfl ?_ ?_ ?_ [] (by simp [hl]) (fun k hk => by cases hk)
      · intro j b hb
        exact ⟨b, by simp only [List.getElem?_append_left (List.getElem?_eq_some_iff.mp hb).1]; exact hb, rfl⟩
      · intro j b hb hs
        have hj : s.adapters.length ≤ j := List.getElem?_eq_none_iff.mp hs
        simp only [List.getElem?_append_right hj] at hb
        have hb' : b = a := by
          rcases hz : j - s.adapters.length with _ | n
          · rw [hz] at hb; simpa using hb.symm
          · rw [hz] at hb; simp at hb
        subst hb'
        exact ⟨ha, hr⟩
      · intro j b c hb hc hr'
        simp only [List.getElem?_append_left (List.getElem?_eq_some_iff.mp hb).1] at hc
        rw [hb] at hc; cases hc
        exact hr'
    have hstart : s.life.start.1.queue = s.life.queue := by
      unfold Life.start
      simp only
      split <;> rfl
    unfold Sess.connectTcp
    cases o with
    | refused => exact happ _ _ rfl rfl (fun hh => by cases hh)
    | failed => exact happ _ _ rfl rfl (fun hh => by cases hh)
    | accepted =>
      simp only [Adapter.connect]
      split
      · rename_i l x hl
        rw [hl] at hstart
        exact happ _ _ hstart rfl (fun hh => by cases hh)
      · rename_i l hl
        rw [hl] at hstart
        exact happ _ _ hstart rfl (fun _ => by simp [Adapter.start])
  | stop inside =>
    show Inv (s.stop inside).1
    unfold Sess.stop
    split
    · exact h.stopManager ht
    · split
      · exact h.stopManager ht
      · rename_i i _ _ a ha
        have hst : ∀ inside, (a.stop inside).1.sent = a.sent ∧ ((a.stop inside).1.receiving = true → a.receiving = true) := by
          intro inside
          unfold Adapter.stop
          split
          · exact ⟨rfl, id⟩
          · split
            · exact ⟨rfl, fun hh => by cases hh⟩
            · exact ⟨rfl, id⟩
        have hset : ∀ b : Adapter, b.sent = a.sent → (b.receiving = true → a.receiving = true) →
            Inv { s with adapters := s.adapters.set i b } := by
          intro b hb hb'
          have hil := (List.getElem?_eq_some_iff.mp ha).1
          refine h.change ht rfl rfl rfl ?_ ?_ ?_ [] (by simp) (fun k hk => by cases hk)
          · intro j c hc
            by_cases hj : i = j
            · subst hj
              rw [ha] at hc; cases hc
              exact ⟨b, List.getElem?_set_self hil, hb⟩
            · exact ⟨c, by simp only [List.getElem?_set_ne hj]; exact hc, rfl⟩
          · intro j c hc hs
            have : s.adapters.length ≤ j := List.getElem?_eq_none_iff.mp hs
            have hc' : (s.adapters.set i b)[j]? = some c := hc
            rw [List.getElem?_eq_none (by simp; omega)] at hc'
            cases hc'
          · intro j c e hc he hr
            have he' : (s.adapters.set i b)[j]? = some e := he
            by_cases hj : i = j
            · subst hj
              rw [List.getElem?_set_self hil] at he'
              cases he'
              rw [ha] at hc; cases hc
              exact hb' hr
            · rw [List.getElem?_set_ne hj, hc] at he'
              cases he'
              exact hr
        obtain ⟨g1, g2⟩ := hst (decide (inside = some i))
        split
        · rename_i b x hb
          rw [hb] at g1 g2
          exact hset b g1 g2
        · rename_i b hb
          rw [hb] at g1 g2
          exact (hset b g1 g2).stopManager ht
  | acknowledged k =>
    unfold Sess.step
    simp only
    split
    · rename_i a ha
      split
      · rename_i hr
        refine hput _ ?_
        intro j hj
        cases hj
        exact ⟨a, ha, h.receiving k a ha hr⟩
      · exact h
    · exact h
  | put m =>
    unfold Sess.step
    simp only
    split
    · rename_i hm
      refine hput m ?_
      intro k hk
      subst hk
      cases hm
    · exact h
  | closed k => exact hmod k _ (fun a => ⟨rfl, fun hh => by cases hh⟩)
  | resets k =>
    refine hmod k _ (fun a => ?_)
    split
    · exact ⟨rfl, fun hh => by cases hh⟩
    · exact ⟨rfl, id⟩
  | work => exact h.work

theorem reach_inv (es : List Event) : Inv (Sess.new.run es) := by
  suffices hh : ∀ (es : List Event) (s : Sess), Inv s → s.taken ≤ s.life.queue.length → Inv (s.run es) from
    hh es _ Inv.new (Nat.le_refl _)
  intro es
  induction es with
  | nil => intro s h _; exact h
  | cons e es ih => intro s h ht; exact ih _ (h.step ht e) (step_taken s e ht)

end Apx.Connect
