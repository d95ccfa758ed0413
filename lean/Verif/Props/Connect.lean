import Verif.Proofs.Connect2

/-! C74: connecting and stopping a client. C75: what of the queue reaches the connection. -/

namespace Apx.Connect
open Manager

/-- The number of adapters made. -/
theorem reach_open (before use : List Event) (hb : Unconnected before) (i : Nat)
    (hi : i = (Sess.new.run before).adapters.length) (hu : InUse i use) :
    Open i (Sess.new.run (before ++ .connect .accepted :: use)) := by
  obtain ⟨t, ht, ho, -⟩ := (Fresh.new.run before hb).accept
  rw [← hi] at ho
  have hstep : (Sess.new.run before).step (.connect .accepted) = t := by
    show ((Sess.new.run before).connectTcp .accepted).1 = t
    rw [ht]
  rw [run_append]
  show Open i (((Sess.new.run before).step (.connect .accepted)).run use)
  rw [hstep]
  exact ho.run use hu

/-- C74: as long as no connection was established, whatever attempts and other calls were made,
`connect_tcp` returns `False` if the server refuses, raises `OSError` if the attempt fails otherwise,
and returns `True` if the server accepts; then the manager's thread and the receive thread run and the
greeting was sent. Calls of `stop` raise nothing. -/
theorem C74_connect (before : List Event) (hb : Unconnected before) :
    let s := Sess.new.run before
    (s.connectTcp .refused).2 = .ok false ∧ (s.connectTcp .failed).2 = .error .osError ∧
    (∃ t a, s.connectTcp .accepted = (t, .ok true) ∧ t.Working ∧ t.current = some s.adapters.length ∧
      t.adapters = s.adapters ++ [a] ∧ a.receiving = true ∧ a.opened = true ∧ a.sent = [greeting]) ∧
    (∀ inside, (s.stop inside).2 = none) ∧ ¬s.Working := by
  intro s
  have hf := Fresh.new.run before hb
  obtain ⟨t, ht, ho, hw, ha, -⟩ := hf.accept
  refine ⟨rfl, rfl, ⟨t, _, ht, hw, ho.current, ha, rfl, rfl, rfl⟩, ?_, ?_⟩
  · intro inside
    have hstop : ∀ u : Sess, u.life.active = false → u.stopManager.2 = none := by
      intro u hu
      unfold Sess.stopManager Life.stop
      simp only [hu, Bool.false_eq_true, if_false]
    unfold Sess.stop
    split
    · exact hstop _ hf.active
    · split
      · exact hstop _ hf.active
      · rename_i a ha
        have := hf.adapters a (List.mem_of_getElem? ha)
        subst this
        have hst : ∀ b, Adapter.new.stop b = (Adapter.new, none) := by
          intro b
          unfold Adapter.stop Adapter.new
          simp
        rw [hst]
        exact hstop _ hf.active
  · intro hw
    have h1 := hw.1
    rw [hf.running] at h1
    cases h1

/-- C74: the greeting is the text that names the protocol and the header format, and its message on the
socket, framed as any other message, is one byte with its length and that text. -/
theorem C74_greeting :
    greeting.map (fun b => Char.ofNat b.toNat) = "RMFP/1.0\nNumHeader-Format:32\n\n".toList ∧
    Socket.send greeting = Socket.greeting ∧ Socket.greeting = .ok (30 :: greeting) := by
  decide +kernel

/-- C74, the part that holds for `stop`: after the first connection, and whatever happened while it was
used (including that the peer closed it, but not that it reset it), `stop()` called by any thread but
the receive thread returns, and then no thread of the client runs and no connection is open. -/
theorem C74_stop_partial (before use : List Event) (hb : Unconnected before)
    (hu : InUse (Sess.new.run before).adapters.length use) (inside : Option Nat)
    (hin : inside ≠ some (Sess.new.run before).adapters.length) :
    let s := Sess.new.run (before ++ .connect .accepted :: use)
    (s.stop inside).2 = none ∧ (s.stop inside).1.Quiet := by
  intro s
  have ho := reach_open before use hb _ rfl hu
  obtain ⟨t, h1, h2, -, -, -, -, h3, -⟩ := ho.stop (reach_taken _) inside hin
  rw [h1]
  refine ⟨rfl, h2, ?_⟩
  intro a ha
  obtain ⟨j, hj⟩ := List.mem_iff_getElem?.mp ha
  exact h3 j a hj

/-- C74 is violated: a second `stop()` always raises `OSError`, whatever happens in between (other
than attempts to connect). -/
theorem C74_stop_again_violated (before use after : List Event) (hb : Unconnected before)
    (hu : InUse (Sess.new.run before).adapters.length use) (ha : ∀ o, Event.connect o ∉ after) (inside inside' : Option Nat)
    (hin : inside ≠ some (Sess.new.run before).adapters.length) :
    let s := Sess.new.run (before ++ .connect .accepted :: use)
    (s.stop inside).2 = none ∧ (((s.stop inside).1.run after).stop inside').2 = some .osError := by
  intro s
  have ho := reach_open before use hb _ rfl hu
  obtain ⟨t, h1, h2, h4, h5, h6, h7, h3, -⟩ := ho.stop (reach_taken _) inside hin
  refine ⟨by rw [h1], ?_⟩
  rw [h1]
  have hst : Stuck (Sess.new.run before).adapters.length t := by
    refine ⟨h5, ?_⟩
    have hlen : (Sess.new.run before).adapters.length < t.adapters.length := by rw [h7, ho.length]; omega
    obtain ⟨a, ha'⟩ : ∃ a, s.adapters[(Sess.new.run before).adapters.length]? = some a :=
      ⟨_, List.getElem?_eq_getElem (by rw [ho.length]; omega)⟩
    obtain ⟨c1, -⟩ := ho.this a ha'
    obtain ⟨b, hb'⟩ : ∃ b, t.adapters[(Sess.new.run before).adapters.length]? = some b := ⟨_, List.getElem?_eq_getElem hlen⟩
    have hc : b.isConnected = true := by
      obtain ⟨t', h1', -, -, -, -, -, -, h8⟩ := ho.stop (reach_taken _) inside hin
      rw [h1] at h1'
      cases h1'
      rw [h8 a b ha' hb']; exact c1
    exact ⟨b, hb', hc, Or.inl ((h3 _ b hb').2 hc)⟩
  have := (hst.run after ha).stop inside'
  simp only [this]

/-- C74 is violated: a client that was connected and stopped can never connect again. Whatever is done
afterwards, `connect_tcp` to a server that accepts raises `AttributeError`, leaving a connection behind
that was greeted and that nobody reads from. -/
theorem C74_reconnect_violated (before use after : List Event) (hb : Unconnected before)
    (hu : InUse (Sess.new.run before).adapters.length use) (inside : Option Nat)
    (hin : inside ≠ some (Sess.new.run before).adapters.length) :
    let t := ((Sess.new.run (before ++ .connect .accepted :: use)).stop inside).1.run after
    (t.connectTcp .accepted).2 = .error .attributeError ∧
    (t.connectTcp .accepted).1.adapters = t.adapters ++ [⟨true, false, true, false, false, [greeting]⟩] := by
  intro t
  have ho := reach_open before use hb _ rfl hu
  obtain ⟨t', h1, h2, h4, -⟩ := ho.stop (reach_taken _) inside hin
  have hg : t.life.worker = .gone := by
    show ((Sess.stop _ inside).1.run after).life.worker = _
    rw [h1]
    exact run_gone after t' h4
  have hst : t.life.start = ({ t.life with active := true }, some .attributeError) := by
    unfold Life.start
    simp only [hg]
  unfold Sess.connectTcp
  simp only [Adapter.connect, hst]
  exact ⟨trivial, rfl⟩

/-- C74 is violated: while a connection is used, a second `connect_tcp` raises `RuntimeError` if the
server accepts it; and whatever its outcome, no later call, of `stop` in particular, ever closes the
first connection or ends its receive thread. -/
theorem C74_second_violated (before use after : List Event) (hb : Unconnected before) (i : Nat)
    (hi : i = (Sess.new.run before).adapters.length) (hu : InUse i use) (hc : Event.closed i ∉ use) (o : Attempt)
    (hac : Event.closed i ∉ after) (har : Event.resets i ∉ after) :
    let s := Sess.new.run (before ++ .connect .accepted :: use)
    (s.connectTcp .accepted).2 = .error .runtimeError ∧
    ∃ a, ((s.connectTcp o).1.run after).adapters[i]? = some a ∧ a.opened = true ∧ a.receiving = true := by
  intro s
  have ho := reach_open before use hb i hi hu
  refine ⟨?_, ?_⟩
  · have hst : s.life.start = (s.life, some .runtimeError) := by
      obtain ⟨ops, hops⟩ := reach_life (before ++ .connect .accepted :: use)
      exact C60_running_partial ops s.life hops ho.worker
    unfold Sess.connectTcp
    simp only [Adapter.connect, hst]
  · -- the first adapter is receiving
    have hrec : ∃ a, s.adapters[i]? = some a ∧ a.receiving = true := by
      obtain ⟨t, ht, ho', -, hta, -⟩ := (Fresh.new.run before hb).accept
      rw [← hi] at ho'
      have hstep : (Sess.new.run before).step (.connect .accepted) = t := by
        show ((Sess.new.run before).connectTcp .accepted).1 = t
        rw [ht]
      have hs : s = t.run use := by
        show Sess.new.run (before ++ .connect .accepted :: use) = _
        rw [run_append]
        show ((Sess.new.run before).step (.connect .accepted)).run use = _
        rw [hstep]
      have key : ∀ (us : List Event) (u : Sess), Open i u → InUse i us → Event.closed i ∉ us →
          (∃ a, u.adapters[i]? = some a ∧ a.receiving = true) → ∃ a, (u.run us).adapters[i]? = some a ∧ a.receiving = true := by
        intro us
        induction us with
        | nil => intro u _ _ _ h; exact h
        | cons e us ih =>
          intro u hou hus hcl h
          obtain ⟨a, ha, hr⟩ := h
          obtain ⟨u1, u2, u3⟩ := hus
          simp only [List.mem_cons, not_or] at u1 u2 u3 hcl
          refine ih (u.step e) (hou.step e (fun o hh => (u1 o).1 hh.symm) (fun j hh => (u2 j).1 hh.symm) (fun hh => u3.1 hh.symm))
            ⟨fun o => (u1 o).2, fun j => (u2 j).2, u3.2⟩ hcl.2 ?_
          cases e with
          | connect o => exact absurd rfl (u1 o).1
          | stop j => exact absurd rfl (u2 j).1
          | acknowledged k =>
            unfold Sess.step
            simp only
            split
            · split
              · exact ⟨a, ha, hr⟩
              · exact ⟨a, ha, hr⟩
            · exact ⟨a, ha, hr⟩
          | put m =>
            unfold Sess.step
            simp only
            split
            · exact ⟨a, ha, hr⟩
            · exact ⟨a, ha, hr⟩
          | closed k =>
            have hne : k ≠ i := by rintro rfl; exact hcl.1 rfl
            exact ⟨a, by simp only [Sess.step, List.getElem?_modify, if_neg hne, ha, Option.map_eq_map, Option.map_some], hr⟩
          | resets k =>
            have hne : k ≠ i := by rintro rfl; exact u3.1 rfl
            exact ⟨a, by simp only [Sess.step, List.getElem?_modify, if_neg hne, ha, Option.map_eq_map, Option.map_some], hr⟩
          | work =>
            obtain ⟨b, hb', hf⟩ := (work_same u).flags i a ha
            exact ⟨b, hb', (flags_eq hf).2.2.2.2.trans hr⟩
      rw [hs]
      refine key use t ho' hu hc ⟨⟨true, true, true, false, true, [greeting]⟩, ?_, rfl⟩
      rw [hta, hi]; simp
    obtain ⟨a, ha, hr⟩ := hrec
    have hop := (ho.this a ha).2.2.1
    obtain ⟨n, hn⟩ := connectTcp_adapters s o
    have hlt : i < s.adapters.length := by rw [ho.length]; omega
    obtain ⟨-, b, hb', hf⟩ := run_other after (s.connectTcp o).1 i
      (by rw [connectTcp_current]; intro h; have := Option.some.inj h; omega) hac har a
      (by rw [hn, List.getElem?_append_left hlt]; exact ha)
    obtain ⟨-, -, f3, -, f5⟩ := flags_eq hf
    exact ⟨b, hb', f3.trans hop, f5.trans hr⟩

/-- C74 is violated when the server has reset the connection: every `stop()` from then on raises
`OSError` and has no effect; a manager's thread that runs goes on running. -/
theorem C74_reset_violated (before use after : List Event) (hb : Unconnected before) (i : Nat)
    (hi : i = (Sess.new.run before).adapters.length) (hu : InUse i use) (ha : ∀ o, Event.connect o ∉ after) (inside : Option Nat) :
    let s := Sess.new.run (before ++ .connect .accepted :: use ++ .resets i :: after)
    s.stop inside = (s, some .osError) := by
  intro s
  have ho := reach_open before use hb i hi hu
  have hst : Stuck i ((Sess.new.run (before ++ .connect .accepted :: use)).step (.resets i)) := by
    obtain ⟨a, ha'⟩ : ∃ a, (Sess.new.run (before ++ .connect .accepted :: use)).adapters[i]? = some a :=
      ⟨_, List.getElem?_eq_getElem (by rw [ho.length]; omega)⟩
    obtain ⟨c1, -⟩ := ho.this a ha'
    refine ⟨ho.current, { a with receiving := false, reset := true }, ?_, c1, Or.inr rfl⟩
    simp only [Sess.step, List.getElem?_modify, if_true, ha', Option.map_eq_map, Option.map_some, c1]
  have hs : s = ((Sess.new.run (before ++ .connect .accepted :: use)).step (.resets i)).run after := by
    show Sess.new.run (before ++ .connect .accepted :: use ++ .resets i :: after) = _
    rw [run_append]
    rfl
  rw [hs]
  exact (hst.run after ha).stop inside

/-- C74 is violated when `stop()` is called by the data listener, that is by the receive thread: it
raises `RuntimeError`, the manager's thread is not stopped, and every later `stop()` raises `OSError`
and has no effect. -/
theorem C74_listener_violated (before use after : List Event) (hb : Unconnected before) (i : Nat)
    (hi : i = (Sess.new.run before).adapters.length) (hu : InUse i use) (ha : ∀ o, Event.connect o ∉ after) (inside : Option Nat) :
    let s := Sess.new.run (before ++ .connect .accepted :: use)
    (s.stop (some i)).2 = some .runtimeError ∧ ((s.stop (some i)).1.Working ↔ s.Working) ∧
    ((s.stop (some i)).1.run after).stop inside = ((s.stop (some i)).1.run after, some .osError) := by
  intro s
  have ho := reach_open before use hb i hi hu
  have hlt : i < s.adapters.length := by rw [ho.length]; omega
  obtain ⟨a, ha'⟩ : ∃ a, s.adapters[i]? = some a := ⟨_, List.getElem?_eq_getElem hlt⟩
  obtain ⟨c1, c2, c3, c4⟩ := ho.this a ha'
  have hst : a.stop true = ({ a with opened := false, receiving := false }, some .runtimeError) := by
    unfold Adapter.stop
    rw [if_neg (by simp [c3, c4]), if_pos c2]
    simp
  have hres : s.stop (some i) = ({ s with adapters := s.adapters.set i { a with opened := false, receiving := false } }, some .runtimeError) := by
    have hcur : s.current = some i := ho.current
    generalize s = u at hcur ha'
    unfold Sess.stop
    simp only [hcur, ha', decide_true, hst]
  refine ⟨by rw [hres], by rw [hres]; exact Iff.rfl, ?_⟩
  have hstuck : Stuck i (s.stop (some i)).1 := by
    rw [hres]
    exact ⟨ho.current, _, List.getElem?_set_self hlt, c1, Or.inl rfl⟩
  exact (hstuck.run after ha).stop inside

section Examples

/-- Two refused attempts, a connection that is acknowledged and used. -/
def cnUse : List Event := [.acknowledged 2, .work, .put (.writeData 0 [1]), .work, .put (.writeData 0 [2])]

example : Unconnected [.connect .refused, .connect .failed] ∧ InUse 2 cnUse ∧
    (Sess.new.run [.connect .refused, .connect .failed]).adapters.length = 2 := by
  refine ⟨by unfold Unconnected; decide, ⟨fun o => by cases o <;> decide, fun j => ?_, by decide⟩, by decide⟩
  simp [cnUse]

example :
    let s := Sess.new.run ([.connect .refused, .connect .failed] ++ .connect .accepted :: cnUse)
    (s.stop none).2 = none ∧ (s.stop none).1.Quiet ∧ ¬s.Quiet ∧ ((s.stop none).1.stop none).2 = some .osError ∧
    ((s.stop none).1.connectTcp .accepted).2 = .error .attributeError ∧
    (s.connectTcp .accepted).2 = .error .runtimeError ∧ ¬((s.connectTcp .accepted).1.stop none).1.Quiet ∧
    (s.stop (some 2)).2 = some .runtimeError ∧ (s.stop (some 2)).1.Working := by decide +kernel

end Examples

/-- C75: in every history, the frames sent on a connection after the greeting are the first ones of
those that the manager's queue holds for it (in order, and each once: see C41). -/
theorem C75_in_order (es : List Event) (i : Nat) :
    let s := Sess.new.run es
    ∃ rest, ((worker none s.life.queue).1.filter fun p => p.1 = i).map Prod.snd = s.frames i ++ rest := by
  intro s
  have := (reach_inv es).sent i []
  rw [List.append_nil] at this
  exact this

/-- C75: as long as the manager's thread runs and has emptied its queue, everything was sent. -/
theorem C75_drained_partial (es : List Event) (i : Nat) :
    let s := Sess.new.run es
    s.Working → s.taken = s.life.queue.length →
      s.frames i = ((worker none s.life.queue).1.filter fun p => p.1 = i).map Prod.snd := by
  intro s hw ht
  have := (reach_inv es).going hw.2 i []
  rw [List.append_nil, List.append_nil, show (Sess.new.run es).taken = _ from ht, List.drop_length] at this
  simp only [worker] at this
  rw [show framesFor i ([] : List (Nat × Bytes)) = [] from rfl, List.append_nil] at this
  exact this.symm

/-- A connection that is closed gets no frames any more. -/
theorem closed_frames (es : List Event) (s : Sess) (i : Nat) (a : Adapter) (ha : s.adapters[i]? = some a) (ho : a.opened = false) :
    (s.run es).frames i = s.frames i := by
  suffices h : ∃ b : Adapter, (s.run es).adapters[i]? = some b ∧ b.sent = a.sent by
    obtain ⟨b, hb, he⟩ := h
    unfold Sess.frames
    rw [hb, ha]
    simp only [he]
  induction es generalizing s a with
  | nil => exact ⟨a, ha, rfl⟩
  | cons e es ih =>
    have hwork : ∀ (u : Sess) (b : Adapter), u.adapters[i]? = some b → b.opened = false → u.work.adapters[i]? = some b := by
      intro v b hb hob
      rcases work_cases v with ⟨e, -⟩ | ⟨-, -, e⟩ | ⟨k, -, -, e⟩ | ⟨m, x, -, -, -, -, e⟩ | ⟨m, d, -, -, -, -, e⟩
      · rw [e]; exact hb
      · rw [e]; exact hb
      · rw [e]; exact hb
      · rw [e]; exact hb
      · rw [e]
        rcases send_cases { v with taken := v.taken + 1 } d with ⟨e, -⟩ | ⟨k, x, -, -, -, e⟩ | ⟨k, x, -, hx, hx', e⟩
        · rw [e]; exact hb
        · rw [e]; exact hb
        · rw [e]
          simp only at hx ⊢
          rw [List.getElem?_set_ne]
          · exact hb
          · rintro rfl
            rw [hb] at hx; cases hx
            exact hx' (Or.inl hob)
    have hworks : ∀ (n : Nat) (u : Sess) (b : Adapter), u.adapters[i]? = some b → b.opened = false → (u.works n).adapters[i]? = some b := by
      intro n
      induction n with
      | zero => intro u b hb _; exact hb
      | succ n ihn => intro u b hb hob; exact ihn u.work b (hwork u b hb hob) hob
    have hman : ∀ (u : Sess) (b : Adapter), u.adapters[i]? = some b → b.opened = false → u.stopManager.1.adapters[i]? = some b := by
      intro u b hb hob
      unfold Sess.stopManager
      split
      · split
        · exact hworks _ _ b hb hob
        · exact hb
      · exact hb
    have hmod : ∀ (k : Nat) (f : Adapter → Adapter), (∀ a, (f a).sent = a.sent ∧ (f a).opened = a.opened) →
        ∃ b : Adapter, (s.adapters.modify k f)[i]? = some b ∧ b.sent = a.sent ∧ b.opened = false := by
      intro k f hf
      refine ⟨if k = i then f a else a, ?_, ?_, ?_⟩
      · simp only [List.getElem?_modify, ha, Option.map_eq_map, Option.map_some]
      · split
        · exact (hf a).1
        · rfl
      · split
        · exact (hf a).2.trans ho
        · exact ho
    have hstep : ∃ b : Adapter, (s.step e).adapters[i]? = some b ∧ b.sent = a.sent ∧ b.opened = false := by
      cases e with
      | connect o =>
        obtain ⟨n, hn⟩ := connectTcp_adapters s o
        refine ⟨a, ?_, rfl, ho⟩
        show (s.connectTcp o).1.adapters[i]? = _
        rw [hn, List.getElem?_append_left (List.getElem?_eq_some_iff.mp ha).1]
        exact ha
      | stop inside =>
        show ∃ b : Adapter, (s.stop inside).1.adapters[i]? = some b ∧ _
        unfold Sess.stop
        split
        · exact ⟨a, hman s a ha ho, rfl, ho⟩
        · split
          · exact ⟨a, hman s a ha ho, rfl, ho⟩
          · rename_i j _ _ c hc
            have hst : ∀ inside, (c.stop inside).1.sent = c.sent ∧ (c.opened = false → (c.stop inside).1.opened = false) := by
              intro inside
              unfold Adapter.stop
              split
              · exact ⟨rfl, id⟩
              · split
                · exact ⟨rfl, fun _ => rfl⟩
                · exact ⟨rfl, id⟩
            obtain ⟨g1, g2⟩ := hst (decide (inside = some j))
            have hset : ∀ d : Adapter, d.sent = c.sent → (c.opened = false → d.opened = false) →
                ∃ b : Adapter, (s.adapters.set j d)[i]? = some b ∧ b.sent = a.sent ∧ b.opened = false := by
              intro d h1 h2
              by_cases hj : j = i
              · subst hj
                rw [ha] at hc; cases hc
                exact ⟨d, List.getElem?_set_self (List.getElem?_eq_some_iff.mp ha).1, h1, h2 ho⟩
              · exact ⟨a, by rw [List.getElem?_set_ne hj]; exact ha, rfl, ho⟩
            split
            · rename_i d x hd
              rw [hd] at g1 g2
              exact hset d g1 g2
            · rename_i d hd
              rw [hd] at g1 g2
              obtain ⟨b, hb, h1, h2⟩ := hset d g1 g2
              exact ⟨b, hman _ b hb h2, h1, h2⟩
      | acknowledged k =>
        unfold Sess.step
        simp only
        split
        · split
          · exact ⟨a, ha, rfl, ho⟩
          · exact ⟨a, ha, rfl, ho⟩
        · exact ⟨a, ha, rfl, ho⟩
      | put m =>
        unfold Sess.step
        simp only
        split
        · exact ⟨a, ha, rfl, ho⟩
        · exact ⟨a, ha, rfl, ho⟩
      | closed k => exact hmod k _ (fun a => ⟨rfl, rfl⟩)
      | resets k =>
        refine hmod k _ (fun a => ?_)
        split
        · exact ⟨rfl, rfl⟩
        · exact ⟨rfl, rfl⟩
      | work => exact ⟨a, hwork s a ha ho, rfl, ho⟩
    obtain ⟨b, hb, h1, h2⟩ := hstep
    obtain ⟨c, hc, h3⟩ := ih (s.step e) b hb h2
    exact ⟨c, hc, h3.trans h1⟩

/-- C75 is violated by `stop()`: it closes the connection before the manager's thread has emptied its
queue. What was not sent when `stop()` was called, however long before it was written, is never sent. -/
theorem C75_stop_violated (before use after : List Event) (hb : Unconnected before) (i : Nat)
    (hi : i = (Sess.new.run before).adapters.length) (hu : InUse i use) :
    let s := Sess.new.run (before ++ .connect .accepted :: use)
    (s.stop none).2 = none ∧ ((s.stop none).1.run after).frames i = s.frames i := by
  intro s
  have ho := reach_open before use hb i hi hu
  obtain ⟨t, h1, -, -, -, -, h7, h3, h8⟩ := ho.stop (reach_taken _) none (by simp)
  have hlt : i < s.adapters.length := by rw [ho.length]; omega
  have hlt' : i < t.adapters.length := by rw [h7]; exact hlt
  obtain ⟨a, ha⟩ : ∃ a, s.adapters[i]? = some a := ⟨_, List.getElem?_eq_getElem hlt⟩
  obtain ⟨b, hb'⟩ : ∃ b, t.adapters[i]? = some b := ⟨_, List.getElem?_eq_getElem hlt'⟩
  have hbe := h8 a b ha hb'
  rw [h1]
  refine ⟨rfl, ?_⟩
  rw [closed_frames after t i b hb' (by rw [hbe])]
  unfold Sess.frames
  rw [hb', ha]
  simp only [hbe]

example :
    let s := Sess.new.run ([.connect .refused, .connect .failed] ++ .connect .accepted :: cnUse)
    s.frames 2 = [[0, 0, 1]] ∧ (s.stop none).1.frames 2 = [[0, 0, 1]] ∧ s.work.frames 2 = [[0, 0, 1], [0, 0, 2]] ∧
    s.work.Working ∧ s.work.taken = s.work.life.queue.length := by decide +kernel

end Apx.Connect
