import Verif.Model.Concurrent
import Verif.Proofs.FileManager2

namespace Apx.Concurrent
open Manager

/-- Byte `k` of a file is only written by thread `owner k`: the calls thread `t` still makes. -/
def Owned (owner : Nat → Nat) (t : Nat) (todo : List (Int × Bytes)) : Prop :=
  ∀ w ∈ todo, ∀ k : Nat, w.1 ≤ k → (k : Int) < w.1 + w.2.length → owner k = t

/-- Byte `k` of the peer's copy, relative to what thread `owner k` is doing. -/
def Agrees (s : Sys) (copy : Bytes) (k : Nat) : Phase → Prop
  | .idle => copy[k]? = s.content.data[k]?
  | .wrote off len => (off ≤ k ∧ (k : Int) < off + len) ∨ copy[k]? = s.content.data[k]?
  | .hasRead off bs =>
    if off ≤ k ∧ (k : Int) < off + bs.length then bs[k - off.toNat]? = s.content.data[k]?
    else copy[k]? = s.content.data[k]?

/-- The range a thread works on lies in the file and belongs to it. -/
def PhaseOk (owner : Nat → Nat) (n : Nat) (t : Nat) : Phase → Prop
  | .idle => True
  | .wrote off len => 0 ≤ off ∧ off + len ≤ n ∧ ∀ k : Nat, off ≤ k → (k : Int) < off + len → owner k = t
  | .hasRead off bs =>
    0 ≤ off ∧ off + bs.length ≤ n ∧ ∀ k : Nat, off ≤ k → (k : Int) < off + bs.length → owner k = t

/-- What thread `t` is doing (a thread that does not exist does nothing). -/
def phaseAt (threads : List Thread) (t : Nat) : Phase :=
  match threads[t]? with
  | some th => th.phase
  | none => .idle

structure Inv (owner : Nat → Nat) (copy0 : Bytes) (s : Sys) : Prop where
  len : s.content.data.length = copy0.length
  owned : ∀ t th, s.threads[t]? = some th → Owned owner t th.todo ∧ PhaseOk owner copy0.length t th.phase
  agree : ∀ k, k < copy0.length →
    Agrees s (mirrorAll s.address copy0 s.queue) k
      (phaseAt s.threads (owner k))

theorem agrees_congr {s s' : Sys} {c c' : Bytes} {k : Nat} {p : Phase}
    (h1 : s'.content.data[k]? = s.content.data[k]?) (h2 : c'[k]? = c[k]?) (h : Agrees s c k p) :
    Agrees s' c' k p := by
  cases p <;> simp only [Agrees, h1, h2] at h ⊢ <;> exact h

theorem set_get {α} (l : List α) (i j : Nat) (x : α) :
    (l.set i x)[j]? = if i = j then (if i < l.length then some x else none) else l[j]? := by
  rw [List.getElem?_set]

theorem inv_step {owner : Nat → Nat} {copy0 : Bytes} {s : Sys} (h : Inv owner copy0 s) (t : Nat) :
    Inv owner copy0 (s.step t) := by
  unfold Sys.step
  split
  · exact h
  · rename_i th hth
    have hlt : t < s.threads.length := by
      apply Decidable.byContradiction
      intro hn
      rw [List.getElem?_eq_none (by omega)] at hth
      cases hth
    obtain ⟨hown, hph⟩ := h.owned t th hth
    -- what happens to the phases seen by the other bytes
    have other : ∀ (new : Thread) (k : Nat), owner k ≠ t →
        phaseAt (s.threads.set t new) (owner k) =
        phaseAt s.threads (owner k) := by
      intro new k hk
      unfold phaseAt
      rw [set_get, if_neg (fun x => hk x.symm)]
    have own : ∀ (new : Thread) (k : Nat), owner k = t →
        phaseAt (s.threads.set t new) (owner k) = new.phase := by
      intro new k hk
      unfold phaseAt
      rw [set_get, if_pos hk.symm, if_pos hlt]
    have before : ∀ k : Nat, owner k = t →
        phaseAt s.threads (owner k) = th.phase := by
      intro k hk
      unfold phaseAt
      rw [hk, hth]
    have ownedSet : ∀ new : Thread, (Owned owner t new.todo ∧ PhaseOk owner copy0.length t new.phase) →
        ∀ t' th', (s.threads.set t new)[t']? = some th' →
          Owned owner t' th'.todo ∧ PhaseOk owner copy0.length t' th'.phase := by
      intro new hnew t' th' ht'
      rw [set_get] at ht'
      split at ht'
      · rename_i heq
        subst heq
        cases ht'; exact hnew
      · exact h.owned t' th' ht'
    split
    · rename_i hidle
      split
      · exact h
      · rename_i offset data rest htodo
        have hrest : Owned owner t rest := fun w hw => hown w (by rw [htodo]; simp [hw])
        have hw0 := hown (offset, data) (by rw [htodo]; simp)
        split
        rename_i c retval hwr
        by_cases hf : 0 ≤ offset ∧ offset + data.length ≤ s.content.data.length
        · obtain ⟨hc1, hc2, hc3⟩ := (FileData.C19_write s.content offset data).1 hf
          rw [hwr] at hc1 hc2 hc3
          simp only at hc1 hc2 hc3
          rw [if_pos (by omega)]
          refine ⟨by rw [← h.len]; exact hc2, ownedSet _ ⟨hrest, ?_⟩, ?_⟩
          · have := h.len
            exact ⟨hf.1, by omega, fun k h1 h2 => hw0 k h1 h2⟩
          · intro k hk
            have hag := h.agree k hk
            by_cases hkt : owner k = t
            · rw [own _ k hkt]
              rw [before k hkt, hidle] at hag
              simp only [Agrees] at hag ⊢
              by_cases hin : offset ≤ k ∧ (k : Int) < offset + data.length
              · exact .inl hin
              · right; rw [hc3 k, if_neg hin]; exact hag
            · rw [other _ k hkt]
              refine agrees_congr ?_ rfl hag
              simp only
              rw [hc3 k, if_neg]
              intro hin
              exact hkt (hw0 k hin.1 hin.2)
        · have := (FileData.C19_write s.content offset data).2 hf
          rw [hwr] at this
          cases this
          rw [if_neg (by omega)]
          refine ⟨h.len, ownedSet _ ⟨hrest, trivial⟩, ?_⟩
          intro k hk
          have hag := h.agree k hk
          by_cases hkt : owner k = t
          · rw [own _ k hkt]
            rw [before k hkt, hidle] at hag
            exact hag
          · rw [other _ k hkt]; exact hag
    · rename_i offset len hwrote
      rw [hwrote] at hph
      obtain ⟨p1, p2, p3⟩ := hph
      have hl := h.len
      obtain ⟨bs, hr, hbl, hb⟩ := (FileData.C19_read s.content offset len).1 ⟨p1, by omega⟩
      rw [hr]
      simp only
      subst hbl
      refine ⟨h.len, ownedSet _ ⟨hown, p1, p2, p3⟩, ?_⟩
      intro k hk
      have hag := h.agree k hk
      by_cases hkt : owner k = t
      · rw [own _ k hkt]
        rw [before k hkt, hwrote] at hag
        simp only [Agrees] at hag ⊢
        split
        · rename_i hin
          rw [hb (k - offset.toNat) (by omega)]
          congr 1; omega
        · rename_i hin
          rcases hag with hag | hag
          · exact absurd hag hin
          · exact hag
      · rw [other _ k hkt]; exact hag
    · rename_i offset data hread
      rw [hread] at hph
      obtain ⟨p1, p2, p3⟩ := hph
      have hl := h.len
      refine ⟨h.len, ownedSet _ ⟨hown, trivial⟩, ?_⟩
      intro k hk
      have hag := h.agree k hk
      have hml := mirrorAll_length s.address s.queue copy0
      have hcopy : ∀ k : Nat, (mirrorAll s.address copy0 (s.queue ++ [.writeData (s.address + offset) data]))[k]? =
          if offset ≤ k ∧ (k : Int) < offset + data.length then data[k - offset.toNat]?
          else (mirrorAll s.address copy0 s.queue)[k]? := by
        intro k
        rw [mirrorAll_append]
        generalize mirrorAll s.address copy0 s.queue = c at hml ⊢
        obtain ⟨o, rfl⟩ := Int.eq_ofNat_of_zero_le p1
        simp only [mirrorAll, List.foldl_cons, List.foldl_nil, mirror]
        rw [if_pos (by omega), show (s.address + (o : Int) - s.address).toNat = o by omega]
        have := ((FileData.C19_write ⟨c⟩ (o : Int) data).1 ⟨by omega, by simp only; omega⟩).2.2 k
        rw [FileData.write_fits ⟨c⟩ o data (by simp only; omega)] at this
        exact this
      by_cases hkt : owner k = t
      · rw [own _ k hkt]
        rw [before k hkt, hread] at hag
        simp only [Agrees] at hag ⊢
        rw [hcopy k]
        split
        · rename_i hin; rw [if_pos hin] at hag; exact hag
        · rename_i hin; rw [if_neg hin] at hag; exact hag
      · rw [other _ k hkt]
        refine agrees_congr rfl ?_ hag
        rw [hcopy k, if_neg]
        intro hin
        exact hkt (p3 k hin.1 hin.2)

theorem inv_exec {owner : Nat → Nat} {copy0 : Bytes} (sched : List Nat) : ∀ {s : Sys},
    Inv owner copy0 s → Inv owner copy0 (s.exec sched) := by
  induction sched with
  | nil => intro s h; exact h
  | cons t ts ih => intro s h; exact ih (inv_step h t)

theorem step_address (s : Sys) (t : Nat) : (s.step t).address = s.address := by
  unfold Sys.step
  split
  · rfl
  · split
    · split
      · rfl
      · rfl
    · split <;> rfl
    · rfl

theorem exec_address (sched : List Nat) : ∀ s : Sys, (s.exec sched).address = s.address := by
  induction sched with
  | nil => intro s; rfl
  | cons t ts ih =>
    intro s
    have := ih (s.step t)
    simp only [Sys.exec, List.foldl_cons] at this ⊢
    rw [this, step_address]

end Apx.Concurrent
