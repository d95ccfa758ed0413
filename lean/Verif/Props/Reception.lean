import Verif.Spec.Reception
import Verif.Props.FileManager
import Verif.Proofs.Signature

/-! C72: which received messages end the receive thread. -/

namespace Apx.Manager
open Apx.FileMap
variable {H : Type}

theorem run_byteOrder {isLocal : Nat → Bool} {bo : Char} (ops : List (Op H)) :
    ∀ s : Mgr H, (∀ op ∈ ops, op.Respects isLocal) → s.byteOrder = bo → Sep isLocal s →
      (run s ops).byteOrder = bo := by
  induction ops with
  | nil => intro s _ h _; exact h
  | cons op ops ih =>
    intro s hr h hsep
    refine ih _ (fun o ho => hr o (by simp [ho])) ?_ (hsep.step op (hr op (by simp)))
    cases op with
    | attach j =>
      simp only [step]
      rcases attach_cases s j with he | ⟨_, _, _, _, _, he, _, _⟩ <;> rw [he] <;> exact h
    | request j => simp only [step, requestRemoteFile]; split <;> exact h
    | message msg =>
      simp only [step]
      have he := onMsg_effect s msg
      generalize (onMsgReceived s msg).1 = s' at he ⊢
      cases he <;> exact h
    | connected c =>
      simp only [step]
      obtain ⟨infos, he⟩ := onConnected_queue s c
      rw [he]; exact h
    | write j off data =>
      simp only [step]
      rcases writeLocal_cases hsep j off data with he | ⟨_, _, _, _, _, ⟨_, he⟩ | ⟨_, _, _, _, _, he⟩⟩ <;>
        rw [he] <;> exact h
    | stop => exact h

theorem checkOrder {bo : Char} (h : bo = '<' ∨ bo = '>') : Rmf.checkByteOrder bo = .ok () := by
  rcases h with rfl | rfl <;> rfl

/-- What the commands raise, for a body of at least four bytes. -/
theorem info_raises {isLocal : Nat → Bool} {s : Mgr H} (hs : Sep isLocal s)
    (hbo : s.byteOrder = '<' ∨ s.byteOrder = '>') (body : Bytes) (e : PyErr) :
    (processFileInfo s body).2.1 = some e ↔
      (body.length < 48 ∧ e = .attributeError) ∨
      (48 ≤ body.length ∧ (∀ name, utf8Encode name ≠ nameBytes body) ∧ e = .unicodeError) ∨
      (48 ≤ body.length ∧ ∃ name, utf8Encode name = nameBytes body ∧ s.requested.lookup name = none ∧
        e = .assertionError) ∨
      (48 ≤ body.length ∧ ∃ name i o, utf8Encode name = nameBytes body ∧
        s.requested.lookup name = some i ∧ s.files[i]? = some o ∧
        o.length ≠ infoLength s.byteOrder body ∧ e = .nameError) := by
  unfold processFileInfo Rmf.unpackFileInfo
  rw [checkOrder hbo, ok_bind]
  by_cases hl : body.length ≥ 48
  · rw [if_pos hl]
    have hnot : ¬ body.length < 48 := by omega
    simp only [hnot, false_and, false_or, hl, true_and]
    rw [show (body.drop 48).takeWhile (fun x => decide (x ≠ 0)) = nameBytes body from rfl]
    cases hd : utf8Decode (nameBytes body) with
    | error x =>
      have hx : x = .unicodeError := by
        unfold utf8Decode at hd
        split at hd
        · cases hd
        · cases hd; rfl
      have hno : ∀ name, utf8Encode name ≠ nameBytes body := by
        intro n hn
        rw [(utf8Decode_iff _ _).mpr hn] at hd; cases hd
      rw [error_bind]
      simp only [Option.some.injEq]
      constructor
      · intro h; exact .inl ⟨hno, by rw [← h, hx]⟩
      · rintro (⟨-, h⟩ | ⟨n, hn, -⟩ | ⟨n, i, o, hn, -⟩)
        · rw [h, hx]
        · exact absurd hn (hno n)
        · exact absurd hn (hno n)
    | ok n =>
      have hn := (utf8Decode_iff _ _).mp hd
      have huniq : ∀ name, utf8Encode name = nameBytes body → name = n := by
        intro m hm
        have := (utf8Decode_iff _ _).mpr hm
        rw [hd] at this; exact (Except.ok.inj this).symm
      rw [ok_bind]
      simp only
      have hlen : unpackUInt s.byteOrder (((body.take 48).drop 8).take 4) = infoLength s.byteOrder body := by
        unfold infoLength
        congr 1
        rw [List.drop_take, List.take_take]
        rfl
      cases hr : s.requested.lookup n with
      | none =>
        simp only [FileMap.insert]
        constructor
        · intro h
          refine .inr (.inl ⟨n, hn, hr, ?_⟩)
          simpa using h.symm
        · rintro (⟨h, -⟩ | ⟨m, hm, -, h⟩ | ⟨m, i, o, hm, h, -⟩)
          · exact absurd hn (h n)
          · rw [h]; rfl
          · rw [huniq m hm, hr] at h; cases h
      | some i =>
        obtain ⟨-, o, ho, -⟩ := hs.req _ _ (lookup_mem hr)
        simp only [ho, hlen]
        by_cases hle : (o.length : Int) = (infoLength s.byteOrder body : Nat)
        · rw [if_pos hle]
          constructor
          · intro h
            exfalso
            simp only [update] at h
            rw [ent_some (modify_get s.files i _ o ho)] at h
            simp only [FileMap.insert, bind, Except.bind, Bool.not_true, Bool.false_eq_true, if_false, Mgr.put] at h
            cases h
          · rintro (⟨h, -⟩ | ⟨m, hm, h, -⟩ | ⟨m, j, o', hm, h, ho', hne, -⟩)
            · exact absurd hn (h n)
            · rw [huniq m hm, hr] at h; cases h
            · rw [huniq m hm, hr] at h; cases h
              rw [ho] at ho'; cases ho'
              exact absurd (by exact_mod_cast hle) hne
        · rw [if_neg hle]
          simp only [Option.some.injEq]
          constructor
          · intro h
            exact .inr (.inr ⟨n, i, o, hn, hr, ho, fun h' => hle (by exact_mod_cast h'), h.symm⟩)
          · rintro (⟨h, -⟩ | ⟨m, hm, h, -⟩ | ⟨m, j, o', hm, h, ho', hne, h'⟩)
            · exact absurd hn (h n)
            · rw [huniq m hm, hr] at h; cases h
            · exact h'.symm
  · rw [if_neg hl]
    have hlt : body.length < 48 := by omega
    simp only [Option.some.injEq, hlt, true_and]
    constructor
    · intro h; exact .inl h.symm
    · rintro (h | ⟨h, -⟩ | ⟨h, -⟩ | ⟨h, -⟩)
      · exact h.symm
      all_goals omega

theorem open_raises {s : Mgr H} (hbo : s.byteOrder = '<' ∨ s.byteOrder = '>') (body : Bytes)
    (hc : unpackUInt s.byteOrder (body.take 4) = Rmf.cmdFileOpen) (e : PyErr) :
    (processFileOpen s body).2.1 = some e ↔ body.length ≠ 8 ∧ e = .structError := by
  unfold processFileOpen Rmf.unpackFileOpen
  rw [checkOrder hbo, ok_bind]
  by_cases hl : body.length = 8
  · rw [if_pos hl]
    simp only [hc, ne_eq, not_true_eq_false, if_false]
    constructor
    · intro h
      exfalso
      cases hf : (s.localMap.view s.files).findByAddress (unpackUInt s.byteOrder (body.drop 4) : Nat) with
      | none => simp [hf] at h
      | some f =>
        obtain ⟨i, o, a, hi, ho, ha, -, -, rfl⟩ := view_find hf
        simp only [hf, update] at h
        rw [modify_get s.files i _ o ho] at h
        simp only [ha] at h
        cases hread : o.content.read 0 o.length with
        | none => simp [FObj.length] at h hread; simp [hread] at h
        | some bs => simp [FObj.length] at h hread; simp [hread, Mgr.put] at h
    · rintro ⟨h, -⟩; exact absurd hl h
  · rw [if_neg hl]
    simp only [Option.some.injEq]
    exact ⟨fun h => ⟨hl, h.symm⟩, fun h => h.2.symm⟩

theorem close_raises {s : Mgr H} (hbo : s.byteOrder = '<' ∨ s.byteOrder = '>') (body : Bytes) (e : PyErr) :
    (processFileClose s body).2.1 = some e ↔
      (body.length = 8 ∧ e = .nameError) ∨ (body.length ≠ 8 ∧ e = .structError) := by
  unfold processFileClose Rmf.unpackFileClose
  rw [checkOrder hbo, ok_bind]
  by_cases hl : body.length = 8
  · rw [if_pos hl]
    simp only [Option.some.injEq]
    exact ⟨fun h => .inl ⟨hl, h.symm⟩, fun h => h.elim (fun h => h.2.symm) (fun h => absurd hl h.1)⟩
  · rw [if_neg hl]
    simp only [Option.some.injEq]
    exact ⟨fun h => .inr ⟨hl, h.symm⟩, fun h => h.elim (fun h => absurd h.1 hl) (fun h => h.2.symm)⟩

theorem write_raises (s : Mgr H) (x : Nat) (more : Bool) (body : Bytes) (e : PyErr) :
    (processFileWrite s x more body).2.1 = some e ↔
      ∃ (f : FileEnt) (o : FObj) (a : Int), (s.remoteMap.view s.files).findByAddress x = some f ∧
        s.files[f.id]? = some o ∧ o.isOpen = true ∧ o.address = some a ∧ a ≤ x ∧
        x + body.length ≤ a + o.length ∧ o.kind ≠ .input ∧ e = .typeError := by
  unfold processFileWrite
  constructor
  · intro h
    cases hf : (s.remoteMap.view s.files).findByAddress x with
    | none => simp [hf] at h
    | some f =>
      obtain ⟨i, o, a, hi, ho, ha, -, -, rfl⟩ := view_find hf
      simp only [hf, ho, ha] at h
      split at h
      · rename_i hopen
        split at h
        · rename_i hfit
          refine ⟨_, o, a, rfl, ho, hopen, ha, by omega, by omega, ?_, ?_⟩
          · intro hk; simp [writeRemote, hk] at h
          · cases hk : o.kind <;> simp [writeRemote, hk] at h
            · exact h.symm
            · exact h.symm
        · simp at h
      · simp at h
  · rintro ⟨f, o, a, hf, ho, hopen, ha, h1, h2, hk, rfl⟩
    simp only [hf, ho, hopen, ha, if_true]
    rw [if_pos (by omega)]
    cases hkk : o.kind <;> simp [writeRemote, hkk]
    exact absurd hkk hk

/-- C72: in any program that uses no file both as local and as requested file, the messages that make
the manager raise, and thereby end the receive thread (`C38_reception_ends`), are exactly the ones
listed in `Fatal`; every other message, of whatever bytes, is handled without an exception. -/
theorem C72_exactly (isLocal : Nat → Bool) (files : List FObj) (hf : Fresh files) (bo : Char)
    (hbo : bo = '<' ∨ bo = '>') (ops : List (Op H)) (hr : ∀ op ∈ ops, op.Respects isLocal) (s : Mgr H)
    (hs : s = run (start files bo) ops) (msg : Bytes) (e : PyErr) :
    (onMsgReceived s msg).2.1 = some e ↔ Fatal s msg e := by
  have hsep : Sep isLocal s := hs ▸ (sep_start hf bo).run _ hr
  have hb : s.byteOrder = '<' ∨ s.byteOrder = '>' := by
    rw [hs, run_byteOrder ops _ hr rfl (sep_start hf bo)]; exact hbo
  have haddr : ∀ a k more, 0 < k → Rmf.unpackHeader msg = (k, some a, more) → ∀ a' body,
      AddressedTo msg a' body ↔ a' = a ∧ body = msg.drop k := by
    intro a k more hk h a' body
    constructor
    · rintro ⟨k', m', -, h', rfl⟩
      rw [h] at h'; cases h'; exact ⟨rfl, rfl⟩
    · rintro ⟨rfl, rfl⟩; exact ⟨k, more, hk, h, rfl⟩
  unfold onMsgReceived
  rcases hh : Rmf.unpackHeader msg with ⟨k, oa, more⟩
  simp only
  by_cases hk : k > 0
  · rw [if_pos hk]
    cases oa with
    | none =>
      exfalso
      unfold Rmf.unpackHeader at hh
      split at hh
      · simp only at hh
        split at hh
        · split at hh
          · split at hh <;> simp at hh <;> omega
          · simp at hh; omega
        · simp at hh
      · simp at hh; omega
    | some a =>
      have ha := haddr a k more hk hh
      simp only
      by_cases hcmd : a = Rmf.cmdStartAddr
      · subst hcmd
        rw [if_pos rfl]
        unfold processCmd
        have hcase : ∀ code body, IsCommand s.byteOrder code msg body ↔
            body = msg.drop k ∧ 4 ≤ (msg.drop k).length ∧ unpackUInt s.byteOrder ((msg.drop k).take 4) = code := by
          intro code body
          unfold IsCommand
          rw [ha]
          constructor
          · rintro ⟨⟨-, rfl⟩, h⟩; exact ⟨rfl, h⟩
          · rintro ⟨rfl, h⟩; exact ⟨⟨rfl, rfl⟩, h⟩
        generalize hbody : msg.drop k = body at hcase ha
        by_cases h4 : body.length ≥ 4
        · rw [if_pos h4]
          simp only
          by_cases c1 : unpackUInt s.byteOrder (body.take 4) = Rmf.cmdFileInfo
          · rw [if_pos c1, info_raises hsep hb]
            constructor
            · rintro (⟨h, rfl⟩ | ⟨h, h', rfl⟩ | ⟨h, n, h1, h2, rfl⟩ | ⟨h, n, i, o, h1, h2, h3, h5, rfl⟩)
              · exact .infoShort body ((hcase _ _).mpr ⟨rfl, h4, c1⟩) h
              · exact .infoName body ((hcase _ _).mpr ⟨rfl, h4, c1⟩) h h'
              · exact .infoUnknown body n ((hcase _ _).mpr ⟨rfl, h4, c1⟩) h h1 h2
              · exact .infoOther body n i o ((hcase _ _).mpr ⟨rfl, h4, c1⟩) h h1 h2 h3 h5
            · intro h
              cases h with
              | beyond a' b' h h' => rw [ha] at h; omega
              | infoShort b' h h' => rw [hcase] at h; rw [h.1] at *; exact .inl ⟨h', rfl⟩
              | infoName b' h h' h'' => rw [hcase] at h; rw [h.1] at *; exact .inr (.inl ⟨h', h'', rfl⟩)
              | infoUnknown b' n h h' h1 h2 =>
                rw [hcase] at h; rw [h.1] at *; exact .inr (.inr (.inl ⟨h', n, h1, h2, rfl⟩))
              | infoOther b' n i o h h' h1 h2 h3 h5 =>
                rw [hcase] at h; rw [h.1] at *; exact .inr (.inr (.inr ⟨h', n, i, o, h1, h2, h3, h5, rfl⟩))
              | openLength b' h h' => rw [hcase, c1] at h; exact absurd h.2.2 (by decide)
              | close b' h h' => rw [hcase, c1] at h; exact absurd h.2.2 (by decide)
              | closeLength b' h h' => rw [hcase, c1] at h; exact absurd h.2.2 (by decide)
              | target x b' f o a' h hx => rw [ha] at h; omega
          · rw [if_neg c1]
            by_cases c2 : unpackUInt s.byteOrder (body.take 4) = Rmf.cmdFileOpen
            · rw [if_pos c2, open_raises hb _ c2]
              constructor
              · rintro ⟨h, rfl⟩
                exact .openLength body ((hcase _ _).mpr ⟨rfl, h4, c2⟩) h
              · intro h
                cases h with
                | beyond a' b' h h' => rw [ha] at h; omega
                | infoShort b' h h' => rw [hcase] at h; exact absurd h.2.2 c1
                | infoName b' h h' h'' => rw [hcase] at h; exact absurd h.2.2 c1
                | infoUnknown b' n h h' h1 h2 => rw [hcase] at h; exact absurd h.2.2 c1
                | infoOther b' n i o h h' h1 h2 h3 h5 => rw [hcase] at h; exact absurd h.2.2 c1
                | openLength b' h h' => rw [hcase] at h; rw [h.1] at h'; exact ⟨h', rfl⟩
                | close b' h h' => rw [hcase, c2] at h; exact absurd h.2.2 (by decide)
                | closeLength b' h h' => rw [hcase, c2] at h; exact absurd h.2.2 (by decide)
                | target x b' f o a' h hx => rw [ha] at h; omega
            · rw [if_neg c2]
              by_cases c3 : unpackUInt s.byteOrder (body.take 4) = Rmf.cmdFileClose
              · rw [if_pos c3, close_raises hb]
                constructor
                · rintro (⟨h, rfl⟩ | ⟨h, rfl⟩)
                  · exact .close body ((hcase _ _).mpr ⟨rfl, h4, c3⟩) h
                  · exact .closeLength body ((hcase _ _).mpr ⟨rfl, h4, c3⟩) h
                · intro h
                  cases h with
                  | beyond a' b' h h' => rw [ha] at h; omega
                  | infoShort b' h h' => rw [hcase] at h; exact absurd h.2.2 c1
                  | infoName b' h h' h'' => rw [hcase] at h; exact absurd h.2.2 c1
                  | infoUnknown b' n h h' h1 h2 => rw [hcase] at h; exact absurd h.2.2 c1
                  | infoOther b' n i o h h' h1 h2 h3 h5 => rw [hcase] at h; exact absurd h.2.2 c1
                  | openLength b' h h' => rw [hcase] at h; exact absurd h.2.2 c2
                  | close b' h h' => rw [hcase] at h; rw [h.1] at h'; exact .inl ⟨h', rfl⟩
                  | closeLength b' h h' => rw [hcase] at h; rw [h.1] at h'; exact .inr ⟨h', rfl⟩
                  | target x b' f o a' h hx => rw [ha] at h; omega
              · rw [if_neg c3]
                constructor
                · intro h; cases h
                · intro h
                  exfalso
                  cases h with
                  | beyond a' b' h h' => rw [ha] at h; omega
                  | infoShort b' h h' => rw [hcase] at h; exact absurd h.2.2 c1
                  | infoName b' h h' h'' => rw [hcase] at h; exact absurd h.2.2 c1
                  | infoUnknown b' n h h' h1 h2 => rw [hcase] at h; exact absurd h.2.2 c1
                  | infoOther b' n i o h h' h1 h2 h3 h5 => rw [hcase] at h; exact absurd h.2.2 c1
                  | openLength b' h h' => rw [hcase] at h; exact absurd h.2.2 c2
                  | close b' h h' => rw [hcase] at h; exact absurd h.2.2 c3
                  | closeLength b' h h' => rw [hcase] at h; exact absurd h.2.2 c3
                  | target x b' f o a' h hx => rw [ha] at h; omega
        · rw [if_neg h4]
          constructor
          · intro h; cases h
          · intro h
            exfalso
            cases h with
            | beyond a' b' h h' => rw [ha] at h; omega
            | infoShort b' h h' => rw [hcase] at h; omega
            | infoName b' h h' h'' => rw [hcase] at h; omega
            | infoUnknown b' n h h' h1 h2 => rw [hcase] at h; omega
            | infoOther b' n i o h h' h1 h2 h3 h5 => rw [hcase] at h; omega
            | openLength b' h h' => rw [hcase] at h; omega
            | close b' h h' => rw [hcase] at h; omega
            | closeLength b' h h' => rw [hcase] at h; omega
            | target x b' f o a' h hx => rw [ha] at h; omega
      · rw [if_neg hcmd]
        have hno : ∀ code body, ¬ IsCommand s.byteOrder code msg body := by
          rintro code body ⟨h, -⟩
          rw [ha] at h; exact hcmd h.1.symm
        by_cases hlt : a < Rmf.cmdStartAddr
        · rw [if_pos hlt, write_raises]
          constructor
          · rintro ⟨f, o, b, h1, h2, h3, h4, h5, h6, h7, rfl⟩
            exact .target a _ f o b ((ha _ _).mpr ⟨rfl, rfl⟩) hlt h1 h2 h3 h4 h5 h6 h7
          · intro h
            cases h with
            | beyond a' b' h h' => rw [ha] at h; omega
            | infoShort b' h h' => exact absurd h (hno _ _)
            | infoName b' h h' h'' => exact absurd h (hno _ _)
            | infoUnknown b' n h h' h1 h2 => exact absurd h (hno _ _)
            | infoOther b' n i o h h' h1 h2 h3 h5 => exact absurd h (hno _ _)
            | openLength b' h h' => exact absurd h (hno _ _)
            | close b' h h' => exact absurd h (hno _ _)
            | closeLength b' h h' => exact absurd h (hno _ _)
            | target x b' f o a' h hx h1 h2 h3 h4 h5 h6 h7 =>
              rw [ha] at h
              obtain ⟨rfl, rfl⟩ := h
              exact ⟨f, o, a', h1, h2, h3, h4, h5, h6, h7, rfl⟩
        · rw [if_neg hlt]
          simp only [Option.some.injEq]
          constructor
          · rintro rfl
            exact .beyond a _ ((ha _ _).mpr ⟨rfl, rfl⟩) (by omega)
          · intro h
            cases h with
            | beyond a' b' h h' => rfl
            | infoShort b' h h' => exact absurd h (hno _ _)
            | infoName b' h h' h'' => exact absurd h (hno _ _)
            | infoUnknown b' n h h' h1 h2 => exact absurd h (hno _ _)
            | infoOther b' n i o h h' h1 h2 h3 h5 => exact absurd h (hno _ _)
            | openLength b' h h' => exact absurd h (hno _ _)
            | close b' h h' => exact absurd h (hno _ _)
            | closeLength b' h h' => exact absurd h (hno _ _)
            | target x b' f o a' h hx h1 h2 h3 h4 h5 h6 h7 => rw [ha] at h; omega
  · rw [if_neg hk]
    have hno : ∀ a body, ¬ AddressedTo msg a body := by
      rintro a body ⟨k', m', h1, h2, -⟩
      rw [hh] at h2; cases h2; omega
    constructor
    · intro h; cases h
    · intro h
      exfalso
      cases h with
      | beyond a' b' h h' => exact hno _ _ h
      | infoShort b' h h' => exact hno _ _ h.1
      | infoName b' h h' h'' => exact hno _ _ h.1
      | infoUnknown b' n h h' h1 h2 => exact hno _ _ h.1
      | infoOther b' n i o h h' h1 h2 h3 h5 => exact hno _ _ h.1
      | openLength b' h h' => exact hno _ _ h.1
      | close b' h h' => exact hno _ _ h.1
      | closeLength b' h h' => exact hno _ _ h.1
      | target x b' f o a' h hx => exact hno _ _ h

theorem info_unchanged {isLocal : Nat → Bool} {s : Mgr H} (hs : Sep isLocal s) (body : Bytes) (e : PyErr)
    (h : (processFileInfo s body).2.1 = some e) : processFileInfo s body = (s, some e, none) := by
  unfold processFileInfo at h ⊢
  cases hu : Rmf.unpackFileInfo body s.byteOrder with
  | error x => simp only [hu, Option.some.injEq] at h ⊢; rw [h]
  | ok r =>
    cases r with
    | none => simp only [hu, Option.some.injEq] at h ⊢; rw [h]
    | some r =>
      have ha : ∃ a, r.address = some a := by
        unfold Rmf.unpackFileInfo at hu
        rw [bind_ok_iff] at hu
        obtain ⟨-, -, hu⟩ := hu
        split at hu
        · rw [bind_ok_iff] at hu
          obtain ⟨n, -, hu⟩ := hu
          simp only [Except.ok.injEq, Option.some.injEq] at hu
          rw [← hu]; exact ⟨_, rfl⟩
        · simp at hu
      obtain ⟨a, ha⟩ := ha
      simp only [hu] at h ⊢
      cases hr : s.requested.lookup r.name with
      | none =>
        simp only [hr, FileMap.insert] at h ⊢
        simp at h ⊢
        exact h
      | some i =>
        obtain ⟨-, o, ho, -⟩ := hs.req _ _ (lookup_mem hr)
        simp only [hr, ho] at h ⊢
        by_cases hl : (o.length : Int) = r.length
        · exfalso
          rw [if_pos hl] at h
          simp only [update] at h
          rw [ent_some (modify_get s.files i _ o ho)] at h
          simp only [FileMap.insert, bind, Except.bind, Bool.not_true, Bool.false_eq_true, if_false, Mgr.put, ha] at h
          cases h
        · rw [if_neg hl] at h ⊢
          simp only [Option.some.injEq] at h
          rw [h]

theorem open_unchanged {s : Mgr H} (body : Bytes) (e : PyErr)
    (h : (processFileOpen s body).2.1 = some e) : processFileOpen s body = (s, some e, none) := by
  unfold processFileOpen at h ⊢
  cases hu : Rmf.unpackFileOpen body s.byteOrder with
  | error x => simp only [hu, Option.some.injEq] at h ⊢; rw [h]
  | ok x =>
    exfalso
    simp only [hu] at h
    cases hf : (s.localMap.view s.files).findByAddress x with
    | none => simp [hf] at h
    | some f =>
      obtain ⟨i, o, a, hi, ho, ha, -, -, rfl⟩ := view_find hf
      simp only [hf, update] at h
      rw [modify_get s.files i _ o ho] at h
      simp only [ha] at h
      cases hread : o.content.read 0 o.length with
      | none => simp [FObj.length] at h hread; simp [hread] at h
      | some bs => simp [FObj.length] at h hread; simp [hread, Mgr.put] at h

theorem close_unchanged {s : Mgr H} (body : Bytes) (e : PyErr)
    (h : (processFileClose s body).2.1 = some e) : processFileClose s body = (s, some e, none) := by
  unfold processFileClose at h ⊢
  cases hu : Rmf.unpackFileClose body s.byteOrder with
  | error x => simp only [hu, Option.some.injEq] at h ⊢; rw [h]
  | ok x =>
    simp only [hu] at h
    split at h <;> simp at h

theorem write_unchanged {s : Mgr H} (x : Nat) (more : Bool) (body : Bytes) (e : PyErr)
    (h : (processFileWrite s x more body).2.1 = some e) : processFileWrite s x more body = (s, some e, none) := by
  obtain ⟨f, o, a, hf, ho, hopen, ha, h1, h2, hk, rfl⟩ := (write_raises s x more body e).mp h
  unfold processFileWrite
  simp only [hf, ho, hopen, ha, if_true]
  rw [if_pos (by omega)]
  cases hkk : o.kind <;> simp [writeRemote, hkk]
  exact absurd hkk hk

/-- C72: a message that makes the manager raise has no other effect: files, maps, requests and queue
are as before, and the node data is not notified. -/
theorem C72_unchanged (isLocal : Nat → Bool) (files : List FObj) (hf : Fresh files) (bo : Char)
    (ops : List (Op H)) (hr : ∀ op ∈ ops, op.Respects isLocal) (s : Mgr H)
    (hs : s = run (start files bo) ops) (msg : Bytes) (e : PyErr) (h : (onMsgReceived s msg).2.1 = some e) :
    onMsgReceived s msg = (s, some e, none) := by
  have hsep : Sep isLocal s := hs ▸ (sep_start hf bo).run _ hr
  unfold onMsgReceived at h ⊢
  rcases hh : Rmf.unpackHeader msg with ⟨k, oa, more⟩
  simp only [hh] at h ⊢
  split at h
  · rename_i hk
    rw [if_pos hk]
    cases oa with
    | none => simp only [Option.some.injEq] at h ⊢; rw [h]
    | some a =>
      simp only at h ⊢
      split at h
      · rename_i hc
        rw [if_pos hc]
        unfold processCmd at h ⊢
        split at h
        · rename_i h4
          rw [if_pos h4]
          simp only at h ⊢
          split at h
          · rename_i c; rw [if_pos c]; exact info_unchanged hsep _ _ h
          · rename_i c; rw [if_neg c]
            split at h
            · rename_i c; rw [if_pos c]; exact open_unchanged _ _ h
            · rename_i c; rw [if_neg c]
              split at h
              · rename_i c; rw [if_pos c]; exact close_unchanged _ _ h
              · simp at h
        · simp at h
      · rename_i hc
        rw [if_neg hc]
        split at h
        · rename_i hc; rw [if_pos hc]; exact write_unchanged _ _ _ _ h
        · rename_i hc; rw [if_neg hc]
          simp only [Option.some.injEq] at h
          rw [h]
  · simp at h

/-- C72 over a connection: of the messages the peer sends, however the stream is cut into chunks, the
manager handles the ones before the first fatal one; that one ends the receive thread with the exception
it calls for, and the later ones have no effect.  `early` are the messages before it. -/
theorem C72_connection (isLocal : Nat → Bool) (files : List FObj) (hf : Fresh files) (bo : Char)
    (hbo : bo = '<' ∨ bo = '>') (ops : List (Op H)) (hr : ∀ op ∈ ops, op.Respects isLocal) (h : H)
    (early : List Bytes) (m : Bytes) (late : List Bytes) (e : PyErr)
    (hearly : ∀ k (hk : k < early.length) (e : PyErr),
      ¬ Fatal (run (start files bo : Mgr H) (ops ++ (early.take k).map Op.message)) early[k] e)
    (hm : Fatal (run (start files bo : Mgr H) (ops ++ early.map Op.message)) m e)
    (stream : Bytes) (hs : Socket.sendAll (early ++ m :: late) = .ok stream) (cs : List Bytes)
    (hc : Socket.Chunking stream cs) :
    Socket.worker (receiver h) (⟨true, true, run (start files bo) ops⟩, .waiting []) cs =
      (⟨true, true, run (start files bo) (ops ++ early.map Op.message)⟩, .ended (some e)) := by
  rw [Socket.C11_any_handler (receiver h) _ _ stream hs cs hc]
  have key : ∀ (early : List Bytes) (ops : List (Op H)), (∀ op ∈ ops, op.Respects isLocal) →
      (∀ k (hk : k < early.length) (e : PyErr),
        ¬ Fatal (run (start files bo : Mgr H) (ops ++ (early.take k).map Op.message)) early[k] e) →
      Fatal (run (start files bo : Mgr H) (ops ++ early.map Op.message)) m e →
      Socket.deliverAll (receiver h) (run (start files bo) ops) (early ++ m :: late) =
        (run (start files bo) (ops ++ early.map Op.message), some e) := by
    intro early
    induction early with
    | nil =>
      intro ops hr _ hm
      simp only [List.map_nil, List.append_nil] at hm ⊢
      have := (C72_exactly isLocal files hf bo hbo ops hr _ rfl m e).mpr hm
      have := C72_unchanged isLocal files hf bo ops hr _ rfl m e this
      simp [Socket.deliverAll, receiver, this]
    | cons x early ih =>
      intro ops hr he hm
      have h0 : (onMsgReceived (run (start files bo : Mgr H) ops) x).2.1 = none := by
        cases hx : (onMsgReceived (run (start files bo : Mgr H) ops) x).2.1 with
        | none => rfl
        | some e' =>
          have := (C72_exactly isLocal files hf bo hbo ops hr _ rfl x e').mp hx
          have := he 0 (by simp) e'
          simp at this; contradiction
      have hstep : run (start files bo : Mgr H) (ops ++ [.message x]) =
          (onMsgReceived (run (start files bo : Mgr H) ops) x).1 := by
        simp [run, step]
      have := ih (ops ++ [.message x]) (by
          intro op hop
          rcases List.mem_append.mp hop with h | h
          · exact hr op h
          · simp at h; subst h; trivial)
        (fun k hk e => by
          have := he (k + 1) (by simp; omega) e
          simpa using this) (by simpa using hm)
      rw [hstep] at this
      have hrec : (receiver h).onMsgReceived (run (start files bo) ops) x =
          ((onMsgReceived (run (start files bo) ops) x).1, none) := by
        simp only [receiver, h0]
      simp only [List.append_assoc, List.cons_append, List.nil_append] at this
      simp only [List.cons_append, Socket.deliverAll, hrec]
      simpa using this
  rw [key early ops hr hearly hm]

/-- C72, the last kind of fatal message, in terms of addresses: when the remote files lie side by side
and each was requested once, data for any part of a remote file that is not an `InputFile` raises
`TypeError`, and such messages for input files never raise. -/
theorem C72_data (isLocal : Nat → Bool) (files : List FObj) (hf : Fresh files) (bo : Char)
    (hbo : bo = '<' ∨ bo = '>')
    (ops : List (Op H)) (hr : ∀ op ∈ ops, op.Respects isLocal) (hnd : (ops.filterMap Op.requests).Nodup)
    (s : Mgr H) (hs : s = run (start files bo) ops)
    (hdis : s.remoteMap.ids.Pairwise fun i j => Disjoint (ent s.files i) (ent s.files j))
    (hpos : ∀ i ∈ s.remoteMap.ids, 0 < (ent s.files i).length)
    (i : Nat) (hi : i ∈ s.remoteMap.ids) (o : FObj) (ho : s.files[i]? = some o)
    (msg : Bytes) (x : Nat) (body : Bytes) (hmsg : AddressedTo msg x body)
    (hcmd : x < Rmf.cmdStartAddr) (a : Int) (ha : o.address = some a) (h1 : a ≤ x) (h2 : x < a + o.length)
    (hfit : x + body.length ≤ a + o.length) (e : PyErr) :
    (onMsgReceived s msg).2.1 = some e ↔ o.kind ≠ .input ∧ e = .typeError := by
  have hsep : Sep isLocal s := hs ▸ (sep_start hf bo).run _ hr
  have honce : ∃ done, ROnce done s := by
    rw [hs]
    exact ROnce.run ops (sep_start hf bo) (done := [])
      ⟨inv_empty, by simp [start], by simp [start], by simp [start], by simp [start]⟩ hr hnd (by simp)
  obtain ⟨done, honce⟩ := honce
  have hopen : o.isOpen = true := by
    obtain ⟨o2, h1, h2⟩ := honce.opened i hi
    rw [ho] at h1; cases h1; exact h2
  have hfind := find_ent honce.inv hdis hpos hi ho ha (x := x) h1 h2
  rw [C72_exactly isLocal files hf bo hbo ops hr s hs]
  have huniq : ∀ x' body', AddressedTo msg x' body' → x' = x ∧ body' = body := by
    obtain ⟨k, m, -, hh, rfl⟩ := hmsg
    rintro x' body' ⟨k', m', -, hh', rfl⟩
    rw [hh] at hh'; cases hh'; exact ⟨rfl, rfl⟩
  constructor
  · intro h
    cases h with
    | beyond a' b' h h' => have := huniq _ _ h; omega
    | infoShort b' h h' => have := huniq _ _ h.1; omega
    | infoName b' h h' h'' => have := huniq _ _ h.1; omega
    | infoUnknown b' n h h' h1 h2 => have := huniq _ _ h.1; omega
    | infoOther b' n i o h h' h1 h2 h3 h5 => have := huniq _ _ h.1; omega
    | openLength b' h h' => have := huniq _ _ h.1; omega
    | close b' h h' => have := huniq _ _ h.1; omega
    | closeLength b' h h' => have := huniq _ _ h.1; omega
    | target x' b' f o' a' h hx g1 g2 g3 g4 g5 g6 g7 =>
      obtain ⟨rfl, rfl⟩ := huniq _ _ h
      rw [hfind] at g1; cases g1
      rw [ent_id, ho] at g2; cases g2
      exact ⟨g7, rfl⟩
  · rintro ⟨hk, rfl⟩
    exact .target x body _ o a hmsg hcmd hfind (by rw [ent_id]; exact ho) hopen ha h1 hfit hk

/-- Each kind of fatal message for the example program, and a message of each tolerated kind. -/
example : let s := (run (start mgFiles '<') (mgOps.take 3) : Mgr Unit)
    let cmd (c : UInt8) : Bytes := [0xbf, 0xff, 0xfc, 0, c, 0, 0, 0]
    (onMsgReceived s [0xbf, 0xff, 0xfc, 1, 0]).2.1 = some .valueError ∧
    (onMsgReceived s (cmd 3)).2.1 = some .attributeError ∧
    (onMsgReceived s (mgInfoMsg ++ [0xff])).2.1 = some .unicodeError ∧
    (onMsgReceived s (mgInfoMsg ++ [0x78])).2.1 = some .assertionError ∧
    (onMsgReceived s (mgInfoMsg.set 12 4)).2.1 = some .nameError ∧
    (onMsgReceived s (cmd 10)).2.1 = some .structError ∧
    (onMsgReceived s (cmd 11)).2.1 = some .structError ∧
    (onMsgReceived s (cmd 11 ++ [0, 0, 0, 0])).2.1 = some .nameError ∧
    (onMsgReceived s (cmd 12)).2.1 = none ∧ (onMsgReceived s []).2.1 = none ∧
    (onMsgReceived s [0x40, 0, 1, 2, 3]).2.1 = none ∧ (onMsgReceived s mgInfoMsg).2.1 = none := by
  decide +kernel

/-- The last kind, with an output file requested by mistake. -/
def rcFiles : List FObj := [.create .output "B.in".toList ⟨[0, 0, 0]⟩]

example : let s := (run (start rcFiles '<') [.request 0, .message mgInfoMsg] : Mgr Unit)
    s.remoteMap.ids = [0] ∧ (onMsgReceived s [8, 1, 5, 6]).2.1 = some .typeError ∧
    (onMsgReceived s [8, 1, 5, 6, 7]).2.1 = none := by decide +kernel

end Apx.Manager
