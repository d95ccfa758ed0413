import Verif.Proofs.FileManager

/-! What a local file sends: the invariant behind C39. -/

namespace Apx.Manager
open FileMap

variable {H : Type}

/-- A data message belongs to the range of another local file. -/
def Foreign (s : Mgr H) (i : Nat) : Msg H → Prop
  | .writeData addr data => ∃ j o a, j ∈ s.localMap.ids ∧ j ≠ i ∧ s.files[j]? = some o ∧
      o.address = some a ∧ a ≤ addr ∧ addr + data.length ≤ a + o.length
  | _ => True

/-- What a step does to a local file and to the queue. -/
inductive LocalStep (s s' : Mgr H) (i : Nat) (o o' : FObj) : Prop
  | quiet (new : List (Msg H)) (q : s'.queue = s.queue ++ new) (same : o'.content = o.content)
      (op : o'.isOpen = o.isOpen) (foreign : ∀ m ∈ new, Foreign s' i m)
  | opened (a : Int) (addr : o.address = some a)
      (q : s'.queue = s.queue ++ [.writeData a o.content.data]) (same : o'.content = o.content)
  | closedWrite (closed : o'.isOpen = false)
  | openWrite (a : Int) (n : Nat) (data : Bytes) (addr : o.address = some a) (op : o.isOpen = true)
      (fits : n + data.length ≤ o.length)
      (same : o'.content = (o.content.write n data).1)
      (q : s'.queue = s.queue ++ [.writeData (a + n) data])

theorem step_local {isLocal : Nat → Bool} {s : Mgr H} (h : Sep isLocal s) (op : Op H)
    (hop : op.Respects isLocal) (i : Nat) (hl : isLocal i = true) (o' : FObj)
    (ho' : (step s op).files[i]? = some o') :
    ∃ o, s.files[i]? = some o ∧ o'.kind = o.kind ∧ o'.length = o.length ∧
      (o.address = none ∨ o'.address = o.address) ∧
      (o'.kind = .output → LocalStep s (step s op) i o o') := by
  cases op with
  | attach j =>
    simp only [step] at ho' ⊢
    rcases attach_cases s j with he | ⟨oj, a, k, hoj, ha, he, -, -⟩
    · rw [he] at ho' ⊢
      exact ⟨o', ho', rfl, rfl, .inr rfl, fun _ => .quiet [] (by simp) rfl rfl (by simp)⟩
    · rw [he] at ho' ⊢
      rcases modify_cases ho' with ⟨rfl, o, ho, rfl⟩ | ⟨hne, ho⟩
      · rw [hoj] at ho; cases ho
        refine ⟨oj, hoj, rfl, rfl, ?_, fun _ => .quiet [] (by simp) rfl rfl (by simp)⟩
        rcases ha with ha | ha
        · exact .inl ha
        · exact .inr ha.symm
      · exact ⟨o', ho, rfl, rfl, .inr rfl, fun _ => .quiet [] (by simp) rfl rfl (by simp)⟩
  | request j =>
    simp only [step, requestRemoteFile] at ho' ⊢
    split
    · rename_i hj
      simp only [hj] at ho'
      exact ⟨o', ho', rfl, rfl, .inr rfl, fun _ => .quiet [] (by simp) rfl rfl (by simp)⟩
    · rename_i oj hj
      simp only [hj] at ho'
      exact ⟨o', ho', rfl, rfl, .inr rfl, fun _ => .quiet [] (by simp) rfl rfl (by simp)⟩
  | message msg =>
    simp only [step] at ho' ⊢
    have he := onMsg_effect s msg
    generalize (onMsgReceived s msg).1 = s' at ho' he ⊢
    cases he with
    | same => exact ⟨o', ho', rfl, rfl, .inr rfl, fun _ => .quiet [] (by simp) rfl rfl (by simp)⟩
    | info j oj r a req obj len addr =>
      have hj := (h.req _ _ (lookup_mem req)).1
      have hne : i ≠ j := fun x => by subst x; rw [hl] at hj; cases hj
      rcases modify_cases ho' with ⟨rfl, -⟩ | ⟨-, ho⟩
      · exact absurd rfl hne
      · exact ⟨o', ho, rfl, rfl, .inr rfl, fun _ => .quiet [.fileOpen a] rfl rfl rfl (by simp [Foreign])⟩
    | opened j oj a mem obj addr =>
      rcases modify_cases ho' with ⟨rfl, o, ho, rfl⟩ | ⟨hne, ho⟩
      · rw [obj] at ho; cases ho
        exact ⟨oj, obj, rfl, rfl, .inr rfl, fun _ => .opened a addr rfl rfl⟩
      · refine ⟨o', ho, rfl, rfl, .inr rfl, fun _ => .quiet _ rfl rfl rfl ?_⟩
        simp only [List.mem_singleton, forall_eq]
        refine ⟨j, _, a, mem, fun x => hne x.symm, modify_get _ _ _ oj obj, addr, by omega, ?_⟩
        simp only [FObj.length]; omega
    | written n x more j oj a off header mem obj isOpen addr offset fits =>
      have hj := (h.remote _ mem).1
      have hne : i ≠ j := fun x => by subst x; rw [hl] at hj; cases hj
      rcases modify_cases ho' with ⟨rfl, -⟩ | ⟨-, ho⟩
      · exact absurd rfl hne
      · exact ⟨o', ho, rfl, rfl, .inr rfl, fun _ => .quiet [] (by simp) rfl rfl (by simp)⟩
  | connected c =>
    simp only [step] at ho' ⊢
    obtain ⟨infos, he⟩ := onConnected_queue s c
    rw [he] at ho' ⊢
    refine ⟨o', ho', rfl, rfl, .inr rfl, fun _ => .quiet _ rfl rfl rfl ?_⟩
    intro m hm
    rcases List.mem_cons.mp hm with rfl | hm
    · trivial
    · obtain ⟨b, -, rfl⟩ := List.mem_map.mp hm
      trivial
  | write j off data =>
    simp only [step] at ho' ⊢
    rcases writeLocal_cases h j off data with he | ⟨oj, n, hoj, -, hfit, hc⟩
    · rw [he] at ho' ⊢
      exact ⟨o', ho', rfl, rfl, .inr rfl, fun _ => .quiet [] (by simp) rfl rfl (by simp)⟩
    · have hlen : ((oj.content.write n data).1).data.length = oj.content.data.length :=
        FileData.write_length ..
      rcases hc with ⟨hcl, he⟩ | ⟨a, hm, hk, hopen, ha, he⟩
      · rw [he] at ho' ⊢
        rcases modify_cases ho' with ⟨rfl, o, ho, rfl⟩ | ⟨hne, ho⟩
        · rw [hoj] at ho; cases ho
          refine ⟨oj, hoj, rfl, by simp [FObj.length, hlen], .inr rfl, fun hkind => ?_⟩
          refine .closedWrite ?_
          cases ho : oj.isOpen with
          | false => simp
          | true =>
            exfalso
            obtain ⟨-, o2, -, h1, h2, -⟩ := h.localIds i (h.opened i oj hl hoj ho)
            rw [hoj] at h1; cases h1
            simp [h2, ho] at hcl
            exact hcl hkind
        · exact ⟨o', ho, rfl, rfl, .inr rfl, fun _ => .quiet [] (by simp) rfl rfl (by simp)⟩
      · rw [he] at ho' ⊢
        rcases modify_cases ho' with ⟨rfl, o, ho, rfl⟩ | ⟨hne, ho⟩
        · rw [hoj] at ho; cases ho
          exact ⟨oj, hoj, rfl, by simp [FObj.length, hlen], .inr rfl,
            fun _ => .openWrite a n data ha hopen hfit rfl rfl⟩
        · refine ⟨o', ho, rfl, rfl, .inr rfl, fun _ => .quiet _ rfl rfl rfl ?_⟩
          simp only [List.mem_singleton, forall_eq]
          refine ⟨j, _, a, h.managed j oj hoj hm, fun x => hne x.symm, modify_get _ _ _ oj hoj, ha,
            by omega, ?_⟩
          simp only [FObj.length, hlen] at hfit ⊢
          omega
  | stop =>
    simp only [step, Mgr.put] at ho' ⊢
    exact ⟨o', ho', rfl, rfl, .inr rfl, fun _ => .quiet _ rfl rfl rfl (by simp [Foreign])⟩

/-- The local map only grows. -/
theorem step_ids {s : Mgr H} (op : Op H) (j : Nat) (hj : j ∈ s.localMap.ids) :
    j ∈ (step s op).localMap.ids := by
  cases op with
  | attach i =>
    simp only [step]
    rcases attach_cases s i with he | ⟨_, _, _, _, _, he, _, _⟩
    · rw [he]; exact hj
    · rw [he]; exact mem_insertIdx_old hj
  | request i => simp only [step, requestRemoteFile]; split <;> exact hj
  | message msg =>
    simp only [step]
    have he := onMsg_effect s msg
    generalize (onMsgReceived s msg).1 = s' at he ⊢
    cases he <;> exact hj
  | connected c =>
    simp only [step]
    obtain ⟨infos, he⟩ := onConnected_queue s c
    rw [he]; exact hj
  | write i off data =>
    simp only [step]
    have : (writeLocal s i off data).1.localMap = s.localMap := by
      unfold writeLocal
      split
      · rfl
      · split
        simp only
        split
        · rfl
        · unfold outPortDataWriteNotify
          simp only
          split
          · rfl
          · split
            · rfl
            · split <;> rfl
    rw [this]; exact hj
  | stop => exact hj

/-- Files never disappear. -/
theorem step_files {isLocal : Nat → Bool} {s : Mgr H} (h : Sep isLocal s) (op : Op H)
    (i : Nat) (o : FObj) (ho : s.files[i]? = some o) : ∃ o', (step s op).files[i]? = some o' := by
  have hmod : ∀ (j : Nat) (f : FObj → FObj), ∃ o', (s.files.modify j f)[i]? = some o' := by
    intro j f
    by_cases hij : j = i
    · subst hij; exact ⟨_, modify_get _ _ _ o ho⟩
    · exact ⟨o, by rw [modify_ne _ _ _ _ hij]; exact ho⟩
  cases op with
  | attach j =>
    simp only [step]
    rcases attach_cases s j with he | ⟨_, _, _, _, _, he, _, _⟩
    · rw [he]; exact ⟨o, ho⟩
    · rw [he]; exact hmod ..
  | request j => simp only [step, requestRemoteFile]; split <;> exact ⟨o, ho⟩
  | message msg =>
    simp only [step]
    have he := onMsg_effect s msg
    generalize (onMsgReceived s msg).1 = s' at he ⊢
    cases he with
    | same => exact ⟨o, ho⟩
    | info => exact hmod ..
    | opened => exact hmod ..
    | written => exact hmod ..
  | connected c =>
    simp only [step]
    obtain ⟨infos, he⟩ := onConnected_queue s c
    rw [he]; exact ⟨o, ho⟩
  | write j off data =>
    simp only [step]
    rcases writeLocal_cases h j off data with he | ⟨_, _, _, _, _, ⟨_, he⟩ | ⟨_, _, _, _, _, he⟩⟩
    · rw [he]; exact ⟨o, ho⟩
    · rw [he]; exact hmod ..
    · rw [he]; exact hmod ..
  | stop => exact ⟨o, ho⟩

theorem mirror_length (a : Int) (copy : Bytes) (m : Msg H) : (mirror a copy m).length = copy.length := by
  unfold mirror
  split
  · split
    · simp; omega
    · rfl
  · rfl

theorem mirrorAll_length (a : Int) (msgs : List (Msg H)) : ∀ copy : Bytes,
    (mirrorAll a copy msgs).length = copy.length := by
  induction msgs with
  | nil => intro copy; rfl
  | cons m ms ih => intro copy; simp only [mirrorAll, List.foldl_cons] at ih ⊢; rw [ih, mirror_length]

theorem mirrorAll_append (a : Int) (copy : Bytes) (m1 m2 : List (Msg H)) :
    mirrorAll a copy (m1 ++ m2) = mirrorAll a (mirrorAll a copy m1) m2 := by
  simp [mirrorAll]

/-- A message about another file's range leaves the copy alone. -/
theorem mirror_foreign {s : Mgr H} {i : Nat} {o : FObj} {a : Int} (ho : s.files[i]? = some o)
    (ha : o.address = some a)
    (hd : ∀ j ∈ s.localMap.ids, j ≠ i → Disjoint (ent s.files j) (ent s.files i))
    {m : Msg H} (hm : Foreign s i m) (copy : Bytes) (hc : copy.length = o.length) :
    mirror a copy m = copy := by
  unfold mirror
  split
  · rename_i addr data
    split
    · rename_i hr
      by_cases hz : data = []
      · subst hz; simp
      · exfalso
        obtain ⟨j, oj, b, hj, hne, hoj, hb, h1, h2⟩ := hm
        have hpos : 0 < data.length := List.length_pos_iff.mpr hz
        refine hd j hj hne addr ⟨?_, ?_⟩
        · rw [ent_some hoj]; exact ⟨b, hb, h1, by simp only; omega⟩
        · rw [ent_some ho]; exact ⟨a, ha, hr.1, by simp only; omega⟩
    · rfl
  · rfl

theorem mirrorAll_foreign {s : Mgr H} {i : Nat} {o : FObj} {a : Int} (ho : s.files[i]? = some o)
    (ha : o.address = some a)
    (hd : ∀ j ∈ s.localMap.ids, j ≠ i → Disjoint (ent s.files j) (ent s.files i))
    (ms : List (Msg H)) (hm : ∀ m ∈ ms, Foreign s i m) (copy : Bytes) (hc : copy.length = o.length) :
    mirrorAll a copy ms = copy := by
  induction ms with
  | nil => rfl
  | cons m ms ih =>
    simp only [mirrorAll, List.foldl_cons]
    rw [mirror_foreign ho ha hd (hm m (by simp)) copy hc]
    exact ih (fun m' hm' => hm m' (by simp [hm']))

/-- Everything queued, replayed on a copy of any content, gives the content of an open local
file. -/
theorem replay {isLocal : Nat → Bool} {files : List FObj} (hf : Fresh files) (bo : Char)
    (ops : List (Op H)) (hr : ∀ op ∈ ops, op.Respects isLocal) (i : Nat) (hl : isLocal i = true)
    (o : FObj) (ho : (run (start files bo) ops).files[i]? = some o) (hk : o.kind = .output)
    (hopen : o.isOpen = true)
    (hd : ∀ j ∈ (run (start files bo : Mgr H) ops).localMap.ids, j ≠ i →
      Disjoint (ent (run (start files bo) ops).files j) (ent (run (start files bo) ops).files i)) :
    ∃ a, o.address = some a ∧ ∀ copy : Bytes, copy.length = o.length →
      mirrorAll a copy (run (start files bo) ops).queue = o.content.data := by
  revert o
  rw [← List.reverse_reverse ops] at hr hd ⊢
  generalize ops.reverse = rops at hr hd ⊢
  induction rops with
  | nil =>
    intro o ho hk hopen
    simp [run, start] at ho
    have := (hf o (List.mem_of_getElem? ho)).1
    simp [this] at hopen
  | cons op rops ih =>
    intro o' ho' hk hopen
    simp only [List.reverse_cons] at hr hd ho' ⊢
    have hrun : run (start files bo : Mgr H) (rops.reverse ++ [op]) =
        step (run (start files bo) rops.reverse) op := by simp [run]
    rw [hrun] at hd ho' ⊢
    have hsep : Sep isLocal (run (start files bo : Mgr H) rops.reverse) :=
      (sep_start hf bo).run _ (fun op h => hr op (by simp at h ⊢; exact .inl h))
    have hop : op.Respects isLocal := hr op (by simp)
    generalize run (start files bo : Mgr H) rops.reverse = s at hsep hd ho' ih ⊢
    obtain ⟨o, ho, hkind, hlen, haddr, hstep⟩ := step_local hsep op hop i hl o' ho'
    have hd' : ∀ j ∈ s.localMap.ids, j ≠ i → Disjoint (ent s.files j) (ent s.files i) := by
      intro j hj hne x ⟨h1, h2⟩
      obtain ⟨hlj, oj, b, hoj, -, hb⟩ := hsep.localIds j hj
      obtain ⟨oj', hoj'⟩ := step_files hsep op j oj hoj
      obtain ⟨oj2, h3, -, h4, h5, -⟩ := step_local hsep op hop j hlj oj' hoj'
      rw [hoj] at h3; cases h3
      rw [ent_some hoj] at h1
      rw [ent_some ho] at h2
      refine hd j (step_ids op j hj) hne x ⟨?_, ?_⟩
      · rw [ent_some hoj']
        obtain ⟨a1, q1, q2, q3⟩ := h1
        simp only at q1 q2 q3
        refine ⟨a1, ?_, q2, by simp only; omega⟩
        rcases h5 with h5 | h5
        · rw [hb] at h5; cases h5
        · simp only; rw [h5, q1]
      · rw [ent_some ho']
        obtain ⟨a1, q1, q2, q3⟩ := h2
        simp only at q1 q2 q3
        refine ⟨a1, ?_, q2, by simp only; omega⟩
        rcases haddr with h5 | h5
        · rw [h5] at q1; cases q1
        · simp only; rw [h5, q1]
    have hsep' := hsep.step op hop
    obtain ⟨-, o2, a, h1, -, ha⟩ := hsep'.localIds i (hsep'.opened i o' hl ho' hopen)
    rw [ho'] at h1; cases h1
    refine ⟨a, ha, fun copy hc => ?_⟩
    have addr_of : ∀ b, o.address = some b → b = a := by
      intro b hb
      rcases haddr with h5 | h5
      · rw [h5] at hb; cases hb
      · rw [ha, hb] at h5; simpa using h5.symm
    cases hstep hk with
    | quiet new q same op' foreign =>
      obtain ⟨b, hb, hcopy⟩ := ih (fun op h => hr op (by simp at h ⊢; exact .inl h)) hd' o ho
        (by rw [← hkind, hk]) (by rw [← op', hopen])
      have := addr_of b hb
      subst this
      rw [q, mirrorAll_append, hcopy copy (by omega), same]
      exact mirrorAll_foreign ho' ha hd new foreign _ (by rw [← same]; rfl)
    | opened b addr q same =>
      have := addr_of b addr
      subst this
      rw [q, mirrorAll_append, same]
      have hl2 := mirrorAll_length b s.queue copy
      generalize mirrorAll b copy s.queue = c at hl2 ⊢
      have hl3 : c.length = o.content.data.length := by rw [hl2, hc, hlen]; rfl
      simp only [mirrorAll, List.foldl_cons, List.foldl_nil, mirror]
      rw [if_pos (by omega)]
      simp [hl3]
    | closedWrite closed => rw [closed] at hopen; cases hopen
    | openWrite b n data addr op' fits same q =>
      obtain ⟨b', hb, hcopy⟩ := ih (fun op h => hr op (by simp at h ⊢; exact .inl h)) hd' o ho
        (by rw [← hkind, hk]) op'
      have := addr_of b addr
      subst this
      have := addr_of b' hb
      subst this
      rw [q, mirrorAll_append, hcopy copy (by omega), same]
      unfold FObj.length at fits
      rw [FileData.write_fits _ _ _ fits]
      simp only [mirrorAll, List.foldl_cons, List.foldl_nil, mirror]
      rw [if_pos (by omega)]
      rw [show (b' + (n : Int) - b').toNat = n by omega]

end Apx.Manager
