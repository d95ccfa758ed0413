import Verif.Proofs.FileManager2

/-! The map of remote files, for programs that request each file once. -/

namespace Apx.Manager
open FileMap

variable {H : Type}

structure ROnce (done : List Nat) (s : Mgr H) : Prop where
  inv : Inv (s.remoteMap.view s.files)
  opened : ∀ i ∈ s.remoteMap.ids, ∃ o, s.files[i]? = some o ∧ o.isOpen = true
  ids_done : ∀ i ∈ s.remoteMap.ids, i ∈ done
  req_done : ∀ n i, (n, i) ∈ s.requested → i ∈ done
  apart : ∀ n i, (n, i) ∈ s.requested → i ∉ s.remoteMap.ids

theorem ROnce.modify {done : List Nat} {s : Mgr H} (h : ROnce done s) (i : Nat) (f : FObj → FObj)
    (q : List (Msg H)) (l : MapRef)
    (hf : ∀ o, (i ∈ s.remoteMap.ids → (f o).address = o.address) ∧ (o.isOpen = true → (f o).isOpen = true)) :
    ROnce done { s with files := s.files.modify i f, queue := q, localMap := l } := by
  have key : ∀ (j : Nat) (o : FObj), s.files[j]? = some o → ∃ o' : FObj, (s.files.modify i f)[j]? = some o' ∧
      (j ∈ s.remoteMap.ids → o'.address = o.address) ∧ (o.isOpen = true → o'.isOpen = true) := by
    intro j o ho
    by_cases hij : i = j
    · subst hij
      exact ⟨_, modify_get _ _ _ o ho, (hf o).1, (hf o).2⟩
    · exact ⟨o, by rw [modify_ne _ _ _ _ hij]; exact ho, fun _ => rfl, fun h => h⟩
  refine ⟨?_, ?_, h.ids_done, h.req_done, h.apart⟩
  · refine inv_view h.inv fun j hj => ?_
    obtain ⟨o, ho, -⟩ := h.opened j hj
    obtain ⟨o', h2, h3, -⟩ := key j o ho
    rw [ent_some ho, ent_some h2]
    exact h3 hj
  · intro j hj
    obtain ⟨o, ho, hopen⟩ := h.opened j hj
    obtain ⟨o', h2, -, h3⟩ := key j o ho
    exact ⟨o', h2, h3 hopen⟩

theorem inv_insert_view {files : List FObj} {m : MapRef} (h : Inv (m.view files)) (i : Nat) (a : Int)
    (ha : (ent files i).address = some a) :
    Inv ((MapRef.mk (m.keys.insertIdx (bisectLeft m.keys a) a)
      (m.ids.insertIdx (bisectLeft m.keys a) i)).view files) := by
  have := inv_insertAt h (ent files i) a ha
  simp only [MapRef.view] at this ⊢
  rw [map_insertIdx']
  exact this

theorem ROnce.effect {isLocal : Nat → Bool} {done : List Nat} {s s' : Mgr H} {msg : Bytes}
    (hs : Sep isLocal s) (h : ROnce done s) (he : Effect s msg s') : ROnce done s' := by
  cases he with
  | same => exact h
  | info i o r a req obj len addr =>
    have hmem := lookup_mem req
    have hnot := h.apart _ _ hmem
    have h2 := h.modify i
      (fun o =>
        { o with
          address := r.address, fileType := r.fileType,
          digestType := r.digestType, digestData := r.digestData, isOpen := true })
      (s.queue ++ [.fileOpen a]) s.localMap (fun o => ⟨fun x => absurd x hnot, fun _ => rfl⟩)
    refine ⟨inv_insert_view h2.inv i a ?_, ?_, ?_, ?_, ?_⟩
    · rw [ent_some (modify_get _ _ _ o obj)]; exact addr
    · intro j hj
      rcases mem_insertIdx_sub hj with rfl | hj
      · exact ⟨_, modify_get _ _ _ o obj, rfl⟩
      · exact h2.opened j hj
    · intro j hj
      rcases mem_insertIdx_sub hj with rfl | hj
      · exact h.req_done _ _ hmem
      · exact h.ids_done j hj
    · intro n j hj
      simp [dictDel] at hj
      exact h.req_done n j hj.1
    · intro n j hj hin
      simp [dictDel] at hj
      rcases mem_insertIdx_sub hin with rfl | hin
      · obtain ⟨-, o2, h3, h4⟩ := hs.req n j hj.1
        rw [obj] at h3; cases h3
        exact hj.2 h4.symm
      · exact h.apart n j hj.1 hin
  | opened i o a mem obj addr =>
    exact h.modify i _ _ s.localMap (fun o => ⟨fun _ => rfl, fun _ => rfl⟩)
  | written n x more i o a off header mem obj isOpen addr offset fits =>
    exact h.modify i _ s.queue s.localMap (fun o => ⟨fun _ => rfl, fun h => h⟩)

theorem ROnce.step {isLocal : Nat → Bool} {done : List Nat} {s : Mgr H} (hs : Sep isLocal s)
    (h : ROnce done s) (op : Op H) (hop : op.Respects isLocal) (hn : ∀ i, op.requests = some i → i ∉ done) :
    ROnce (done ++ op.requests.toList) (step s op) := by
  cases op with
  | attach i =>
    simp only [Op.requests, Option.toList, List.append_nil, Manager.step]
    rcases attach_cases s i with he | ⟨o, a, k, ho, ha, he, hk, hins⟩
    · rw [he]; exact h
    · rw [he]
      refine h.modify i _ s.queue _ (fun o' => ⟨fun hin => ?_, fun h => h⟩)
      have := (hs.remote i hin).1
      simp only [Op.Respects] at hop
      rw [hop] at this; cases this
  | request i =>
    simp only [Op.requests, Option.toList, Manager.step, requestRemoteFile]
    have hi := hn i rfl
    split
    · exact ⟨h.inv, h.opened, fun j hj => by simp [h.ids_done j hj], fun n j hj => by simp [h.req_done n j hj], h.apart⟩
    · refine ⟨h.inv, h.opened, fun j hj => by simp [h.ids_done j hj], fun n j hj => ?_, fun n j hj => ?_⟩
      · rcases dictSet_mem hj with hj | hj
        · simp [h.req_done n j hj]
        · cases hj; simp
      · rcases dictSet_mem hj with hj | hj
        · exact h.apart n j hj
        · cases hj; exact fun hin => hi (h.ids_done _ hin)
  | message msg =>
    simp only [Op.requests, Option.toList, List.append_nil, Manager.step]
    exact h.effect hs (onMsg_effect s msg)
  | connected c =>
    simp only [Op.requests, Option.toList, List.append_nil, Manager.step]
    obtain ⟨infos, he⟩ := onConnected_queue s c
    rw [he]
    exact ⟨h.inv, h.opened, h.ids_done, h.req_done, h.apart⟩
  | write i off data =>
    simp only [Op.requests, Option.toList, List.append_nil, Manager.step]
    rcases writeLocal_cases hs i off data with he | ⟨o, n, ho, -, -, ⟨-, he⟩ | ⟨a, -, -, -, -, he⟩⟩
    · rw [he]; exact h
    · rw [he]; exact h.modify i _ s.queue s.localMap (fun o => ⟨fun _ => rfl, fun h => h⟩)
    · rw [he]; exact h.modify i _ _ s.localMap (fun o => ⟨fun _ => rfl, fun h => h⟩)
  | stop =>
    simp only [Op.requests, Option.toList, List.append_nil, Manager.step]
    exact ⟨h.inv, h.opened, h.ids_done, h.req_done, h.apart⟩

theorem ROnce.run {isLocal : Nat → Bool} (ops : List (Op H)) : ∀ {done : List Nat} {s : Mgr H},
    Sep isLocal s → ROnce done s → (∀ op ∈ ops, op.Respects isLocal) →
    (ops.filterMap Op.requests).Nodup → (∀ i ∈ ops.filterMap Op.requests, i ∉ done) →
    ∃ done', ROnce done' (run s ops) := by
  induction ops with
  | nil => intro done s _ h _ _ _; exact ⟨done, h⟩
  | cons op ops ih =>
    intro done s hs h hr hnd hdisj
    have hstep := h.step hs op (hr op (by simp)) (fun i hi => hdisj i (by
      rw [List.filterMap_cons, hi]; simp))
    refine ih (hs.step op (hr op (by simp))) hstep (fun o ho => hr o (by simp [ho])) ?_ ?_
    · rw [List.filterMap_cons] at hnd
      split at hnd
      · exact hnd
      · exact (List.nodup_cons.mp hnd).2
    · intro i hi hin
      rw [List.filterMap_cons] at hnd hdisj
      rcases List.mem_append.mp hin with hin | hin
      · refine hdisj i ?_ hin
        split
        · exact hi
        · exact List.mem_cons_of_mem _ hi
      · cases hq : op.requests with
        | none => rw [hq] at hin; simp at hin
        | some j =>
          rw [hq] at hin hnd
          simp at hin
          subst hin
          exact (List.nodup_cons.mp hnd).1 hi

end Apx.Manager
