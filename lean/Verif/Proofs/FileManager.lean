import Verif.Spec.FileManager
import Verif.Proofs.FileMap2
import Verif.Props.File

namespace Apx.Manager
open FileMap

variable {H : Type}

theorem ent_id (files : List FObj) (i : Nat) : (ent files i).id = i := by
  unfold ent; split <;> rfl

theorem ent_some {files : List FObj} {i : Nat} {o : FObj} (h : files[i]? = some o) :
    ent files i = ⟨i, true, o.name, o.length, o.address⟩ := by
  unfold ent; rw [h]

theorem map_insertIdx' {α β} (f : α → β) (l : List α) (k : Nat) (x : α) :
    (l.insertIdx k x).map f = (l.map f).insertIdx k (f x) := by
  induction l generalizing k with
  | nil => cases k <;> simp
  | cons a l ih => cases k <;> simp [List.insertIdx_succ_cons, ih]

theorem view_ids (files : List FObj) (m : MapRef) : (m.view files).items.map (·.id) = m.ids := by
  simp only [MapRef.view, List.map_map]
  conv => rhs; rw [← List.map_id m.ids]
  apply List.map_congr_left
  intro i _
  simp [ent_id]

/-- Inserting into a map given by identities. -/
theorem view_insert {files : List FObj} {m : MapRef} {f f' : FileEnt} {m' : FileMap}
    (h : (m.view files).insert f = .ok (m', f')) :
    ∃ k, f'.address = some k ∧ f'.id = f.id ∧
      MapRef.ofView m' = ⟨m.keys.insertIdx (bisectLeft m.keys k) k,
        m.ids.insertIdx (bisectLeft m.keys k) f.id⟩ ∧
      m'.items = (m.view files).items.insertIdx (bisectLeft m.keys k) f' ∧
      ((f' = f ∧ f.address = some k) ∨ (f.address = none ∧ f' = { f with address := some k })) := by
  obtain ⟨k, h1, h2, h3⟩ := insert_ok h
  have hid : f'.id = f.id := by
    rcases h3 with ⟨h3, -⟩ | ⟨-, h3, -⟩ <;> rw [h3]
  refine ⟨k, h1, hid, ?_, by rw [h2]; rfl, ?_⟩
  · subst h2
    simp only [MapRef.ofView, map_insertIdx', view_ids, hid]
    rfl
  · rcases h3 with h3 | ⟨h4, h3, -⟩
    · exact .inl h3
    · exact .inr ⟨h4, h3⟩

theorem find_sound {m : FileMap} {x : Int} {f : FileEnt} (h : m.findByAddress x = some f) :
    f ∈ m.items ∧ Occupies f x := by
  have hhits : ∀ g : FileEnt, hits g x = true → Occupies g x := by
    intro g
    unfold hits Occupies
    cases hg : g.address with
    | none => simp
    | some a => simp
  unfold findByAddress at h
  split at h
  · simp at h
  · simp only at h
    have prev : ∀ i : Nat, m.findPrevious i x = some f → f ∈ m.items ∧ Occupies f x := by
      intro i hi
      unfold findPrevious at hi
      split at hi
      · split at hi
        · rename_i item hit
          split at hi
          · rename_i hh
            simp at hi; subst hi
            exact ⟨List.mem_of_getElem? hit, hhits _ hh⟩
          · simp at hi
        · simp at hi
      · simp at hi
    split at h
    · rename_i item hit
      split at h
      · rename_i hh
        simp at h; subst h
        exact ⟨List.mem_of_getElem? hit, hhits _ hh⟩
      · exact prev _ h
    · exact prev _ h

/-- What a lookup in a map returns, in terms of objects. -/
theorem view_find {files : List FObj} {m : MapRef} {x : Int} {f : FileEnt}
    (h : (m.view files).findByAddress x = some f) :
    ∃ i o a, i ∈ m.ids ∧ files[i]? = some o ∧ o.address = some a ∧ a ≤ x ∧ x < a + o.length ∧
      f = ⟨i, true, o.name, o.length, some a⟩ := by
  obtain ⟨hm, a, ha, h1, h2⟩ := find_sound h
  simp only [MapRef.view, List.mem_map] at hm
  obtain ⟨i, hi, rfl⟩ := hm
  unfold ent at ha h2 ⊢
  split at ha
  · rename_i o ho
    simp only [ho] at h2 ⊢
    simp only at ha
    exact ⟨i, o, a, hi, ho, ha, h1, h2, by rw [ha]⟩
  · simp at ha

/-- What `onMsgReceived` may do to the manager's state. -/
inductive Effect (s : Mgr H) (msg : Bytes) : Mgr H → Prop
  | same : Effect s msg s
  | info (i : Nat) (o : FObj) (r : Rmf.FileInfo) (a : Int)
      (req : s.requested.lookup r.name = some i) (obj : s.files[i]? = some o)
      (len : (o.length : Int) = r.length) (addr : r.address = some a) :
      Effect s msg
        { s with
          files := s.files.modify i fun o =>
            { o with address := r.address, fileType := r.fileType, digestType := r.digestType,
                     digestData := r.digestData, isOpen := true }
          requested := dictDel s.requested o.name
          remoteMap := ⟨s.remoteMap.keys.insertIdx (bisectLeft s.remoteMap.keys a) a,
            s.remoteMap.ids.insertIdx (bisectLeft s.remoteMap.keys a) i⟩
          queue := s.queue ++ [.fileOpen a] }
  | opened (i : Nat) (o : FObj) (a : Int) (mem : i ∈ s.localMap.ids) (obj : s.files[i]? = some o)
      (addr : o.address = some a) :
      Effect s msg
        { s with
          files := s.files.modify i fun o => { o with isOpen := true }
          queue := s.queue ++ [.writeData a o.content.data] }
  | written (n : Nat) (x : Nat) (more : Bool) (i : Nat) (o : FObj) (a : Int) (off : Nat)
      (header : Rmf.unpackHeader msg = (n, some x, more)) (mem : i ∈ s.remoteMap.ids)
      (obj : s.files[i]? = some o) (isOpen : o.isOpen = true) (addr : o.address = some a)
      (offset : (x : Int) = a + off) (fits : off + (msg.drop n).length ≤ o.length) :
      Effect s msg
        { s with
          files := s.files.modify i fun o' => { o' with content := (o.content.write off (msg.drop n)).1 } }

theorem modify_get {α} (l : List α) (i : Nat) (f : α → α) (x : α) (h : l[i]? = some x) :
    (l.modify i f)[i]? = some (f x) := by
  rw [List.getElem?_modify]; simp [h]

theorem modify_ne {α} (l : List α) (i j : Nat) (f : α → α) (h : i ≠ j) :
    (l.modify i f)[j]? = l[j]? := by
  rw [List.getElem?_modify]; simp [h]

theorem processFileInfo_effect (s : Mgr H) (msg data : Bytes) :
    Effect s msg (processFileInfo s data).1 := by
  unfold processFileInfo
  split
  · exact .same
  · exact .same
  · rename_i remote hu
    split
    · rename_i i hi
      split
      · exact .same
      · rename_i o ho
        split
        · rename_i hlen
          have haddr : ∃ a, remote.address = some a := by
            unfold Rmf.unpackFileInfo at hu
            simp only [bind, Except.bind] at hu
            split at hu
            · simp at hu
            · split at hu
              · split at hu
                · simp at hu
                · simp only [Except.ok.injEq, Option.some.injEq] at hu
                  rw [← hu]; exact ⟨_, rfl⟩
              · simp at hu
          obtain ⟨a, ha⟩ := haddr
          simp only
          have hent := ent_some (modify_get s.files i (fun o =>
            { o with address := remote.address, fileType := remote.fileType,
                     digestType := remote.digestType, digestData := remote.digestData,
                     isOpen := true }) o ho)
          split
          · rename_i e he
            exfalso
            unfold update at he
            rw [hent] at he
            simp [FileMap.insert, ha, bind, Except.bind] at he
          · rename_i m f hins
            obtain ⟨k, h1, h2, h3, -, h5⟩ := view_insert hins
            rw [h3, h1]
            have hka : k = a := by
              unfold update at h5
              rw [hent] at h5
              simp only [ha] at h5
              rcases h5 with ⟨-, h5⟩ | ⟨h5, -⟩
              · simpa using h5.symm
              · simp at h5
            subst hka
            rw [ent_id]
            exact .info i o remote k hi ho hlen ha
        · exact .same
    · simp [FileMap.insert]
      exact .same

theorem processFileOpen_effect (s : Mgr H) (msg data : Bytes) :
    Effect s msg (processFileOpen s data).1 := by
  unfold processFileOpen
  split
  · exact .same
  · split
    · exact .same
    · rename_i address _ f hf
      obtain ⟨i, o, a, hi, ho, ha, -, -, rfl⟩ := view_find hf
      simp only [update]
      rw [modify_get _ _ _ o ho]
      simp only
      have hread : o.content.read 0 (FObj.length { o with isOpen := true }) = some o.content.data := by
        unfold FileData.read FileData.slice FObj.length
        simp only
        rw [if_neg (by omega), if_neg (by omega)]
        simp
      rw [hread, ha]
      exact .opened i o a hi ho ha

theorem processFileClose_effect (s : Mgr H) (msg data : Bytes) :
    Effect s msg (processFileClose s data).1 := by
  unfold processFileClose
  have : ∃ e, Rmf.unpackFileClose data s.byteOrder = .error e := by
    unfold Rmf.unpackFileClose
    simp only [bind, Except.bind]
    split
    · exact ⟨_, rfl⟩
    · split <;> exact ⟨_, rfl⟩
  obtain ⟨e, he⟩ := this
  rw [he]
  exact .same

theorem processCmd_effect (s : Mgr H) (msg data : Bytes) : Effect s msg (processCmd s data).1 := by
  unfold processCmd
  split
  · simp only
    split
    · exact processFileInfo_effect s msg data
    · split
      · exact processFileOpen_effect s msg data
      · split
        · exact processFileClose_effect s msg data
        · exact .same
  · exact .same

theorem onMsg_effect (s : Mgr H) (msg : Bytes) : Effect s msg (onMsgReceived s msg).1 := by
  unfold onMsgReceived
  split
  rename_i n address more hh
  split
  · split
    · exact .same
    · rename_i x
      split
      · exact processCmd_effect s msg _
      · split
        · unfold processFileWrite
          split
          · exact .same
          · rename_i f hf
            obtain ⟨i, o, a, hi, ho, ha, hax, hxa, rfl⟩ := view_find hf
            simp only
            rw [ho]
            simp only
            split
            · rename_i hopen
              rw [ha]
              simp only
              split
              · rename_i hfit
                obtain ⟨off, hoff⟩ := Int.eq_ofNat_of_zero_le (show 0 ≤ (x : Int) - a by omega)
                unfold writeRemote
                split
                · rw [hoff]
                  simp only [FileData.inputWrite]
                  exact .written n x more i o a off hh hi ho hopen ha (by omega) (by omega)
                · exact .same
                · exact .same
              · exact .same
            · exact .same
        · exact .same
  · exact .same

theorem write_overwrites (f : FileData) (off : Nat) (data : Bytes) (h : off + data.length ≤ f.data.length) :
    Overwrites f.data off data (f.write off data).1.data := by
  obtain ⟨-, h2, h3⟩ := (FileData.C19_write f off data).1 ⟨by omega, by omega⟩
  refine ⟨h2, h, fun k => ?_⟩
  rw [h3 k]
  simp only [Int.toNat_natCast]
  by_cases hk : off ≤ k ∧ k < off + data.length
  · rw [if_pos (by omega), if_pos hk]
  · rw [if_neg (by omega), if_neg hk]

end Apx.Manager

namespace Apx.Manager
open FileMap

variable {H : Type}

theorem modify_cases {α} {l : List α} {i j : Nat} {f : α → α} {y : α}
    (h : (l.modify i f)[j]? = some y) :
    (j = i ∧ ∃ x, l[i]? = some x ∧ y = f x) ∨ (j ≠ i ∧ l[j]? = some y) := by
  rw [List.getElem?_modify] at h
  by_cases hij : i = j
  · subst hij
    simp at h
    obtain ⟨x, hx, rfl⟩ := h
    exact .inl ⟨rfl, x, hx, rfl⟩
  · simp [hij] at h
    exact .inr ⟨fun x => hij x.symm, h⟩

theorem lookup_mem {α} {d : List (Str × α)} {k : Str} {v : α} (h : d.lookup k = some v) :
    (k, v) ∈ d := by
  induction d with
  | nil => simp at h
  | cons p d ih =>
    obtain ⟨a, b⟩ := p
    simp only [List.lookup] at h
    split at h
    · rename_i he
      simp at he h; subst he; subst h; simp
    · exact List.mem_cons_of_mem _ (ih h)

theorem dictSet_mem {α} {d : List (Str × α)} {k : Str} {v : α} {p : Str × α}
    (h : p ∈ dictSet d k v) : p ∈ d ∨ p = (k, v) := by
  unfold dictSet at h
  split at h
  · simp only [List.mem_map] at h
    obtain ⟨q, hq, rfl⟩ := h
    split
    · exact .inr rfl
    · exact .inl hq
  · simpa using h

/-- Invariant of every program that keeps local and requested files apart. -/
structure Sep (isLocal : Nat → Bool) (s : Mgr H) : Prop where
  req : ∀ n i, (n, i) ∈ s.requested → isLocal i = false ∧ ∃ o, s.files[i]? = some o ∧ o.name = n
  remote : ∀ i ∈ s.remoteMap.ids, isLocal i = false ∧ ∃ o, s.files[i]? = some o
  localIds : ∀ i ∈ s.localMap.ids, isLocal i = true ∧
    ∃ o a, s.files[i]? = some o ∧ o.hasManager = true ∧ o.address = some a
  opened : ∀ i o, isLocal i = true → s.files[i]? = some o → o.isOpen = true → i ∈ s.localMap.ids
  managed : ∀ i o, s.files[i]? = some o → o.hasManager = true → i ∈ s.localMap.ids
  inv : Inv (s.localMap.view s.files)
  rlen : s.remoteMap.keys.length = s.remoteMap.ids.length

theorem bisectLeftLoop_le (a : List Int) (x : Int) (n : Nat) : ∀ lo hi, hi - lo ≤ n → lo ≤ hi →
    bisectLeftLoop a x lo hi ≤ hi := by
  induction n with
  | zero => intro lo hi h1 h2; rw [bisectLeftLoop, if_neg (by omega)]; omega
  | succ n ih =>
    intro lo hi h1 h2
    rw [bisectLeftLoop]
    split
    · simp only
      split
      · exact ih _ _ (by omega) (by omega)
      · exact Nat.le_trans (ih _ _ (by omega) (by omega)) (by omega)
    · exact h2

theorem bisectLeft_le (a : List Int) (x : Int) : bisectLeft a x ≤ a.length :=
  bisectLeftLoop_le a x _ 0 a.length (Nat.le_refl _) (by omega)

theorem inv_view {files files' : List FObj} {m : MapRef} (h : Inv (m.view files))
    (he : ∀ i ∈ m.ids, (ent files' i).address = (ent files i).address) : Inv (m.view files') := by
  refine ⟨h.sorted, ?_⟩
  rw [show (m.view files').keys = (m.view files).keys from rfl, ← h.agree]
  simp only [MapRef.view, List.map_map]
  exact List.map_congr_left he

theorem sep_start {isLocal : Nat → Bool} {files : List FObj} (h : Fresh files) (bo : Char) :
    Sep isLocal (start files bo : Mgr H) := by
  refine ⟨by simp [start], by simp [start], by simp [start], ?_, ?_, ?_, rfl⟩
  · intro i o _ ho hopen
    have := (h o (List.mem_of_getElem? ho)).1
    simp [this] at hopen
  · intro i o ho hm
    have := (h o (List.mem_of_getElem? ho)).2
    simp [this] at hm
  · exact inv_empty

/-- Changing one object without touching name, address and manager keeps the invariant, unless
it opens an unattached local file. -/
theorem Sep.modify {isLocal : Nat → Bool} {s : Mgr H} (h : Sep isLocal s) (i : Nat) (f : FObj → FObj)
    (q : List (Msg H)) (hf : ∀ o, (f o).name = o.name ∧ (f o).hasManager = o.hasManager ∧
      ((f o).address = o.address ∨ isLocal i = false) ∧
      ((f o).isOpen = o.isOpen ∨ isLocal i = false ∨ i ∈ s.localMap.ids)) :
    Sep isLocal { s with files := s.files.modify i f, queue := q } := by
  have key : ∀ j o, s.files[j]? = some o → ∃ o', (s.files.modify i f)[j]? = some o' ∧
      o'.name = o.name ∧ o'.hasManager = o.hasManager ∧ (isLocal j = true → o'.address = o.address) := by
    intro j o ho
    by_cases hij : i = j
    · subst hij
      obtain ⟨h1, h2, h3, -⟩ := hf o
      exact ⟨_, modify_get _ _ _ o ho, h1, h2, fun hl => by rcases h3 with h3 | h3 <;> simp_all⟩
    · exact ⟨o, by rw [modify_ne _ _ _ _ hij]; exact ho, rfl, rfl, fun _ => rfl⟩
  refine ⟨?_, ?_, ?_, ?_, ?_, ?_, h.rlen⟩
  · intro n j hm
    obtain ⟨h1, o, ho, hn⟩ := h.req n j hm
    obtain ⟨o', h2, h3, -⟩ := key j o ho
    exact ⟨h1, o', h2, by rw [h3, hn]⟩
  · intro j hj
    obtain ⟨h1, o, ho⟩ := h.remote j hj
    obtain ⟨o', h2, -⟩ := key j o ho
    exact ⟨h1, o', h2⟩
  · intro j hj
    obtain ⟨h1, o, a, ho, hm, ha⟩ := h.localIds j hj
    obtain ⟨o', h2, h3, h4, h5⟩ := key j o ho
    exact ⟨h1, o', a, h2, by rw [h4, hm], by rw [h5 h1, ha]⟩
  · intro j o' hl ho hopen
    rcases modify_cases ho with ⟨rfl, o, ho', rfl⟩ | ⟨hne, ho'⟩
    · rcases (hf o).2.2.2 with h1 | h1 | h1
      · rw [h1] at hopen; exact h.opened _ _ hl ho' hopen
      · rw [h1] at hl; cases hl
      · exact h1
    · exact h.opened _ _ hl ho' hopen
  · intro j o' ho hm
    rcases modify_cases ho with ⟨rfl, o, ho', rfl⟩ | ⟨hne, ho'⟩
    · rw [(hf o).2.1] at hm; exact h.managed _ _ ho' hm
    · exact h.managed _ _ ho' hm
  · refine inv_view h.inv fun j hj => ?_
    obtain ⟨h1, o, a, ho, -, -⟩ := h.localIds j hj
    obtain ⟨o', h2, -, -, h5⟩ := key j o ho
    rw [ent_some ho, ent_some h2]
    exact h5 h1

theorem mem_insertIdx_sub {α} {l : List α} {k : Nat} {x y : α} (h : y ∈ l.insertIdx k x) :
    y = x ∨ y ∈ l := by
  induction l generalizing k with
  | nil => cases k <;> simp_all
  | cons a l ih =>
    cases k with
    | zero => simpa using h
    | succ k =>
      simp only [List.insertIdx_succ_cons, List.mem_cons] at h
      rcases h with h | h
      · right; simp [h]
      · rcases ih h with h | h
        · exact .inl h
        · right; simp [h]

theorem mem_insertIdx_old {α} {l : List α} {k : Nat} {x y : α} (h : y ∈ l) : y ∈ l.insertIdx k x := by
  induction l generalizing k with
  | nil => simp at h
  | cons a l ih =>
    cases k with
    | zero => simp; right; simpa using h
    | succ k =>
      simp only [List.insertIdx_succ_cons, List.mem_cons]
      rcases List.mem_cons.mp h with h | h
      · exact .inl h
      · exact .inr (ih h)

theorem Sep.effect {isLocal : Nat → Bool} {s s' : Mgr H} {msg : Bytes} (h : Sep isLocal s)
    (he : Effect s msg s') : Sep isLocal s' := by
  cases he with
  | same => exact h
  | info i o r a req obj len addr =>
    obtain ⟨hl, -⟩ := h.req _ _ (lookup_mem req)
    have := h.modify i
      (fun o =>
        { o with
          address := r.address, fileType := r.fileType,
          digestType := r.digestType, digestData := r.digestData, isOpen := true })
      (s.queue ++ [.fileOpen a]) (fun o => ⟨rfl, rfl, .inr hl, .inr (.inl hl)⟩)
    refine ⟨?_, ?_, this.localIds, this.opened, this.managed, this.inv, ?_⟩
    · intro n j hm
      exact this.req n j (by simp [dictDel] at hm; exact hm.1)
    · intro j hj
      rcases mem_insertIdx_sub hj with rfl | hj
      · exact ⟨hl, _, modify_get _ _ _ o obj⟩
      · exact this.remote j hj
    · have h1 := h.rlen
      have h2 := bisectLeft_le s.remoteMap.keys a
      simp only
      rw [List.length_insertIdx, List.length_insertIdx, if_pos h2, if_pos (h1 ▸ h2), h1]
  | opened i o a mem obj addr =>
    exact h.modify i _ _ (fun o => ⟨rfl, rfl, .inl rfl, .inr (.inr mem)⟩)
  | written n x more i o a off header mem obj isOpen addr offset fits =>
    exact h.modify i _ s.queue (fun o => ⟨rfl, rfl, .inl rfl, .inl rfl⟩)

theorem Sep.put {isLocal : Nat → Bool} {s : Mgr H} (h : Sep isLocal s) (m : Msg H) :
    Sep isLocal (s.put m) := ⟨h.req, h.remote, h.localIds, h.opened, h.managed, h.inv, h.rlen⟩

/-- `onConnected` only queues a connect message and file announcements. -/
theorem announce_queue (is : List Nat) : ∀ s : Mgr H, ∃ infos : List Bytes,
    (announce s is).1 = { s with queue := s.queue ++ infos.map .fileInfo } := by
  induction is with
  | nil => intro s; exact ⟨[], by simp [announce]⟩
  | cons i is ih =>
    intro s
    simp only [announce]
    split
    · exact ⟨[], by simp⟩
    · split
      · exact ⟨[], by simp⟩
      · rename_i o _ bs _
        obtain ⟨infos, h⟩ := ih (s.put (.fileInfo bs))
        exact ⟨bs :: infos, by rw [h]; simp [Mgr.put]⟩

theorem onConnected_queue (s : Mgr H) (h : H) : ∃ infos : List Bytes,
    (onConnected s h).1 = { s with queue := s.queue ++ (.connect h :: infos.map .fileInfo) } := by
  obtain ⟨infos, he⟩ := announce_queue s.localMap.ids (s.put (.connect h))
  exact ⟨infos, by unfold onConnected; rw [he]; simp [Mgr.put]⟩

/-- `attachLocalFile` when it succeeds. -/
theorem attach_cases (s : Mgr H) (i : Nat) :
    (attachLocalFile s i).1 = s ∨
    ∃ o a k, s.files[i]? = some o ∧ (o.address = none ∨ o.address = some a) ∧
      (attachLocalFile s i) = ({ s with
        localMap := ⟨s.localMap.keys.insertIdx k a, s.localMap.ids.insertIdx k i⟩
        files := s.files.modify i fun o => { o with address := some a, hasManager := true } }, none) ∧
      k = bisectLeft s.localMap.keys a ∧
      (s.localMap.view s.files).insert (ent s.files i) =
        .ok (⟨s.localMap.keys.insertIdx k a,
          (s.localMap.view s.files).items.insertIdx k { ent s.files i with address := some a }⟩,
          { ent s.files i with address := some a }) := by
  unfold attachLocalFile
  split
  · exact .inl rfl
  · right
    rename_i m f hins
    obtain ⟨k, h1, h2, h3, h4, h5⟩ := view_insert hins
    have hobj : ∃ o, s.files[i]? = some o := by
      cases ho : s.files[i]? with
      | some o => exact ⟨o, rfl⟩
      | none => unfold ent at hins; simp [ho, FileMap.insert] at hins
    obtain ⟨o, ho⟩ := hobj
    have hf : f = { ent s.files i with address := some k } := by
      rcases h5 with ⟨h5, h6⟩ | ⟨-, h5⟩
      · rw [h5, ← h6]
      · exact h5
    have hm : m = ⟨s.localMap.keys.insertIdx (bisectLeft s.localMap.keys k) k,
        (s.localMap.view s.files).items.insertIdx (bisectLeft s.localMap.keys k) f⟩ := by
      obtain ⟨k', q1, q2, -⟩ := insert_ok hins
      rw [h1] at q1
      cases q1
      exact q2
    refine ⟨o, k, bisectLeft s.localMap.keys k, ho, ?_, ?_, rfl, ?_⟩
    · rw [ent_some ho] at h5
      rcases h5 with ⟨-, h5⟩ | ⟨h5, -⟩
      · exact .inr h5
      · exact .inl h5
    · rw [h3, h1, ent_id]; rfl
    · rw [hins, hm, hf]

theorem Sep.attach {isLocal : Nat → Bool} {s : Mgr H} (h : Sep isLocal s) {i : Nat}
    (hl : isLocal i = true) : Sep isLocal (attachLocalFile s i).1 := by
  rcases attach_cases s i with he | ⟨o, a, k, ho, ha, he, hk, hins⟩
  · rw [he]; exact h
  · rw [he]
    have hmem : ∀ j, j ∈ s.localMap.ids.insertIdx k i → j = i ∨ j ∈ s.localMap.ids :=
      fun j hj => mem_insertIdx_sub hj
    have hlen : k ≤ s.localMap.ids.length := by
      have h1 := (h.inv.split a).2.1
      rw [hk]
      simpa [MapRef.view] using h1
    have hself : i ∈ s.localMap.ids.insertIdx k i := (List.mem_insertIdx hlen).mpr (.inl rfl)
    have key : ∀ (j : Nat) (o' : FObj), s.files[j]? = some o' →
        ∃ o'' : FObj, (s.files.modify i fun o => { o with address := some a, hasManager := true })[j]? = some o'' ∧
          o''.name = o'.name ∧ o''.isOpen = o'.isOpen ∧ (o'.hasManager = true → o''.hasManager = true) ∧
          (o'.address = none ∨ o''.address = o'.address) := by
      intro j o' ho'
      by_cases hij : i = j
      · subst hij
        rw [ho] at ho'; cases ho'
        refine ⟨_, modify_get _ _ _ o ho, rfl, rfl, fun _ => rfl, ?_⟩
        rcases ha with ha | ha
        · exact .inl ha
        · exact .inr ha.symm
      · exact ⟨o', by rw [modify_ne _ _ _ _ hij]; exact ho', rfl, rfl, fun h => h, .inr rfl⟩
    refine ⟨?_, ?_, ?_, ?_, ?_, ?_, h.rlen⟩
    · intro n j hj
      obtain ⟨h1, o', h2, h3⟩ := h.req n j hj
      obtain ⟨o'', h4, h5, -⟩ := key j o' h2
      exact ⟨h1, o'', h4, by rw [h5, h3]⟩
    · intro j hj
      obtain ⟨h1, o', h2⟩ := h.remote j hj
      obtain ⟨o'', h4, -⟩ := key j o' h2
      exact ⟨h1, o'', h4⟩
    · intro j hj
      by_cases hij : i = j
      · subst hij
        exact ⟨hl, _, a, modify_get _ _ _ o ho, rfl, rfl⟩
      · rcases hmem j hj with rfl | hj
        · exact absurd rfl hij
        · obtain ⟨h1, o', b, h2, h3, h4⟩ := h.localIds j hj
          exact ⟨h1, o', b, by simp only; rw [modify_ne _ _ _ _ hij]; exact h2, h3, h4⟩
    · intro j o' hlj ho' hopen
      rcases modify_cases ho' with ⟨rfl, o, -, -⟩ | ⟨hne, ho'⟩
      · exact hself
      · exact mem_insertIdx_old (h.opened j o' hlj ho' hopen)
    · intro j o' ho' hm
      rcases modify_cases ho' with ⟨rfl, o, -, -⟩ | ⟨hne, ho'⟩
      · exact hself
      · exact mem_insertIdx_old (h.managed j o' ho' hm)
    · have h1 := inv_insert h.inv hins
      refine ⟨h1.sorted, ?_⟩
      simp only [MapRef.view] at h1 ⊢
      rw [← h1.agree, map_insertIdx', map_insertIdx', map_insertIdx', List.map_map, List.map_map]
      have e1 : (ent (s.files.modify i fun o => { o with address := some a, hasManager := true }) i).address
          = some a := by rw [ent_some (modify_get _ _ _ o ho)]
      rw [e1]
      congr 1
      apply List.map_congr_left
      intro j hj
      obtain ⟨-, o', b, h2, -, h4⟩ := h.localIds j hj
      obtain ⟨o'', h5, -, -, -, h6⟩ := key j o' h2
      simp only [Function.comp]
      rw [ent_some h2, ent_some h5]
      rcases h6 with h6 | h6
      · rw [h4] at h6; cases h6
      · exact h6

/-- `writeLocal` in terms of the file's content. -/
theorem writeLocal_cases {isLocal : Nat → Bool} {s : Mgr H} (h : Sep isLocal s) (i : Nat) (off : Int)
    (data : Bytes) :
    (writeLocal s i off data).1 = s ∨
    ∃ o n, s.files[i]? = some o ∧ off = ((n : Nat) : Int) ∧ n + data.length ≤ o.length ∧
      (((o.hasManager && o.kind = .output) && o.isOpen) = false ∧ writeLocal s i off data =
        ({ s with files := s.files.modify i fun o' => { o' with content := (o.content.write n data).1 } },
          none, (data.length : Int)) ∨
      ∃ a, o.hasManager = true ∧ o.kind = .output ∧ o.isOpen = true ∧ o.address = some a ∧
        writeLocal s i off data =
        ({ s with
          files := s.files.modify i fun o' => { o' with content := (o.content.write n data).1 }
          queue := s.queue ++ [.writeData (a + n) data] }, none, (data.length : Int))) := by
  unfold writeLocal
  split
  · exact .inl rfl
  · rename_i o ho
    by_cases hf : 0 ≤ off ∧ off + data.length ≤ o.length
    · right
      obtain ⟨n, rfl⟩ := Int.eq_ofNat_of_zero_le hf.1
      refine ⟨o, n, ho, rfl, by omega, ?_⟩
      have hfit : n + data.length ≤ o.content.data.length := by
        have := hf.2; unfold FObj.length at this; omega
      have hw : (o.content.write (n : Int) data).2 = data.length := by
        rw [FileData.write_fits _ _ _ hfit]
      by_cases hc : ((o.hasManager && o.kind = .output) && o.isOpen) = true
      · right
        simp only [Bool.and_eq_true, decide_eq_true_eq] at hc
        obtain ⟨⟨h1, h2⟩, h3⟩ := hc
        obtain ⟨-, o', a, ho', -, ha⟩ := h.localIds i (h.managed i o ho h1)
        rw [ho] at ho'; cases ho'
        refine ⟨a, h1, h2, h3, ha, ?_⟩
        simp only [FileData.outputWrite, hw]
        rw [if_pos (by simp [h1, h2, h3] <;> omega)]
        simp only [outPortDataWriteNotify, update]
        rw [modify_get _ _ _ o ho]
        simp only [ha]
        obtain ⟨bs, hr, hl, hb⟩ := (FileData.C19_read (o.content.write (n : Int) data).1 (n : Int) data.length).1
          ⟨by omega, by rw [FileData.write_length]; omega⟩
        rw [hr]
        have : bs = data := by
          obtain ⟨-, -, hov⟩ := write_overwrites o.content n data hfit
          apply List.ext_getElem?
          intro k
          by_cases hk : k < data.length
          · rw [hb k hk]
            simp only [Int.toNat_natCast]
            rw [hov (n + k), if_pos (by omega)]
            congr 1; omega
          · rw [List.getElem?_eq_none (by omega), List.getElem?_eq_none (by omega)]
        subst this
        rfl
      · left
        refine ⟨by simpa using hc, ?_⟩
        simp only [FileData.outputWrite, hw]
        rw [if_neg]
        · rfl
        · intro hx
          apply hc
          simp only [Bool.and_eq_true, decide_eq_true_eq] at hx ⊢
          exact ⟨hx.2.1, hx.2.2⟩
    · left
      have hw := FileData.write_rejects o.content off data (by unfold FObj.length at hf; omega)
      simp only [FileData.outputWrite, hw]
      rw [if_neg (by omega)]
      simp only [update]
      have : (s.files.modify i fun o' => { o' with content := o.content }) = s.files := by
        apply List.ext_getElem?
        intro j
        by_cases hij : i = j
        · subst hij; rw [modify_get _ _ _ o ho, ho]
        · rw [modify_ne _ _ _ _ hij]
      rw [this]

theorem Sep.write {isLocal : Nat → Bool} {s : Mgr H} (h : Sep isLocal s) (i : Nat) (off : Int)
    (data : Bytes) : Sep isLocal (writeLocal s i off data).1 := by
  rcases writeLocal_cases h i off data with he | ⟨o, n, ho, -, -, ⟨-, he⟩ | ⟨a, -, -, -, -, he⟩⟩
  · rw [he]; exact h
  · rw [he]; exact h.modify i _ s.queue (fun o => ⟨rfl, rfl, .inl rfl, .inl rfl⟩)
  · rw [he]; exact h.modify i _ _ (fun o => ⟨rfl, rfl, .inl rfl, .inl rfl⟩)

theorem Sep.request {isLocal : Nat → Bool} {s : Mgr H} (h : Sep isLocal s) {i : Nat}
    (hl : isLocal i = false) : Sep isLocal (requestRemoteFile s i).1 := by
  unfold requestRemoteFile
  split
  · exact h
  · rename_i o ho
    refine ⟨?_, h.remote, h.localIds, h.opened, h.managed, h.inv, h.rlen⟩
    intro n j hj
    rcases dictSet_mem hj with hj | hj
    · exact h.req n j hj
    · cases hj; exact ⟨hl, o, ho, rfl⟩

theorem Sep.step {isLocal : Nat → Bool} {s : Mgr H} (h : Sep isLocal s) (op : Op H)
    (hop : op.Respects isLocal) : Sep isLocal (step s op) := by
  cases op with
  | attach i => exact h.attach hop
  | request i => exact h.request hop
  | message msg => exact h.effect (onMsg_effect s msg)
  | connected c =>
    obtain ⟨infos, he⟩ := onConnected_queue s c
    simp only [Manager.step]
    rw [he]
    exact ⟨h.req, h.remote, h.localIds, h.opened, h.managed, h.inv, h.rlen⟩
  | write i off data => exact h.write i off data
  | stop => exact h.put _

theorem Sep.run {isLocal : Nat → Bool} (ops : List (Op H)) : ∀ {s : Mgr H}, Sep isLocal s →
    (∀ op ∈ ops, op.Respects isLocal) → Sep isLocal (run s ops) := by
  induction ops with
  | nil => intro s h _; exact h
  | cons op ops ih =>
    intro s h hr
    exact ih (h.step op (hr op (by simp))) (fun o ho => hr o (by simp [ho]))

end Apx.Manager
