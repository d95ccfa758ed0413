import Verif.Proofs.FileManager3
import Verif.Proofs.Concurrent
import Verif.Props.RmfCmd
import Verif.Props.RmfHeader
import Verif.Props.Socket

/-! C36-C41: the file manager. -/

namespace Apx.Manager
open FileMap

variable {H : Type}

/-- C36: whatever message arrives in whatever state, every file keeps its content, except that at
most one file, which is in the map of remote files, open, and whose address range contains the
addressed range entirely, has exactly the addressed bytes replaced by the message's payload. -/
theorem C36_confined (s : Mgr H) (msg : Bytes) :
    ∃ j : Nat, ∀ (i : Nat) (o : FObj), s.files[i]? = some o →
      ∃ o', (onMsgReceived s msg).1.files[i]? = some o' ∧ o'.length = o.length ∧
        (o'.content = o.content ∨
          (i = j ∧ i ∈ s.remoteMap.ids ∧ o.isOpen = true ∧
            ∃ (hdrLen addr : Nat) (more : Bool) (a : Int) (off : Nat),
              Rmf.unpackHeader msg = (hdrLen, some addr, more) ∧ o.address = some a ∧
              (addr : Int) = a + off ∧ off + (msg.drop hdrLen).length ≤ o.length ∧
              Overwrites o.content.data off (msg.drop hdrLen) o'.content.data)) := by
  have he := onMsg_effect s msg
  generalize (onMsgReceived s msg).1 = s' at he ⊢
  cases he with
  | same => exact ⟨0, fun i o ho => ⟨o, ho, rfl, .inl rfl⟩⟩
  | info j oj r a req obj len addr =>
    refine ⟨0, fun i o ho => ?_⟩
    by_cases hij : j = i
    · subst hij; exact ⟨_, modify_get _ _ _ o ho, rfl, .inl rfl⟩
    · exact ⟨o, by simp only; rw [modify_ne _ _ _ _ hij]; exact ho, rfl, .inl rfl⟩
  | opened j oj a mem obj addr =>
    refine ⟨0, fun i o ho => ?_⟩
    by_cases hij : j = i
    · subst hij; exact ⟨_, modify_get _ _ _ o ho, rfl, .inl rfl⟩
    · exact ⟨o, by simp only; rw [modify_ne _ _ _ _ hij]; exact ho, rfl, .inl rfl⟩
  | written n x more j oj a off header mem obj isOpen addr offset fits =>
    refine ⟨j, fun i o ho => ?_⟩
    by_cases hij : j = i
    · subst hij
      rw [obj] at ho; cases ho
      refine ⟨_, modify_get _ _ _ oj obj, ?_, .inr ⟨rfl, mem, isOpen, n, x, more, a, off, header, addr,
        offset, fits, write_overwrites _ _ _ fits⟩⟩
      simp only [FObj.length, FileData.write_length]
    · exact ⟨o, by simp only; rw [modify_ne _ _ _ _ hij]; exact ho, rfl, .inl rfl⟩

/-- C36: a message addressed to 0x3FFFFC00 is a command, a message to a lower address is a write
at that address, and a message to a higher one raises and changes nothing. -/
theorem C36_areas (s : Mgr H) (x : Nat) (m : Bool) (hdr body : Bytes) (hh : Rmf.packHeader x m = .ok hdr)
    (hx : x < 2 ^ 30) (hb : body ≠ []) :
    (x = 0x3FFFFC00 → onMsgReceived s (hdr ++ body) = processCmd s body) ∧
    (x < 0x3FFFFC00 → onMsgReceived s (hdr ++ body) = processFileWrite s x m body) ∧
    (0x3FFFFC00 < x → onMsgReceived s (hdr ++ body) = (s, some .valueError, none)) := by
  obtain ⟨hdr', h1, h2⟩ := Rmf.C05_header_roundtrip_exact x m hx
  rw [hh] at h1
  simp only [Except.ok.injEq] at h1
  subst h1
  have hl : 0 < hdr.length := by
    cases hdr with
    | nil =>
      have h0 := h2 [0]
      rw [if_neg (by simp)] at h0
      simp [Rmf.unpackHeader] at h0
    | cons a l => simp
  have h := h2 body
  rw [if_neg (by simp [hb])] at h
  unfold onMsgReceived
  rw [h]
  simp only [gt_iff_lt, hl, if_true, List.drop_left', Rmf.cmdStartAddr]
  refine ⟨fun e => ?_, fun e => ?_, fun e => ?_⟩
  · rw [if_pos (by omega)]
  · rw [if_neg (by omega), if_pos (by omega)]
  · rw [if_neg (by omega), if_neg (by omega)]

/-- The header and body of an opening command meet the hypotheses. -/
example : Rmf.packHeader (0x3FFFFC00 : Nat) false = .ok [0xbf, 0xff, 0xfc, 0x00] := by decide

/-- C12: the acknowledge is the command 0 in the command area. -/
theorem C12_acknowledge : (Rmf.packHeader 0x3FFFFC00 false).map (· ++ [0, 0, 0, 0]) = .ok Socket.ackMsg := by
  decide

/-- C36: in a program that does not request its own local files, no message ever changes the
content of a local file. -/
theorem C36_local_untouched (isLocal : Nat → Bool) (files : List FObj) (hf : Fresh files) (bo : Char)
    (ops : List (Op H)) (hr : ∀ op ∈ ops, op.Respects isLocal) (msg : Bytes) (i : Nat)
    (hl : isLocal i = true) (o : FObj) (ho : (run (start files bo) ops).files[i]? = some o) :
    ∃ o', (onMsgReceived (run (start files bo : Mgr H) ops) msg).1.files[i]? = some o' ∧
      o'.content = o.content := by
  have hs : Sep isLocal (run (start files bo : Mgr H) ops) := (sep_start hf bo).run _ hr
  obtain ⟨j, h⟩ := C36_confined (run (start files bo : Mgr H) ops) msg
  obtain ⟨o', h1, -, h2 | ⟨-, h2, -⟩⟩ := h i o ho
  · exact ⟨o', h1, h2⟩
  · have := (hs.remote i h2).1
    rw [hl] at this; cases this

/-- Lookup in a map of non-empty files without common addresses. -/
theorem find_ent {files : List FObj} {m : MapRef} (hinv : Inv (m.view files))
    (hdis : m.ids.Pairwise fun i j => Disjoint (ent files i) (ent files j))
    (hpos : ∀ i ∈ m.ids, 0 < (ent files i).length) {i : Nat} (hi : i ∈ m.ids) {o : FObj}
    (ho : files[i]? = some o) {a x : Int} (ha : o.address = some a) (h1 : a ≤ x) (h2 : x < a + o.length) :
    (m.view files).findByAddress x = some (ent files i) := by
  refine (find_before hinv ?_ ?_ x (ent files i)).mpr ⟨?_, ?_⟩
  · have hle := hinv.addrLe
    have hd2 : (m.view files).items.Pairwise Disjoint := by
      simp only [MapRef.view]
      exact List.pairwise_map.mpr hdis
    have := hle.and hd2
    rw [List.pairwise_iff_getElem] at this ⊢
    intro p q hp hq hpq
    obtain ⟨h1, h2⟩ := this p q hp hq hpq
    refine before_of_disjoint h1 h2 ?_
    have : (m.view files).items[q] ∈ (m.view files).items := List.getElem_mem hq
    simp only [MapRef.view, List.mem_map] at this
    obtain ⟨j, hj, he⟩ := this
    simp only [MapRef.view]
    rw [← he]; exact hpos j hj
  · intro f hfm
    simp only [MapRef.view, List.mem_map] at hfm
    obtain ⟨j, hj, rfl⟩ := hfm
    exact hpos j hj
  · simp only [MapRef.view, List.mem_map]; exact ⟨i, hi, rfl⟩
  · rw [ent_some ho]
    exact ⟨a, ha, h1, h2⟩

/-- C36, the accepting direction: in a program that requests each file once, when the remote
files lie side by side, data addressed inside a remote (input) file is written to it, and the
node data handler is notified unless the more bit is set. -/
theorem C36_accepted (isLocal : Nat → Bool) (files : List FObj) (hf : Fresh files) (bo : Char)
    (ops : List (Op H)) (hr : ∀ op ∈ ops, op.Respects isLocal) (hnd : (ops.filterMap Op.requests).Nodup)
    (s : Mgr H) (hs : s = run (start files bo) ops)
    (hdis : s.remoteMap.ids.Pairwise fun i j => Disjoint (ent s.files i) (ent s.files j))
    (hpos : ∀ i ∈ s.remoteMap.ids, 0 < (ent s.files i).length)
    (i : Nat) (hi : i ∈ s.remoteMap.ids) (o : FObj) (ho : s.files[i]? = some o) (hk : o.kind = .input)
    (msg : Bytes) (hdrLen addr : Nat) (more : Bool) (a : Int) (off : Nat)
    (hmsg : Rmf.unpackHeader msg = (hdrLen, some addr, more)) (hlen : 0 < hdrLen)
    (hcmd : addr < Rmf.cmdStartAddr) (ha : o.address = some a) (haddr : (addr : Int) = a + off)
    (hin : off < o.length) (hfit : off + (msg.drop hdrLen).length ≤ o.length) :
    ∃ s' o', onMsgReceived s msg = (s', none,
        if more = false ∧ o.hasHandler = true then some ⟨i, ⟨o'.content, off, (msg.drop hdrLen).length⟩⟩
        else none) ∧
      s'.files[i]? = some o' ∧ Overwrites o.content.data off (msg.drop hdrLen) o'.content.data := by
  have hsep : Sep isLocal s := hs ▸ (sep_start hf bo).run _ hr
  have honce : ∃ done, ROnce done s := by
    rw [hs]
    exact ROnce.run ops (sep_start hf bo) (done := [])
      ⟨inv_empty, by simp [start], by simp [start], by simp [start], by simp [start]⟩ hr hnd (by simp)
  obtain ⟨done, honce⟩ := honce
  have hopen : o.isOpen = true := by
    obtain ⟨o2, h1, h2⟩ := honce.opened i hi
    rw [ho] at h1; cases h1; exact h2
  have hfind := find_ent honce.inv hdis hpos hi ho ha (x := addr) (by omega) (by omega)
  unfold onMsgReceived
  rw [hmsg]
  simp only
  rw [if_pos (by omega), if_neg (by omega), if_pos hcmd]
  unfold processFileWrite
  rw [hfind]
  simp only [ent_id, ho, hopen, ha, if_true]
  have e : (addr : Int) - a = off := by omega
  rw [e, if_pos (by omega)]
  simp only [writeRemote, hk]
  have hfit' : off + (msg.drop hdrLen).length ≤ o.content.data.length := hfit
  have hret : (o.content.write off (msg.drop hdrLen)).2 = (msg.drop hdrLen).length := by
    rw [FileData.write_fits _ _ _ hfit']
  refine ⟨{ s with files := update s.files i fun o' =>
      { o' with content := (o.content.inputWrite off (msg.drop hdrLen) more o.hasHandler).1 } },
    { o with content := (o.content.write off (msg.drop hdrLen)).1 }, ?_, ?_, write_overwrites _ _ _ hfit'⟩
  · simp only [FileData.inputWrite, hret]
    refine Prod.ext rfl (Prod.ext rfl ?_)
    simp only
    cases more <;> cases o.hasHandler <;> simp
  · simp only [update, FileData.inputWrite]
    rw [modify_get _ _ _ o ho]

/-- The bytes that carry a command: any header addressing the command area. -/
theorem cmd_header (m : Bool) (hdr body : Bytes) (h : Rmf.packHeader Rmf.cmdStartAddr m = .ok hdr)
    (hb : body ≠ []) (s : Mgr H) :
    onMsgReceived s (hdr ++ body) = processCmd s body := by
  obtain ⟨hdr', h1, h2⟩ := Rmf.C05_header_roundtrip_exact Rmf.cmdStartAddr m (by decide)
  rw [h] at h1; cases h1
  unfold onMsgReceived
  rw [h2 body, if_neg (by simp [hb])]
  have hlen : 0 < hdr.length := by
    have := Rmf.C06_header_length (Rmf.cmdStartAddr : Int) m
    rw [h] at this
    rcases Nat.eq_zero_or_pos hdr.length with h0 | h0
    · have : hdr = [] := List.length_eq_zero_iff.mp h0
      subst this
      have h3 := h2 [1, 2]
      simp [Rmf.unpackHeader] at h3
    · exact h0
  simp only
  rw [if_pos hlen, if_pos trivial]
  simp

/-- The first four bytes of a FILE_INFO record. -/
theorem fileInfo_cmd (f : Rmf.FileInfo) (bo : Char) (bs : Bytes) (hbo : bo = '<' ∨ bo = '>')
    (h : Rmf.packFileInfo f bo = .ok bs) : 4 ≤ bs.length ∧ unpackUInt bo (bs.take 4) = Rmf.cmdFileInfo := by
  unfold Rmf.packFileInfo at h
  split at h
  · cases h
  · rw [Rmf.checkByteOrder_ok hbo, packUInt_ok bo 4 _ (show Rmf.cmdFileInfo < 256 ^ 4 by decide)] at h
    simp only [bind, Except.bind] at h
    split at h
    · cases h
    · split at h
      · cases h
      · split at h
        · cases h
        · split at h
          · cases h
          · split at h
            · cases h
            · cases h
              have hl : (ordered bo (leBytes 4 Rmf.cmdFileInfo)).length = 4 := by simp
              refine ⟨by simp <;> omega, ?_⟩
              simp only [List.append_assoc]
              rw [List.take_left' hl, unpackUInt_ordered _ _ _ (by decide)]

theorem processCmd_info (s : Mgr H) (hbo : s.byteOrder = '<' ∨ s.byteOrder = '>') (f : Rmf.FileInfo)
    (bs : Bytes) (h : Rmf.packFileInfo f s.byteOrder = .ok bs) : processCmd s bs = processFileInfo s bs := by
  obtain ⟨h1, h2⟩ := fileInfo_cmd f _ bs hbo h
  unfold processCmd
  rw [if_pos h1]
  simp only [h2]
  rw [if_pos trivial]

theorem lookup_dictDel {α} (d : List (Str × α)) (k : Str) : (dictDel d k).lookup k = none := by
  induction d with
  | nil => rfl
  | cons p d ih =>
    obtain ⟨a, b⟩ := p
    simp only [dictDel, List.filter_cons] at ih ⊢
    by_cases h : a = k
    · simp [h]
      simpa using ih
    · have : (k == a) = false := by simp; exact fun x => h x.symm
      simp only [ne_eq, h, not_false_eq_true, decide_true, if_true, List.lookup, this]
      simpa using ih

/-- C37: in any program, when the FILE_INFO of a requested file with the requested length
arrives, the file gets the announced address and becomes open with its content unchanged, it is
no longer requested and is among the remote files, and exactly one message is queued, the
FILE_OPEN carrying that address.  When the same FILE_INFO arrives once more, nothing is queued
and nothing changes. -/
theorem C37_open_once (isLocal : Nat → Bool) (files : List FObj) (hf : Fresh files) (bo : Char)
    (hbo : bo = '<' ∨ bo = '>')
    (ops : List (Op H)) (hr : ∀ op ∈ ops, op.Respects isLocal) (s : Mgr H)
    (hs : s = run (start files bo) ops) (f : Rmf.FileInfo) (hw : Rmf.WireFile f) (i : Nat)
    (hreq : s.requested.lookup f.name = some i) (o : FObj) (ho : s.files[i]? = some o)
    (hlen : (o.length : Int) = f.length) (a : Int) (ha : f.address = some a)
    (m : Bool) (hdr bs : Bytes) (hh : Rmf.packHeader Rmf.cmdStartAddr m = .ok hdr)
    (hb : Rmf.packFileInfo f bo = .ok bs) :
    ∃ s' o', onMsgReceived s (hdr ++ bs) = (s', none, none) ∧ s'.files[i]? = some o' ∧
      o'.address = some a ∧ o'.isOpen = true ∧ o'.content = o.content ∧
      s'.requested.lookup f.name = none ∧ i ∈ s'.remoteMap.ids ∧
      s'.queue = s.queue ++ [.fileOpen a] ∧
      (onMsgReceived s' (hdr ++ bs)).1 = s' := by
  have hsep : Sep isLocal s := hs ▸ (sep_start hf bo).run _ hr
  have hbyte : s.byteOrder = bo := by
    rw [hs]
    clear hs hsep hreq ho hlen s o
    suffices ∀ s : Mgr H, s.byteOrder = bo → Sep isLocal s → (run s ops).byteOrder = bo from
      this _ rfl (sep_start hf bo)
    induction ops with
    | nil => intro s h _; exact h
    | cons op ops ih =>
      intro s h hsep
      refine ih (fun o ho => hr o (by simp [ho])) _ ?_ (hsep.step op (hr op (by simp)))
      cases op with
      | attach j =>
        simp only [step]
        rcases attach_cases s j with he | ⟨_, _, _, _, _, he, _, _⟩ <;> rw [he] <;> exact h
      | request j => simp only [step, requestRemoteFile]; split <;> exact h
      | message msg =>
        simp only [step]
        have he := onMsg_effect s msg
        generalize (onMsgReceived s msg).1 = s' at he ⊢
        cases he <;> exact h
      | connected c =>
        simp only [step]
        obtain ⟨infos, he⟩ := onConnected_queue s c
        rw [he]; exact h
      | write j off data =>
        simp only [step]
        rcases writeLocal_cases hsep j off data with he | ⟨_, _, _, _, _, ⟨_, he⟩ | ⟨_, _, _, _, _, he⟩⟩ <;>
          rw [he] <;> exact h
      | stop => exact h
  obtain ⟨bs', hb', -, hun, -⟩ := Rmf.C07_fileinfo_roundtrip f hw bo hbo
  rw [hb] at hb'; cases hb'
  have hbs : bs ≠ [] := by
    have := (fileInfo_cmd f bo bs hbo hb).1
    intro h; subst h; simp at this
  have hname : o.name = f.name := by
    obtain ⟨-, o2, h1, h2⟩ := hsep.req _ _ (lookup_mem hreq)
    rw [ho] at h1; cases h1; exact h2
  rw [cmd_header m hdr bs hh hbs, processCmd_info s (hbyte ▸ hbo) f bs (hbyte ▸ hb)]
  have hcalc : processFileInfo s bs =
      ({ s with
          files := s.files.modify i fun o =>
            { o with address := f.address, fileType := f.fileType, digestType := f.digestType,
                     digestData := f.digestData, isOpen := true }
          requested := dictDel s.requested o.name
          remoteMap := ⟨s.remoteMap.keys.insertIdx (bisectLeft s.remoteMap.keys a) a,
            s.remoteMap.ids.insertIdx (bisectLeft s.remoteMap.keys a) i⟩
          queue := s.queue ++ [.fileOpen a] }, none, none) := by
    unfold processFileInfo
    rw [hbyte, hun]
    simp only [hreq, ho]
    rw [if_pos hlen]
    have hent := ent_some (modify_get s.files i (fun o =>
      { o with
        address := f.address, fileType := f.fileType,
        digestType := f.digestType, digestData := f.digestData, isOpen := true }) o ho)
    simp only [update, hent]
    cases hins : FileMap.insert (s.remoteMap.view _) _ with
    | error e => simp [FileMap.insert, ha, bind, Except.bind] at hins
    | ok r =>
      obtain ⟨m', f'⟩ := r
      obtain ⟨k, h1, h2, h3, -, h5⟩ := view_insert hins
      simp only [ha] at h5
      have hka : k = a := by
        rcases h5 with ⟨-, h5⟩ | ⟨h5, -⟩
        · simpa using h5.symm
        · simp at h5
      subst hka
      simp only [h1, h3, Mgr.put]
  rw [hcalc]
  refine ⟨_, _, rfl, modify_get _ _ _ o ho, ha, rfl, rfl, ?_, ?_, rfl, ?_⟩
  · simp only [hname]; exact lookup_dictDel _ _
  · simp only
    exact (List.mem_insertIdx (hsep.rlen ▸ bisectLeft_le s.remoteMap.keys a)).mpr (.inl rfl)
  · rw [cmd_header m hdr bs hh hbs, processCmd_info _ (by simp only; exact hbyte ▸ hbo) f bs (by simp only; exact hbyte ▸ hb)]
    unfold processFileInfo
    simp only
    rw [hbyte, hun]
    simp only [hname, lookup_dictDel, FileMap.insert]
    rfl

/-- A program used in the examples: file 0 is a local output file, file 1 a requested input
file.  The peer announces "B.in" at address 2048, opens "A.out" (address 0); the program writes
two bytes of "A.out" and the peer two bytes of "B.in". -/
def mgFiles : List FObj :=
  [.create .output "A.out".toList ⟨[1, 2, 3, 4]⟩, .create .input "B.in".toList ⟨[0, 0, 0]⟩ true]

def mgInfo : Rmf.FileInfo := ⟨"B.in".toList, 3, 0, some 2048, 0, List.replicate 32 0⟩

def mgInfoMsg : Bytes :=
  [0xbf, 0xff, 0xfc, 0, 3, 0, 0, 0, 0, 8, 0, 0, 3, 0, 0, 0, 0, 0, 0, 0] ++ List.replicate 32 0 ++ [66, 46, 105, 110]

def mgOpenMsg : Bytes := [0xbf, 0xff, 0xfc, 0, 10, 0, 0, 0, 0, 0, 0, 0]

def mgOps : List (Op Unit) :=
  [.attach 0, .request 1, .connected (), .message mgInfoMsg, .message mgOpenMsg, .write 0 1 [7, 8]]

def mgLocal (i : Nat) : Bool := i == 0

theorem mgFresh : Fresh mgFiles := by unfold Fresh mgFiles; decide

theorem mgRespects : ∀ op ∈ mgOps, op.Respects mgLocal := by
  intro op h
  simp only [mgOps, List.mem_cons, List.not_mem_nil, or_false] at h
  rcases h with rfl | rfl | rfl | rfl | rfl | rfl <;> simp [Op.Respects, mgLocal]

example : Rmf.packFileInfo mgInfo '<' = .ok (mgInfoMsg.drop 4) ∧
    Rmf.packHeader Rmf.cmdStartAddr = .ok (mgInfoMsg.take 4) := by decide +kernel

example : (run (start mgFiles '<') mgOps : Mgr Unit).queue =
    [.connect (), .fileInfo [3, 0, 0, 0, 0, 0, 0, 0, 4, 0, 0, 0, 0, 0, 0, 0, 0, 0, 0, 0, 0, 0, 0, 0, 0, 0,
      0, 0, 0, 0, 0, 0, 0, 0, 0, 0, 0, 0, 0, 0, 0, 0, 0, 0, 0, 0, 0, 0, 65, 46, 111, 117, 116],
     .fileOpen 2048, .writeData 0 [1, 2, 3, 4], .writeData 1 [7, 8]] := by decide +kernel

/-- C36: a message into the remote file is accepted; the hypotheses of `C36_accepted` hold. -/
example : let s := (run (start mgFiles '<') mgOps : Mgr Unit)
    s.remoteMap.ids = [1] ∧ (mgOps.filterMap Op.requests).Nodup ∧
    (s.files[1]?.map (·.content.data)) = some [0, 0, 0] ∧
    ((onMsgReceived s [8, 1, 5, 6]).1.files[1]?.map (·.content.data)) = some [0, 5, 6] ∧
    (onMsgReceived s [8, 1, 5, 6]).2.2 = some ⟨1, ⟨⟨[0, 5, 6]⟩, 1, 2⟩⟩ ∧
    (onMsgReceived s [8, 1, 5, 6, 7]).1 = s := by decide +kernel

/-- C37: the hypotheses hold just before the announcement. -/
example : (run (start mgFiles '<') (mgOps.take 3) : Mgr Unit).requested.lookup "B.in".toList = some 1 ∧
    Rmf.WireFile mgInfo := by
  refine ⟨by decide +kernel, ⟨2048, rfl, by decide⟩, by decide, by decide, by decide, by decide, by decide⟩

/-! C38 -/

/-- C38 is violated: in every state, the FILE_INFO of a file that is not requested raises. -/
theorem C38_unrequested_violated (s : Mgr H) (hbo : s.byteOrder = '<' ∨ s.byteOrder = '>')
    (f : Rmf.FileInfo) (hw : Rmf.WireFile f) (hreq : s.requested.lookup f.name = none)
    (m : Bool) (hdr bs : Bytes) (hh : Rmf.packHeader Rmf.cmdStartAddr m = .ok hdr)
    (hb : Rmf.packFileInfo f s.byteOrder = .ok bs) :
    onMsgReceived s (hdr ++ bs) = (s, some .assertionError, none) := by
  obtain ⟨bs', hb', -, hun, -⟩ := Rmf.C07_fileinfo_roundtrip f hw _ hbo
  rw [hb] at hb'; cases hb'
  have hbs : bs ≠ [] := by
    have := (fileInfo_cmd f _ bs hbo hb).1
    intro h; subst h; simp at this
  rw [cmd_header m hdr bs hh hbs, processCmd_info s hbo f bs hb]
  unfold processFileInfo
  rw [hun]
  simp only [hreq, FileMap.insert]
  rfl

/-- C38 is violated: in every state, the FILE_INFO of a requested file with another length
raises. -/
theorem C38_other_length_violated (s : Mgr H) (hbo : s.byteOrder = '<' ∨ s.byteOrder = '>')
    (f : Rmf.FileInfo) (hw : Rmf.WireFile f) (i : Nat) (hreq : s.requested.lookup f.name = some i)
    (o : FObj) (ho : s.files[i]? = some o) (hlen : (o.length : Int) ≠ f.length)
    (m : Bool) (hdr bs : Bytes) (hh : Rmf.packHeader Rmf.cmdStartAddr m = .ok hdr)
    (hb : Rmf.packFileInfo f s.byteOrder = .ok bs) :
    onMsgReceived s (hdr ++ bs) = (s, some .nameError, none) := by
  obtain ⟨bs', hb', -, hun, -⟩ := Rmf.C07_fileinfo_roundtrip f hw _ hbo
  rw [hb] at hb'; cases hb'
  have hbs : bs ≠ [] := by
    have := (fileInfo_cmd f _ bs hbo hb).1
    intro h; subst h; simp at this
  rw [cmd_header m hdr bs hh hbs, processCmd_info s hbo f bs hb]
  unfold processFileInfo
  rw [hun]
  simp only [hreq, ho]
  rw [if_neg hlen]

/-- C38 is violated: in every state, a truncated FILE_INFO (command code 3 and fewer than 48
bytes altogether) raises. -/
theorem C38_truncated_violated (s : Mgr H) (hbo : s.byteOrder = '<' ∨ s.byteOrder = '>')
    (body : Bytes) (hl : 4 ≤ body.length) (hl2 : body.length < 48)
    (hc : unpackUInt s.byteOrder (body.take 4) = Rmf.cmdFileInfo)
    (m : Bool) (hdr : Bytes) (hh : Rmf.packHeader Rmf.cmdStartAddr m = .ok hdr) :
    onMsgReceived s (hdr ++ body) = (s, some .attributeError, none) := by
  have hbs : body ≠ [] := by intro h; subst h; simp at hl
  rw [cmd_header m hdr body hh hbs]
  unfold processCmd
  rw [if_pos hl]
  simp only [hc]
  rw [if_pos trivial]
  unfold processFileInfo
  rw [Rmf.C07_short body _ hbo hl2]

/-- Consequence for the connection: once such a message `m` has been received, the receive thread
has ended; whatever messages follow it in the stream, however it is cut into chunks, they have no
effect. -/
theorem C38_reception_ends (h : H) (s : Mgr H) (m : Bytes) (e : PyErr) (rest : List Bytes)
    (hm : onMsgReceived s m = (s, some e, none)) (stream : Bytes)
    (hs : Socket.sendAll (m :: rest) = .ok stream) (cs : List Bytes) (hc : Socket.Chunking stream cs) :
    Socket.worker (receiver h) (⟨true, true, s⟩, .waiting []) cs = (⟨true, true, s⟩, .ended (some e)) := by
  rw [Socket.C11_any_handler (receiver h) s (m :: rest) stream hs cs hc]
  simp [Socket.deliverAll, receiver, hm]

/-- The three kinds of message occur in the example program. -/
example : let s := (run (start mgFiles '<') (mgOps.take 3) : Mgr Unit)
    (onMsgReceived s (mgInfoMsg ++ [0x78])).2.1 = some .assertionError ∧
    (onMsgReceived s (mgInfoMsg.set 12 4)).2.1 = some .nameError ∧
    (onMsgReceived s (mgInfoMsg.take 30)).2.1 = some .attributeError := by decide +kernel

/-- C38, the part that holds: a command too short to have a code, or with a code other than
FILE_INFO, FILE_OPEN and FILE_CLOSE, is ignored without an exception. -/
theorem C38_tolerated_partial (s : Mgr H) (body : Bytes)
    (hc : body.length < 4 ∨ unpackUInt s.byteOrder (body.take 4) ∉ [Rmf.cmdFileInfo, Rmf.cmdFileOpen, Rmf.cmdFileClose])
    (m : Bool) (hdr : Bytes) (hh : Rmf.packHeader Rmf.cmdStartAddr m = .ok hdr) :
    onMsgReceived s (hdr ++ body) = (s, none, none) := by
  by_cases hb : body = []
  · subst hb
    obtain ⟨hdr', h1, h2⟩ := Rmf.C05_header_roundtrip_exact Rmf.cmdStartAddr m (by decide)
    rw [hh] at h1; cases h1
    unfold onMsgReceived
    rw [h2 [], if_pos ⟨by decide, rfl⟩]
    rfl
  · rw [cmd_header m hdr body hh hb]
    unfold processCmd
    split
    · rename_i hl
      rcases hc with hc | hc
      · omega
      · simp only [List.mem_cons, List.not_mem_nil, or_false, not_or] at hc
        simp only
        rw [if_neg hc.1, if_neg hc.2.1, if_neg hc.2.2]
    · rfl

/-! C39 -/

theorem open_sends_content (s : Mgr H) (hbo : s.byteOrder = '<' ∨ s.byteOrder = '>') (x : Nat)
    (hx : x < 2 ^ 32) (i : Nat) (o : FObj) (a : Int) (ho : s.files[i]? = some o) (ha : o.address = some a)
    (hfind : (s.localMap.view s.files).findByAddress x = some (ent s.files i))
    (m : Bool) (hdr bs : Bytes) (hh : Rmf.packHeader Rmf.cmdStartAddr m = .ok hdr)
    (hb : Rmf.packFileOpen x s.byteOrder = .ok bs) :
    ∃ s', onMsgReceived s (hdr ++ bs) = (s', none, none) ∧
      s'.files[i]? = some { o with isOpen := true } ∧
      s'.queue = s.queue ++ [.writeData a o.content.data] := by
  obtain ⟨bs', hb', hl, hun⟩ : ∃ bs', Rmf.packFileOpen x s.byteOrder = .ok bs' ∧ bs'.length = 8 ∧
      Rmf.unpackFileOpen bs' s.byteOrder = .ok x := Rmf.C08_fileopen_roundtrip x hx _ hbo
  rw [hb] at hb'; cases hb'
  have hcmd : unpackUInt s.byteOrder (bs.take 4) = Rmf.cmdFileOpen := by
    unfold Rmf.unpackFileOpen at hun
    rw [Rmf.checkByteOrder_ok hbo] at hun
    simp only [bind, Except.bind] at hun
    rw [if_pos hl] at hun
    split at hun
    · cases hun
    · rename_i h; exact Decidable.byContradiction fun hn => h hn
  refine ⟨{ s with
      files := s.files.modify i fun o => { o with isOpen := true }
      queue := s.queue ++ [.writeData a o.content.data] }, ?_, modify_get _ _ _ o ho, rfl⟩
  rw [cmd_header m hdr bs hh (by intro h; subst h; simp at hl)]
  unfold processCmd
  rw [if_pos (by omega)]
  simp only [hcmd]
  rw [if_neg (by decide), if_pos trivial]
  unfold processFileOpen
  rw [hun]
  simp only [hfind, ent_id, update]
  rw [modify_get _ _ _ o ho]
  have hread : o.content.read 0 (FObj.length { o with isOpen := true }) = some o.content.data := by
    unfold FileData.read FileData.slice FObj.length
    simp only
    rw [if_neg (by omega), if_neg (by omega)]
    simp
  simp only
  rw [hread, ha]
  rfl

/-- C39: in any program that keeps local and requested files apart, when the local files are
non-empty and share no addresses, FILE_OPEN for an address of a local file makes it open and
queues one message, its complete current content at its address. -/
theorem C39_open_sends_content (isLocal : Nat → Bool) (files : List FObj) (hf : Fresh files) (bo : Char)
    (ops : List (Op H)) (hr : ∀ op ∈ ops, op.Respects isLocal) (s : Mgr H)
    (hs : s = run (start files bo) ops) (hbo : s.byteOrder = '<' ∨ s.byteOrder = '>')
    (hdis : s.localMap.ids.Pairwise fun i j => Disjoint (ent s.files i) (ent s.files j))
    (hpos : ∀ i ∈ s.localMap.ids, 0 < (ent s.files i).length)
    (i : Nat) (hi : i ∈ s.localMap.ids) (o : FObj) (ho : s.files[i]? = some o) (a : Int)
    (ha : o.address = some a) (x : Nat) (hx : x < 2 ^ 32) (h1 : a ≤ x) (h2 : (x : Int) < a + o.length)
    (m : Bool) (hdr bs : Bytes) (hh : Rmf.packHeader Rmf.cmdStartAddr m = .ok hdr)
    (hb : Rmf.packFileOpen x s.byteOrder = .ok bs) :
    ∃ s', onMsgReceived s (hdr ++ bs) = (s', none, none) ∧
      s'.files[i]? = some { o with isOpen := true } ∧
      s'.queue = s.queue ++ [.writeData a o.content.data] := by
  have hsep : Sep isLocal s := hs ▸ (sep_start hf bo).run _ hr
  exact open_sends_content s hbo x hx i o a ho ha (find_ent hsep.inv hdis hpos hi ho ha h1 h2) m hdr bs hh hb

/-- C39: in any program that keeps local and requested files apart, a write to an open local
output file that lies inside the file returns its length, changes exactly the written bytes and
queues exactly them; a write that does not fit changes nothing and queues nothing. -/
theorem C39_write_queues (isLocal : Nat → Bool) (files : List FObj) (hf : Fresh files) (bo : Char)
    (ops : List (Op H)) (hr : ∀ op ∈ ops, op.Respects isLocal) (s : Mgr H)
    (hs : s = run (start files bo) ops) (i : Nat) (hl : isLocal i = true) (o : FObj)
    (ho : s.files[i]? = some o) (hk : o.kind = .output) (hopen : o.isOpen = true)
    (offset : Int) (data : Bytes) :
    ∃ a s' e ret, o.address = some a ∧ writeLocal s i offset data = (s', e, ret) ∧
      ((0 ≤ offset ∧ offset + data.length ≤ o.length) →
        e = none ∧ ret = data.length ∧ s'.queue = s.queue ++ [.writeData (a + offset) data] ∧
        ∃ o', s'.files[i]? = some o' ∧ Overwrites o.content.data offset.toNat data o'.content.data) ∧
      (¬ (0 ≤ offset ∧ offset + data.length ≤ o.length) → s' = s ∧ e = none ∧ ret = -1) := by
  have hsep : Sep isLocal s := hs ▸ (sep_start hf bo).run _ hr
  obtain ⟨-, o2, a, h1, hm, ha⟩ := hsep.localIds i (hsep.opened i o hl ho hopen)
  rw [ho] at h1; cases h1
  by_cases hfit : 0 ≤ offset ∧ offset + data.length ≤ o.length
  · have hne : (writeLocal s i offset data).2.2 ≠ -1 := by
      unfold writeLocal
      rw [ho]
      obtain ⟨n, rfl⟩ := Int.eq_ofNat_of_zero_le hfit.1
      have hfit' : n + data.length ≤ o.content.data.length := by
        have := hfit.2; unfold FObj.length at this; omega
      simp only [FileData.outputWrite, FileData.write_fits _ _ _ hfit']
      split
      · simp only; omega
      · simp only; omega
    rcases writeLocal_cases hsep i offset data with he | ⟨o2, n, ho2, hn, hnf, hc⟩
    · -- the state is unchanged: still the queue must have grown
      exfalso
      obtain ⟨n, rfl⟩ := Int.eq_ofNat_of_zero_le hfit.1
      have hfit' : n + data.length ≤ o.content.data.length := by
        have := hfit.2; unfold FObj.length at this; omega
      have hq : (writeLocal s i (n : Int) data).1.queue ≠ s.queue := by
        unfold writeLocal
        rw [ho]
        simp only [FileData.outputWrite, FileData.write_fits _ _ _ hfit']
        rw [if_pos (by simp [hm, hk, hopen] <;> omega)]
        simp only [outPortDataWriteNotify, update]
        rw [modify_get _ _ _ o ho]
        simp only [ha]
        obtain ⟨bs, hr2, -⟩ := (FileData.C19_read ⟨o.content.data.take n ++ data ++ o.content.data.drop (n + data.length)⟩
          (n : Int) data.length).1 ⟨by omega, by simp <;> omega⟩
        rw [hr2]
        simp [Mgr.put]
      exact hq (by rw [he])
    · rw [ho] at ho2; cases ho2
      rcases hc with ⟨hc, -⟩ | ⟨b, -, -, -, hb, he⟩
      · simp [hm, hk, hopen] at hc
      · rw [ha] at hb; cases hb
        refine ⟨a, _, _, _, ha, he, fun _ => ⟨rfl, rfl, ?_, ?_⟩, fun hx => absurd hfit hx⟩
        · simp only [hn]
        · refine ⟨_, modify_get _ _ _ o ho, ?_⟩
          rw [hn]
          exact write_overwrites o.content n data hnf
  · have hw := FileData.write_rejects o.content offset data (by unfold FObj.length at hfit; omega)
    have : writeLocal s i offset data = (s, none, -1) := by
      unfold writeLocal
      rw [ho]
      simp only [FileData.outputWrite, hw]
      rw [if_neg (by omega)]
      simp only [update]
      have : (s.files.modify i fun o' => { o' with content := o.content }) = s.files := by
        apply List.ext_getElem?
        intro j
        by_cases hij : i = j
        · subst hij; rw [modify_get _ _ _ o ho, ho]
        · rw [modify_ne _ _ _ _ hij]
      rw [this]
    exact ⟨a, s, none, -1, ha, this, fun hx => absurd hx hfit, fun _ => ⟨rfl, rfl, rfl⟩⟩

/-- C39 for whole histories (calls and messages one after the other): whenever a local output
file is open, replaying the data messages queued so far, in order, on a copy of the right length
and any content gives exactly the file's current content.  (The other local files must not share
addresses with it; files placed automatically do not, C14.) -/
theorem C39_replay (isLocal : Nat → Bool) (files : List FObj) (hf : Fresh files) (bo : Char)
    (ops : List (Op H)) (hr : ∀ op ∈ ops, op.Respects isLocal) (s : Mgr H)
    (hs : s = run (start files bo) ops) (i : Nat) (hl : isLocal i = true) (o : FObj)
    (ho : s.files[i]? = some o) (hk : o.kind = .output) (hopen : o.isOpen = true)
    (hd : ∀ j ∈ s.localMap.ids, j ≠ i → Disjoint (ent s.files j) (ent s.files i)) :
    ∃ a, o.address = some a ∧ ∀ copy : Bytes, copy.length = o.length →
      mirrorAll a copy s.queue = o.content.data := by
  subst hs
  exact replay hf bo ops hr i hl o ho hk hopen hd

example : let s := (run (start mgFiles '<') mgOps : Mgr Unit)
    s.localMap.ids = [0] ∧ (s.files[0]?.map fun o => (o.isOpen, o.content.data)) = some (true, [1, 7, 8, 4]) ∧
    mirrorAll 0 [9, 9, 9, 9] s.queue = [1, 7, 8, 4] := by decide +kernel

/-! C41 -/

theorem worker_dropped (msgs rest : List (Msg H)) (hs : ∀ m ∈ msgs, m.Sendable) :
    worker none (msgs ++ rest) = worker none rest := by
  induction msgs with
  | nil => rfl
  | cons m ms ih =>
    have hm := hs m (by simp)
    have ih := ih (fun x hx => hs x (by simp [hx]))
    cases m with
    | connect h => exact absurd hm (by simp [Msg.Sendable])
    | stop => exact absurd hm (by simp [Msg.Sendable])
    | fileInfo d =>
      obtain ⟨hd, hh, -⟩ := Rmf.C05_header_roundtrip_exact Rmf.cmdStartAddr false (by decide)
      simp only [List.cons_append, worker, hh, ih]
    | writeData a d =>
      have : ∃ hd, Rmf.packHeader a false = .ok hd := by
        simp only [Msg.Sendable] at hm
        rcases Int.lt_or_le a 16384 with h | h
        · exact ⟨_, Rmf.packHeader_short a false h⟩
        · obtain ⟨n, rfl⟩ := Int.eq_ofNat_of_zero_le (show 0 ≤ a by omega)
          exact ⟨_, Rmf.packHeader_long n false (by omega) (by omega)⟩
      obtain ⟨hd, hh⟩ := this
      simp only [List.cons_append, worker, hh, ih]
    | fileOpen a =>
      simp only [Msg.Sendable] at hm
      obtain ⟨n, rfl⟩ := Int.eq_ofNat_of_zero_le hm.1
      obtain ⟨hd, hh, -⟩ := Rmf.C05_header_roundtrip_exact Rmf.cmdStartAddr false (by decide)
      obtain ⟨bs, hb, -⟩ := Rmf.C08_fileopen_roundtrip n (by omega) '<' (.inl rfl)
      simp only [List.cons_append, worker, hh, hb, ih]

theorem worker_sends (h : H) (msgs rest : List (Msg H)) (hs : ∀ m ∈ msgs, m.Sendable) :
    ∃ frames, Each FrameOf msgs frames ∧
      worker (some h) (msgs ++ rest) =
        (frames.map (h, ·) ++ (worker (some h) rest).1, (worker (some h) rest).2) := by
  induction msgs with
  | nil => exact ⟨[], .nil, by simp⟩
  | cons m ms ih =>
    have hm := hs m (by simp)
    obtain ⟨frames, hf, ih⟩ := ih (fun x hx => hs x (by simp [hx]))
    cases m with
    | connect h => exact absurd hm (by simp [Msg.Sendable])
    | stop => exact absurd hm (by simp [Msg.Sendable])
    | fileInfo d =>
      obtain ⟨hd, hh, -⟩ := Rmf.C05_header_roundtrip_exact Rmf.cmdStartAddr false (by decide)
      exact ⟨_, .cons (.info d hd hh) hf, by simp only [List.cons_append, worker, hh, ih]; simp⟩
    | writeData a d =>
      have : ∃ hd, Rmf.packHeader a false = .ok hd := by
        simp only [Msg.Sendable] at hm
        rcases Int.lt_or_le a 16384 with h | h
        · exact ⟨_, Rmf.packHeader_short a false h⟩
        · obtain ⟨n, rfl⟩ := Int.eq_ofNat_of_zero_le (show 0 ≤ a by omega)
          exact ⟨_, Rmf.packHeader_long n false (by omega) (by omega)⟩
      obtain ⟨hd, hh⟩ := this
      exact ⟨_, .cons (.data a d hd hh) hf, by simp only [List.cons_append, worker, hh, ih]; simp⟩
    | fileOpen a =>
      simp only [Msg.Sendable] at hm
      obtain ⟨n, rfl⟩ := Int.eq_ofNat_of_zero_le hm.1
      obtain ⟨hd, hh, -⟩ := Rmf.C05_header_roundtrip_exact Rmf.cmdStartAddr false (by decide)
      obtain ⟨bs, hb, -⟩ := Rmf.C08_fileopen_roundtrip n (by omega) '<' (.inl rfl)
      exact ⟨_, .cons (.fileOpen n hd bs hh hb) hf, by simp only [List.cons_append, worker, hh, hb, ih]; simp⟩

/-- C41: of the messages queued before the connection, between it and the stop message, and after
the stop message, the worker transmits exactly those in between: one frame each, in queue order,
to the handler of that connection, without raising. -/
theorem C41_transmits_in_order (h : H) (before msgs after : List (Msg H))
    (hb : ∀ m ∈ before, m.Sendable) (hs : ∀ m ∈ msgs, m.Sendable) :
    ∃ frames, Each FrameOf msgs frames ∧
      worker none (before ++ .connect h :: msgs ++ .stop :: after) = (frames.map (h, ·), none) := by
  obtain ⟨frames, h1, h2⟩ := worker_sends h msgs (.stop :: after) hs
  refine ⟨frames, h1, ?_⟩
  rw [List.append_assoc, worker_dropped before _ hb]
  simp only [List.cons_append, worker]
  rw [h2]
  simp [worker]

/-- C41: as long as the queue has not been stopped, everything queued after the connection has
been transmitted once the queue is empty. -/
theorem C41_without_stop (h : H) (before msgs : List (Msg H))
    (hb : ∀ m ∈ before, m.Sendable) (hs : ∀ m ∈ msgs, m.Sendable) :
    ∃ frames, Each FrameOf msgs frames ∧
      worker none (before ++ .connect h :: msgs) = (frames.map (h, ·), none) := by
  obtain ⟨frames, h1, h2⟩ := worker_sends h msgs [] hs
  refine ⟨frames, h1, ?_⟩
  rw [worker_dropped before _ hb]
  simp only [worker]
  rw [List.append_nil] at h2
  rw [h2]
  simp [worker]

/-- C41: after a second connection the frames go to the new handler. -/
theorem C41_reconnect (h h' : H) (before msgs msgs' : List (Msg H))
    (hb : ∀ m ∈ before, m.Sendable) (hs : ∀ m ∈ msgs, m.Sendable) (hs' : ∀ m ∈ msgs', m.Sendable) :
    ∃ frames frames', Each FrameOf msgs frames ∧ Each FrameOf msgs' frames' ∧
      worker none (before ++ .connect h :: (msgs ++ .connect h' :: msgs')) =
        (frames.map (h, ·) ++ frames'.map (h', ·), none) := by
  obtain ⟨frames, h1, h2⟩ := worker_sends h msgs (.connect h' :: msgs') hs
  obtain ⟨frames', h3, h4⟩ := worker_sends h' msgs' [] hs'
  refine ⟨frames, frames', h1, h3, ?_⟩
  rw [worker_dropped before _ hb]
  simp only [worker]
  rw [h2]
  simp only [worker]
  rw [List.append_nil] at h4
  rw [h4]
  simp [worker]

example : worker (H := Nat) none [.fileInfo [1], .connect 7, .writeData 5 [1, 2], .fileOpen 3, .stop, .writeData 9 [1]] =
    ([(7, [0, 5, 1, 2]), (7, [0xbf, 0xff, 0xfc, 0, 10, 0, 0, 0, 3, 0, 0, 0])], none) := by decide +kernel

end Apx.Manager

namespace Apx.Concurrent
open Manager

/-! C40 -/

/-- Two threads, each about to write one byte to the same place of an open file. -/
def c40Sys : Sys :=
  { address := 0, content := ⟨[0]⟩, queue := [], threads := [⟨.idle, [(0, [1])]⟩, ⟨.idle, [(0, [2])]⟩] }

/-- C40, the part that holds: any number of threads with any numbers of calls, under every
schedule, when each byte of the file is written by one thread only (for example when each thread
writes its own ports).  Once all calls are done and the queue is drained, the peer's copy equals
the file. -/
theorem C40_disjoint_partial (s : Sys) (hidle : ∀ t ∈ s.threads, t.phase = .idle) (hq : s.queue = [])
    (owner : Nat → Nat)
    (hown : ∀ (t : Nat) (th : Thread), s.threads[t]? = some th →
      ∀ w ∈ th.todo, ∀ k : Nat, w.1 ≤ k → (k : Int) < w.1 + w.2.length → owner k = t)
    (schedule : List Nat) (hdone : (s.exec schedule).Done) :
    mirrorAll s.address s.content.data (s.exec schedule).queue = (s.exec schedule).content.data := by
  have h0 : Inv owner s.content.data s := by
    refine ⟨rfl, fun t th ht => ⟨hown t th ht, ?_⟩, fun k hk => ?_⟩
    · rw [hidle th (List.mem_of_getElem? ht)]; trivial
    · have : phaseAt s.threads (owner k) = .idle := by
        unfold phaseAt
        split
        · rename_i th ht; exact hidle th (List.mem_of_getElem? ht)
        · rfl
      rw [this, hq]
      rfl
  have h1 := inv_exec schedule h0
  have hlen := mirrorAll_length s.address (s.exec schedule).queue s.content.data
  have haddr := exec_address schedule s
  apply List.ext_getElem?
  intro k
  by_cases hk : k < s.content.data.length
  · have := h1.agree k hk
    have hp : phaseAt (s.exec schedule).threads (owner k) = .idle := by
      unfold phaseAt
      split
      · rename_i th ht; rw [hdone th (List.mem_of_getElem? ht)]
      · rfl
    rw [hp, haddr] at this
    exact this
  · rw [List.getElem?_eq_none (by omega), List.getElem?_eq_none (by rw [h1.len]; omega)]

/-- C40, the other part that holds: calls that do not interleave.  A call run to its end without
interruption queues exactly what it wrote. -/
theorem C40_uninterrupted_partial (s : Sys) (t : Nat) (n : Nat) (data : Bytes) (rest : List (Int × Bytes))
    (ht : s.threads[t]? = some ⟨.idle, ((n : Int), data) :: rest⟩) (hf : n + data.length ≤ s.content.data.length) :
    s.exec [t, t, t] =
      { s with
        content := (s.content.write n data).1
        queue := s.queue ++ [.writeData (s.address + n) data]
        threads := s.threads.set t ⟨.idle, rest⟩ } := by
  have hlt : t < s.threads.length := by
    apply Decidable.byContradiction
    intro hn
    rw [List.getElem?_eq_none (by omega)] at ht
    cases ht
  have hw := FileData.write_fits s.content n data hf
  have hr : (s.content.write n data).1.read n data.length = some data := by
    obtain ⟨bs, hr, hl, hb⟩ := (FileData.C19_read (s.content.write (n : Int) data).1 (n : Int) data.length).1
      ⟨by omega, by rw [FileData.write_length]; omega⟩
    rw [hr]
    obtain ⟨-, -, hov⟩ := write_overwrites s.content n data hf
    congr 1
    apply List.ext_getElem?
    intro k
    by_cases hk : k < data.length
    · rw [hb k hk]
      simp only [Int.toNat_natCast]
      rw [hov (n + k), if_pos (by omega)]
      congr 1; omega
    · rw [List.getElem?_eq_none (by omega), List.getElem?_eq_none (by omega)]
  have h1 : s.step t = { s with
      content := (s.content.write n data).1
      threads := s.threads.set t ⟨.wrote n data.length, rest⟩ } := by
    unfold Sys.step
    rw [ht]
    simp only [hw]
    rw [if_pos (by omega)]
  simp only [Sys.exec, List.foldl_cons, List.foldl_nil]
  rw [h1]
  have h2 : Sys.step { s with
      content := (s.content.write n data).1
      threads := s.threads.set t ⟨.wrote n data.length, rest⟩ } t =
    { s with
      content := (s.content.write n data).1
      threads := s.threads.set t ⟨.hasRead n data, rest⟩ } := by
    unfold Sys.step
    simp only [List.getElem?_set_self hlt, hr, List.set_set]
  rw [h2]
  unfold Sys.step
  simp only [List.getElem?_set_self hlt, List.set_set]

theorem mirror_put {H : Type} (a : Int) (copy data : Bytes) (n : Nat) (h : n + data.length ≤ copy.length) :
    mirror (H := H) a copy (.writeData (a + n) data) = copy.take n ++ data ++ copy.drop (n + data.length) := by
  simp only [mirror]
  rw [if_pos (by omega)]
  simp only [show (a + (n : Int) - a).toNat = n by omega]

/-- C40 is violated by every pair of calls of two threads that write different values to some byte of the file: there is
an interleaving after which everything is done and drained, but the peer's copy (equal to the file before) differs from
the file for good. -/
theorem C40_same_bytes_violated (s : Sys) (hidle : ∀ t ∈ s.threads, t.phase = .idle) (hq : s.queue = [])
    (t u : Nat) (htu : t ≠ u) (n m : Nat) (d e : Bytes)
    (ht : s.threads[t]? = some ⟨.idle, [((n : Int), d)]⟩) (hu : s.threads[u]? = some ⟨.idle, [((m : Int), e)]⟩)
    (hothers : ∀ (i : Nat) (th : Thread), s.threads[i]? = some th → i ≠ t → i ≠ u → th.todo = [])
    (hd : n + d.length ≤ s.content.data.length) (he : m + e.length ≤ s.content.data.length)
    (k : Nat) (hk1 : n ≤ k ∧ k < n + d.length) (hk2 : m ≤ k ∧ k < m + e.length) (hne : d[k - n]? ≠ e[k - m]?) :
    ∃ schedule, (s.exec schedule).Done ∧
      mirrorAll s.address s.content.data (s.exec schedule).queue ≠ (s.exec schedule).content.data := by
  have htl : t < s.threads.length := (List.getElem?_eq_some_iff.mp ht).1
  have hul : u < s.threads.length := (List.getElem?_eq_some_iff.mp hu).1
  -- the first thread has read back what it has written
  have hr : (s.content.write n d).1.read n d.length = some d := by
    obtain ⟨bs, hr, hl, hb⟩ := (FileData.C19_read (s.content.write (n : Int) d).1 (n : Int) d.length).1
      ⟨by omega, by rw [FileData.write_length]; omega⟩
    rw [hr]
    obtain ⟨-, -, hov⟩ := write_overwrites s.content n d hd
    congr 1
    apply List.ext_getElem?
    intro k
    by_cases hk : k < d.length
    · rw [hb k hk]
      simp only [Int.toNat_natCast]
      rw [hov (n + k), if_pos (by omega)]
      congr 1; omega
    · rw [List.getElem?_eq_none (by omega), List.getElem?_eq_none (by omega)]
  have h1 : s.step t = { s with
      content := (s.content.write n d).1
      threads := s.threads.set t ⟨.wrote n d.length, []⟩ } := by
    unfold Sys.step
    rw [ht]
    simp only [FileData.write_fits s.content n d hd]
    rw [if_pos (by omega)]
  have h2 : (s.step t).step t = { s with
      content := (s.content.write n d).1
      threads := s.threads.set t ⟨.hasRead n d, []⟩ } := by
    rw [h1]
    unfold Sys.step
    simp only [List.getElem?_set_self htl, hr, List.set_set]
  -- then the second one makes its call, and the first one queues
  have h3 := C40_uninterrupted_partial ((s.step t).step t) u m e [] (by
    rw [h2]
    simp only
    rw [List.getElem?_set_ne htu]
    exact hu) (by rw [h2]; simp only [FileData.write_length]; exact he)
  have h4 : s.exec [t, t, u, u, u, t] = (((s.step t).step t).exec [u, u, u]).step t := by
    simp only [Sys.exec, List.foldl_cons, List.foldl_nil]
  rw [h3, h2] at h4
  have h5 : s.exec [t, t, u, u, u, t] = { s with
      content := ((s.content.write n d).1.write m e).1
      queue := [.writeData (s.address + m) e, .writeData (s.address + n) d]
      threads := ((s.threads.set t ⟨.hasRead n d, []⟩).set u ⟨.idle, []⟩).set t ⟨.idle, []⟩ } := by
    rw [h4]
    unfold Sys.step
    simp only
    rw [List.getElem?_set_ne (Ne.symm htu), List.getElem?_set_self htl]
    simp [hq]
  refine ⟨[t, t, u, u, u, t], ?_, ?_⟩
  · rw [h5]
    intro th hth
    obtain ⟨i, hi⟩ := List.getElem?_of_mem hth
    simp only at hi
    by_cases hit : i = t
    · subst hit
      rw [List.getElem?_set_self (by simpa using htl)] at hi
      exact (Option.some.inj hi).symm
    · rw [List.getElem?_set_ne (Ne.symm hit)] at hi
      by_cases hiu : i = u
      · subst hiu
        rw [List.getElem?_set_self (by simpa using hul)] at hi
        exact (Option.some.inj hi).symm
      · rw [List.getElem?_set_ne (Ne.symm hiu), List.getElem?_set_ne (Ne.symm hit)] at hi
        have e1 := hothers i th hi hit hiu
        have e2 := hidle th (List.mem_of_getElem? hi)
        cases th
        simp only at e1 e2
        rw [e1, e2]
  · rw [h5]
    intro heq
    simp only [mirrorAll, List.foldl_cons, List.foldl_nil] at heq
    have hb := congrArg (fun l : Bytes => l[k]?) heq
    obtain ⟨-, -, hov⟩ := write_overwrites (s.content.write n d).1 m e (by rw [FileData.write_length]; exact he)
    rw [hov k, if_pos hk2, mirror_put s.address s.content.data e m he] at hb
    rw [mirror_put s.address _ d n (by simp; omega), List.append_assoc,
      List.getElem?_append_right (by simp; omega), List.getElem?_append_left (by simp; omega)] at hb
    rw [← hb] at hne
    apply hne
    congr 1
    simp
    omega

example : ∃ schedule, (c40Sys.exec schedule).Done ∧
    mirrorAll c40Sys.address c40Sys.content.data (c40Sys.exec schedule).queue ≠ (c40Sys.exec schedule).content.data :=
  C40_same_bytes_violated c40Sys (by decide) rfl 0 1 (by decide) 0 0 [1] [2] rfl rfl
    (fun i th h h0 h1 => by
      have : c40Sys.threads[i]? = none := List.getElem?_eq_none (by simp only [c40Sys, List.length_cons, List.length_nil]; omega)
      rw [this] at h
      cases h)
    (by decide) (by decide) 0 (by decide) (by decide) (by decide)

/-- Non-vacuity of `C40_disjoint_partial`: three writers with their own bytes. -/
example :
    let s : Sys := ⟨100, ⟨[0, 0, 0, 0]⟩, [],
      [⟨.idle, [(0, [1]), (0, [4])]⟩, ⟨.idle, [(1, [2, 3])]⟩, ⟨.idle, [(3, [9]), (9, [1])]⟩]⟩
    let e := s.exec [0, 1, 1, 2, 0, 2, 1, 2, 0, 0, 2, 0, 0]
    e.Done ∧ e.content.data = [4, 2, 3, 9] ∧ mirrorAll 100 [0, 0, 0, 0] e.queue = [4, 2, 3, 9] := by
  decide +kernel

end Apx.Concurrent
