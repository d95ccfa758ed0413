import Verif.Spec.Session
import Verif.Proofs.FileManager
import Verif.Proofs.Signature
import Verif.Props.NodeData
import Verif.Props.Reception

/-! The invariant of a client's histories (C73). -/

namespace Apx
open Manager FileMap

variable {H : Type}

theorem endsWith_append (s t : Str) : endsWith (s ++ t) t = true := by
  unfold endsWith
  rw [List.isSuffixOf_iff_suffix]
  exact List.suffix_append s t

theorem not_suffix_of_ends {s t u : Str} (hl : t.length = u.length) (hne : t ≠ u) : endsWith (s ++ t) u = false := by
  unfold endsWith
  rw [Bool.eq_false_iff]
  intro h
  rw [List.isSuffixOf_iff_suffix] at h
  obtain ⟨p, hp⟩ := h
  have := List.append_inj_right' hp hl.symm
  exact hne this.symm

theorem ends_other {s : Str} : endsWith (s ++ ".apx".toList) ".in".toList = false ∧
    endsWith (s ++ ".apx".toList) ".out".toList = false := by
  refine ⟨?_, not_suffix_of_ends rfl (by decide)⟩
  have : s ++ ".apx".toList = (s ++ ".".toList) ++ "apx".toList := by simp
  rw [this]
  exact not_suffix_of_ends rfl (by decide)

theorem assign_eq (m : FileMap) (f : FileEnt) (s e b : Nat) (hs : s = 0 ∨ s &&& (s - 1) = 0) (hse : s ≤ e)
    (hb : b &&& (b - 1) = 0) (p : Int) (hp : placement m s e b = .ok (some p)) :
    assignFileAddress m f s e b =
      if p + f.length ≤ e then .ok { f with address := some p } else .error .valueError := by
  unfold assignFileAddress
  rw [if_neg (fun hc => by rcases hs with h | h; exact hc.1 h; exact hc.2 h), if_neg (by omega),
    if_neg (fun hc => hc hb), hp]

theorem attach_eq (s : Mgr H) (i : Nat) (o : FObj) (ho : s.files[i]? = some o) (ha : o.address = none) (p : Int)
    (lim : Nat) (h : assignFileAddressDefault (s.localMap.view s.files) (ent s.files i) =
      if p + o.length ≤ lim then .ok { ent s.files i with address := some p } else .error .valueError) :
    attachLocalFile s i = if p + o.length ≤ lim then
      ({ s with
        localMap := ⟨s.localMap.keys.insertIdx (bisectLeft s.localMap.keys p) p,
          s.localMap.ids.insertIdx (bisectLeft s.localMap.keys p) i⟩
        files := s.files.modify i fun o => { o with address := some p, hasManager := true } }, none)
      else (s, some .valueError) := by
  unfold attachLocalFile
  have h1 : (ent s.files i).isApx = true := by rw [ent_some ho]
  have h2 : (ent s.files i).address = none := by rw [ent_some ho]; exact ha
  by_cases hl : p + o.length ≤ lim
  · rw [if_pos hl] at h ⊢
    have : (s.localMap.view s.files).insert (ent s.files i) =
        .ok (⟨s.localMap.keys.insertIdx (bisectLeft s.localMap.keys p) p,
          (s.localMap.view s.files).items.insertIdx (bisectLeft s.localMap.keys p) { ent s.files i with address := some p }⟩,
          { ent s.files i with address := some p }) := by
      simp only [FileMap.insert, h1, Bool.not_true, Bool.false_eq_true, if_false, h2, h, ok_bind]
      rfl
    rw [this]
    simp only [MapRef.ofView, update, map_insertIdx', view_ids, ent_id]
  · rw [if_neg hl] at h ⊢
    have : (s.localMap.view s.files).insert (ent s.files i) = .error .valueError := by
      simp only [FileMap.insert, h1, Bool.not_true, Bool.false_eq_true, if_false, h2, h, error_bind]
    rw [this]

/-- Attaching the first file, out-port data. -/
theorem attach_out (s : Mgr H) (hm : s.localMap = ⟨[], []⟩) (o : FObj) (ho : s.files[1]? = some o)
    (ha : o.address = none) (name : Str) (hn : o.name = name ++ ".out".toList) :
    attachLocalFile s 1 = if o.length ≤ definitionAddress then
      ({ s with
        localMap := ⟨[0], [1]⟩
        files := s.files.modify 1 fun o => { o with address := some 0, hasManager := true } }, none)
      else (s, some .valueError) := by
  have h := attach_eq s 1 o ho ha 0 definitionAddress (by
    unfold assignFileAddressDefault
    have he : endsWith (ent s.files 1).name ".out".toList = true := by
      rw [ent_some ho]; simp only [hn]; exact endsWith_append _ _
    rw [if_pos (by rw [he]; simp)]
    rw [assign_eq _ _ portDataStart _ _ (.inl rfl) (by decide) (by decide) 0]
    · rw [ent_some ho]; rfl
    · unfold placement MapRef.view
      rw [hm]; rfl)
  rw [h, hm]
  have : ((0 : Int) + o.length ≤ definitionAddress) ↔ o.length ≤ definitionAddress := by omega
  simp only [this]
  have hb : bisectLeft ([] : List Int) 0 = 0 := by simp [bisectLeft, bisectLeftLoop]
  rw [hb]
  rfl

/-- Attaching the definition file, alone or after the out-port data. -/
theorem attach_def (s : Mgr H) (hasOut : Bool)
    (hm : s.localMap = if hasOut then ⟨[0], [1]⟩ else ⟨[], []⟩)
    (h1 : hasOut = true → ∃ o1, s.files[1]? = some o1 ∧ o1.address = some 0)
    (o : FObj) (ho : s.files[2]? = some o)
    (ha : o.address = none) (name : Str) (hn : o.name = name ++ ".apx".toList) :
    attachLocalFile s 2 = if definitionAddress + o.length ≤ userDataStart then
      ({ s with
        localMap := if hasOut then ⟨[0, definitionAddress], [1, 2]⟩ else ⟨[definitionAddress], [2]⟩
        files := s.files.modify 2 fun o => { o with address := some (definitionAddress : Int), hasManager := true } }, none)
      else (s, some .valueError) := by
  have h := attach_eq s 2 o ho ha definitionAddress userDataStart (by
    unfold assignFileAddressDefault
    have hname : (ent s.files 2).name = name ++ ".apx".toList := by rw [ent_some ho]; exact hn
    rw [hname]
    rw [if_neg (by rw [ends_other.1, ends_other.2]; decide), if_pos (endsWith_append _ _)]
    rw [assign_eq _ _ _ _ _ (.inr (by decide)) (by decide) (by decide) (definitionAddress : Int)]
    · rw [ent_some ho]
    · unfold placement MapRef.view
      rw [hm]
      cases hasOut
      · rfl
      · obtain ⟨o1, g1, g2⟩ := h1 rfl
        simp only [if_true, List.length_cons, List.length_nil, List.map_cons, List.map_nil]
        have hb : bisectLeft [(0 : Int)] (userDataStart : Int) = 1 := by decide +kernel
        rw [hb, ent_some g1]
        simp [scanBack, g2, definitionStart, definitionAddress])
  rw [h, hm]
  have : ((definitionAddress : Int) + o.length ≤ userDataStart) ↔ definitionAddress + o.length ≤ userDataStart := by omega
  simp only [this]
  cases hasOut
  · simp [bisectLeft, bisectLeftLoop]
  · have hb : bisectLeft [(0 : Int)] (definitionAddress : Int) = 1 := by decide +kernel
    simp [hb]

/-! ### The client after `Client(node)` -/

/-- The sizes that fit the address space. -/
def SizesFit (nd : NodeData) : Prop :=
  (fileBytes nd.outFile).length ≤ definitionAddress ∧
    definitionAddress + nd.definitionFile.data.length ≤ userDataStart

instance (nd : NodeData) : Decidable (SizesFit nd) := inferInstanceAs (Decidable (_ ∧ _))

def attachOps (nd : NodeData) : List (Op H) :=
  (if nd.inFile.isSome then [.request 0] else []) ++ ((if nd.outFile.isSome then [.attach 1] else []) ++ [.attach 2])

def clientLocal (i : Nat) : Bool := i == 1 || i == 2

/-- The manager of a new client. -/
def clientStart (name : Str) (nd : NodeData) : Mgr H :=
  { files :=
      [FObj.create .input (name ++ ".in".toList) (nd.inFile.getD ⟨[]⟩) true,
       { FObj.create .output (name ++ ".out".toList) (nd.outFile.getD ⟨[]⟩) with
          address := if nd.outFile.isSome then some 0 else none, hasManager := nd.outFile.isSome },
       { FObj.create .output (name ++ ".apx".toList) nd.definitionFile with
          address := some (definitionAddress : Int), hasManager := true }]
    localMap := if nd.outFile.isSome then ⟨[0, definitionAddress], [1, 2]⟩ else ⟨[definitionAddress], [2]⟩
    remoteMap := ⟨[], []⟩
    requested := if nd.inFile.isSome then [(name ++ ".in".toList, 0)] else []
    byteOrder := '<'
    queue := [] }

theorem request_start (name : Str) (nd : NodeData) :
    requestIf (Mgr.mk (clientFiles name nd) ⟨[], []⟩ ⟨[], []⟩ [] '<' [] : Mgr H) nd.inFile.isSome 0 =
      .ok (Mgr.mk (clientFiles name nd) ⟨[], []⟩ ⟨[], []⟩
        (if nd.inFile.isSome then [(name ++ ".in".toList, 0)] else []) '<' []) := by
  unfold requestIf
  cases nd.inFile.isSome <;> rfl

theorem create_length (k : Kind) (n : Str) (c : FileData) (b : Bool) : (FObj.create k n c b).length = c.data.length := rfl

theorem attach_start (name : Str) (nd : NodeData) (rq : List (Str × Nat)) :
    attachIf (Mgr.mk (clientFiles name nd) ⟨[], []⟩ ⟨[], []⟩ rq '<' [] : Mgr H) nd.outFile.isSome 1 =
      if (fileBytes nd.outFile).length ≤ definitionAddress then
        .ok (Mgr.mk [FObj.create .input (name ++ ".in".toList) (nd.inFile.getD ⟨[]⟩) true,
          { FObj.create .output (name ++ ".out".toList) (nd.outFile.getD ⟨[]⟩) with
            address := if nd.outFile.isSome then some 0 else none, hasManager := nd.outFile.isSome },
          FObj.create .output (name ++ ".apx".toList) nd.definitionFile]
          (if nd.outFile.isSome then ⟨[0], [1]⟩ else ⟨[], []⟩) ⟨[], []⟩ rq '<' [])
      else .error .valueError := by
  unfold attachIf
  cases ho : nd.outFile with
  | none => simp [fileBytes, clientFiles, ho]; rfl
  | some f =>
    simp only [Option.isSome_some, if_true, fileBytes]
    rw [attach_out _ rfl (FObj.create .output (name ++ ".out".toList) f) (by simp [clientFiles, ho]) rfl name rfl]
    rw [create_length]
    by_cases hl : f.data.length ≤ definitionAddress
    · rw [if_pos hl, if_pos hl]
      simp only [clientFiles, ho]; rfl
    · rw [if_neg hl, if_neg hl]

theorem ofNode_eq (n : Node) (nd : NodeData) (h : n.nodeData = .ok nd) :
    (Endpoint.ofNode n : Py (Endpoint H)) =
      if SizesFit nd then .ok ⟨clientStart n.name nd, nd, 0, 1, [], false⟩ else .error .valueError := by
  unfold Endpoint.ofNode
  rw [h]
  simp only [ok_bind, request_start, attach_start]
  by_cases h1 : (fileBytes nd.outFile).length ≤ definitionAddress
  · rw [if_pos h1]
    simp only [ok_bind]
    unfold attachIf
    rw [if_pos rfl, attach_def _ nd.outFile.isSome rfl (by
      intro hs; exact ⟨_, rfl, by simp [hs]⟩) _ rfl rfl n.name rfl]
    rw [create_length]
    by_cases h2 : definitionAddress + nd.definitionFile.data.length ≤ userDataStart
    · rw [if_pos h2, if_pos (show SizesFit nd from ⟨h1, h2⟩)]; rfl
    · rw [if_neg h2, if_neg (fun hc : SizesFit nd => h2 hc.2)]; rfl
  · rw [if_neg h1, if_neg (fun hc : SizesFit nd => h1 hc.1)]; rfl

theorem run_attach (name : Str) (nd : NodeData) (h : SizesFit nd) :
    run (start (clientFiles name nd) '<' : Mgr H) (attachOps nd) = clientStart name nd := by
  have hstart : (start (clientFiles name nd) '<' : Mgr H) =
      Mgr.mk (clientFiles name nd) ⟨[], []⟩ ⟨[], []⟩ [] '<' [] := rfl
  unfold attachOps
  rw [hstart]
  unfold run
  rw [List.foldl_append, List.foldl_append]
  have e1 : List.foldl step (Mgr.mk (clientFiles name nd) ⟨[], []⟩ ⟨[], []⟩ [] '<' [] : Mgr H)
      (if nd.inFile.isSome then [.request 0] else []) =
      Mgr.mk (clientFiles name nd) ⟨[], []⟩ ⟨[], []⟩ (if nd.inFile.isSome then [(name ++ ".in".toList, 0)] else []) '<' [] := by
    cases nd.inFile.isSome <;> rfl
  rw [e1]
  have e2 := attach_start (H := H) name nd (if nd.inFile.isSome then [(name ++ ".in".toList, 0)] else [])
  rw [if_pos h.1] at e2
  have e3 : ∀ (s s' : Mgr H) (b : Bool) (i : Nat), attachIf s b i = .ok s' →
      List.foldl step s (if b then [.attach i] else []) = s' := by
    intro s s' b i he
    unfold attachIf at he
    cases b
    · simpa using he
    · simp only [if_true] at he
      simp only [if_true, List.foldl_cons, List.foldl_nil, step]
      split at he
      · rename_i hh; rw [hh]; exact Except.ok.inj he
      · cases he
  rw [e3 _ _ _ _ e2]
  simp only [List.foldl_cons, List.foldl_nil, step]
  rw [attach_def _ nd.outFile.isSome rfl (by
      intro hs; exact ⟨_, rfl, by simp [hs]⟩) _ rfl rfl name rfl, create_length, if_pos h.2]
  rfl

theorem fresh_client (name : Str) (nd : NodeData) : Fresh (clientFiles name nd) := by
  intro o ho
  simp only [clientFiles, List.mem_cons, List.not_mem_nil, or_false] at ho
  rcases ho with rfl | rfl | rfl <;> exact ⟨rfl, rfl⟩

theorem attachOps_respect (nd : NodeData) : ∀ op ∈ (attachOps nd : List (Op H)), op.Respects clientLocal := by
  intro op hop
  unfold attachOps at hop
  simp only [List.mem_append, List.mem_cons, List.not_mem_nil, or_false] at hop
  rcases hop with hop | hop | hop
  · split at hop
    · simp only [List.mem_cons, List.not_mem_nil, or_false] at hop
      subst hop; rfl
    · cases hop
  · split at hop
    · simp only [List.mem_cons, List.not_mem_nil, or_false] at hop
      subst hop; rfl
    · cases hop
  · subst hop; rfl

theorem attachOps_requests (nd : NodeData) : ((attachOps nd : List (Op H)).filterMap Op.requests).Nodup := by
  unfold attachOps
  cases nd.inFile.isSome <;> cases nd.outFile.isSome <;> simp [Op.requests, List.filterMap_cons]

/-! ### Received messages -/

/-- A message either is data for a remote input file, or it has the effect of a command and notifies
nobody. -/
theorem onMsg_contents (s : Mgr H) (msg : Bytes) :
    (∃ (n : Nat) (more : Bool) (i : Nat) (o : FObj) (off : Nat),
      i ∈ s.remoteMap.ids ∧ s.files[i]? = some o ∧ o.isOpen = true ∧ off + (msg.drop n).length ≤ o.length ∧
      onMsgReceived s msg =
        ({ s with files := s.files.modify i fun o' =>
            { o' with content := (o.content.inputWrite off (msg.drop n) more o.hasHandler).1 } }, none,
          (o.content.inputWrite off (msg.drop n) more o.hasHandler).2.2.map fun n => ⟨i, n⟩)) ∨
    ((onMsgReceived s msg).2.2 = none ∧ Effect s [] (onMsgReceived s msg).1) := by
  have refl : ∀ (e : Option PyErr), (((s, e, none) : Received H).2.2 = none ∧
      Effect s [] ((s, e, none) : Received H).1) :=
    fun e => ⟨rfl, .same⟩
  unfold onMsgReceived
  split
  rename_i n address more hh
  split
  · split
    · exact .inr (refl _)
    · rename_i x
      split
      · right
        refine ⟨?_, processCmd_effect s [] _⟩
        unfold processCmd processFileInfo processFileOpen processFileClose
        (repeat' split) <;> first | rfl | (simp only; (repeat' split) <;> rfl)
      · split
        · unfold processFileWrite
          split
          · exact .inr (refl _)
          · rename_i f hf
            obtain ⟨i, o, a, hi, ho, ha, hax, hxa, rfl⟩ := view_find hf
            simp only
            rw [ho]
            simp only
            split
            · rename_i hopen
              rw [ha]
              simp only
              split
              · rename_i hfit
                obtain ⟨off, hoff⟩ := Int.eq_ofNat_of_zero_le (show 0 ≤ (x : Int) - a by omega)
                unfold writeRemote
                split
                · rw [hoff]
                  exact .inl ⟨n, more, i, o, off, hi, ho, hopen, by omega, rfl⟩
                · exact .inr (refl _)
                · exact .inr (refl _)
              · exact .inr (refl _)
            · exact .inr (refl _)
        · exact .inr (refl _)
  · exact .inr (refl _)

/-! ### The invariant -/

/-- A client's manager and node data, made for a node `name` whose node data was `nd0`. -/
structure Shape (name : Str) (nd0 : NodeData) (m : Mgr H) (nd : NodeData) (o0 o1 o2 : FObj) : Prop where
  files : m.files = [o0, o1, o2]
  localMap : m.localMap =
    if nd0.outFile.isSome then ⟨[0, (definitionAddress : Int)], [1, 2]⟩ else ⟨[(definitionAddress : Int)], [2]⟩
  kind0 : o0.kind = .input
  handler0 : o0.hasHandler = true
  name0 : o0.name = name ++ ".in".toList
  content0 : nd.inFile = nd0.inFile.map fun _ => o0.content
  length0 : o0.length = (fileBytes nd0.inFile).length
  kind1 : o1.kind = .output
  name1 : o1.name = name ++ ".out".toList
  address1 : nd0.outFile.isSome = true → o1.address = some (outAddress : Int) ∧ o1.hasManager = true
  content1 : nd.outFile = nd0.outFile.map fun _ => o1.content
  length1 : o1.length = (fileBytes nd0.outFile).length
  info1 : o1.fileType = 0 ∧ o1.digestType = 0 ∧ o1.digestData = List.replicate 32 0
  kind2 : o2.kind = .output
  name2 : o2.name = name ++ ".apx".toList
  address2 : o2.address = some (definitionAddress : Int)
  content2 : o2.content = nd0.definitionFile
  info2 : o2.fileType = 0 ∧ o2.digestType = 0 ∧ o2.digestData = List.replicate 32 0
  status : (nd0.inFile.isSome = true ∧
      ((m.requested = [(name ++ ".in".toList, 0)] ∧ m.remoteMap.ids = [] ∧ o0.isOpen = false) ∨
       (m.requested = [] ∧ m.remoteMap.ids = [0] ∧ o0.isOpen = true))) ∨
    (nd0.inFile = none ∧ m.requested = [] ∧ m.remoteMap.ids = [] ∧ o0.isOpen = false)

theorem shape_start (name : Str) (nd0 : NodeData) : ∃ o0 o1 o2 : FObj,
    Shape name nd0 (clientStart name nd0 : Mgr H) nd0 o0 o1 o2 := by
  refine ⟨_, _, _, rfl, rfl, rfl, rfl, rfl, ?_, ?_, rfl, rfl, ?_, ?_, ?_, ⟨rfl, rfl, rfl⟩, rfl, rfl, rfl, rfl,
    ⟨rfl, rfl, rfl⟩, ?_⟩
  · cases nd0.inFile <;> rfl
  · rw [create_length]; cases nd0.inFile <;> rfl
  · intro h; simp [h, outAddress]
  · cases nd0.outFile <;> rfl
  · cases nd0.outFile <;> rfl
  · cases h : nd0.inFile with
    | none => exact .inr ⟨rfl, by simp [clientStart, h], rfl, rfl⟩
    | some f => exact .inl ⟨rfl, .inl ⟨by simp [clientStart, h], rfl, rfl⟩⟩

/-- Changes of the node data that leave its files alone. -/
theorem Shape.node {name : Str} {nd0 : NodeData} {m : Mgr H} {nd nd' : NodeData} {o0 o1 o2 : FObj}
    (h : Shape name nd0 m nd o0 o1 o2) (hi : nd'.inFile = nd.inFile) (ho : nd'.outFile = nd.outFile) :
    Shape name nd0 m nd' o0 o1 o2 :=
  { h with content0 := hi.trans h.content0, content1 := ho.trans h.content1 }

theorem Shape.queue {name : Str} {nd0 : NodeData} {m : Mgr H} {nd : NodeData} {o0 o1 o2 : FObj}
    (h : Shape name nd0 m nd o0 o1 o2) (q : List (Msg H)) :
    Shape name nd0 { m with queue := q } nd o0 o1 o2 :=
  { h with files := h.files, localMap := h.localMap, status := h.status }

theorem Shape.localIds {name : Str} {nd0 : NodeData} {m : Mgr H} {nd : NodeData} {o0 o1 o2 : FObj}
    (h : Shape name nd0 m nd o0 o1 o2) {i : Nat} (hi : i ∈ m.localMap.ids) : i = 1 ∨ i = 2 := by
  rw [h.localMap] at hi
  split at hi <;> simp at hi <;> omega

theorem Shape.remoteIds {name : Str} {nd0 : NodeData} {m : Mgr H} {nd : NodeData} {o0 o1 o2 : FObj}
    (h : Shape name nd0 m nd o0 o1 o2) {i : Nat} (hi : i ∈ m.remoteMap.ids) :
    i = 0 ∧ nd0.inFile.isSome = true := by
  rcases h.status with ⟨h0, ⟨_, h1, _⟩ | ⟨_, h1, _⟩⟩ | ⟨_, _, h1, _⟩ <;> rw [h1] at hi <;> simp at hi
  exact ⟨hi, h0⟩

/-- New content of the in-port data file. -/
theorem Shape.input {name : Str} {nd0 : NodeData} {m : Mgr H} {nd : NodeData} {o0 o1 o2 : FObj}
    (h : Shape name nd0 m nd o0 o1 o2) (c : FileData) (hc : c.data.length = o0.content.data.length) :
    Shape name nd0 { m with files := m.files.modify 0 fun o => { o with content := c } }
      { nd with inFile := nd0.inFile.map fun _ => c } { o0 with content := c } o1 o2 :=
  { h with
    files := by simp [h.files]
    localMap := h.localMap
    content0 := rfl
    length0 := by rw [← h.length0]; exact hc
    status := h.status }

/-- New content of the out-port data file. -/
theorem Shape.output {name : Str} {nd0 : NodeData} {m : Mgr H} {nd : NodeData} {o0 o1 o2 : FObj}
    (h : Shape name nd0 m nd o0 o1 o2) (c : FileData) (hc : c.data.length = o1.content.data.length)
    (q : List (Msg H)) :
    Shape name nd0 { m with files := m.files.modify 1 fun o => { o with content := c }, queue := q }
      { nd with outFile := nd0.outFile.map fun _ => c } o0 { o1 with content := c } o2 :=
  { h with
    files := by simp [h.files]
    localMap := h.localMap
    content1 := rfl
    length1 := by rw [← h.length1]; exact hc
    status := h.status }

/-- A message that leaves the contents alone. -/
theorem Shape.effect {name : Str} {nd0 : NodeData} {m m' : Mgr H} {nd : NodeData} {o0 o1 o2 : FObj}
    (h : Shape name nd0 m nd o0 o1 o2) (hl : m.remoteMap.keys.length = m.remoteMap.ids.length)
    (he : Effect m [] m') : ∃ o0' o1' o2', Shape name nd0 m' nd o0' o1' o2' := by
  cases he with
  | same => exact ⟨_, _, _, h⟩
  | info i o r a hreq hobj hlen haddr =>
    have hi : i = 0 ∧ nd0.inFile.isSome = true ∧ m.remoteMap.ids = [] := by
      rcases h.status with ⟨h0, ⟨h1, h2, _⟩ | ⟨h1, _⟩⟩ | ⟨_, h1, _⟩ <;> rw [h1] at hreq
      · exact ⟨by have := lookup_mem hreq; simp at this; exact this.2, h0, h2⟩
      · cases hreq
      · cases hreq
    obtain ⟨rfl, h0, hids⟩ := hi
    have ho : o = o0 := by rw [h.files] at hobj; simpa using hobj.symm
    subst ho
    have hreq' : m.requested = [(name ++ ".in".toList, 0)] := by
      rcases h.status with ⟨_, ⟨h1, _⟩ | ⟨h1, _⟩⟩ | ⟨_, h1, _⟩
      · exact h1
      · rw [h1] at hreq; cases hreq
      · rw [h1] at hreq; cases hreq
    refine ⟨{ o with address := r.address, fileType := r.fileType, digestType := r.digestType,
                     digestData := r.digestData, isOpen := true }, o1, o2, ?_⟩
    exact
    { h with
      files := by simp [h.files]
      localMap := h.localMap
      length0 := h.length0
      status := .inl ⟨h0, .inr ⟨by simp [hreq', dictDel, h.name0], by
        have hk := bisectLeft_le m.remoteMap.keys a
        rw [hl, hids] at hk
        simp only [List.length_nil, Nat.le_zero_eq] at hk
        simp [hids, hk], rfl⟩⟩ }
  | opened i o a hmem hobj haddr =>
    rcases h.localIds hmem with rfl | rfl
    · have ho : o = o1 := by rw [h.files] at hobj; simpa using hobj.symm
      subst ho
      exact ⟨o0, { o with isOpen := true }, o2,
        { h with files := by simp [h.files], localMap := h.localMap, length1 := h.length1, status := h.status }⟩
    · have ho : o = o2 := by rw [h.files] at hobj; simpa using hobj.symm
      subst ho
      exact ⟨o0, o1, { o with isOpen := true },
        { h with files := by simp [h.files], localMap := h.localMap, status := h.status }⟩
  | written n x more j oj a off h1 => simp [Rmf.unpackHeader] at h1

/-- Everything that holds of a client at any moment of its life. -/
structure Linked (n : Node) (nd0 : NodeData) (e : Endpoint H) : Prop where
  run : ∃ ops : List (Op H), (∀ op ∈ ops, op.Respects clientLocal) ∧ (ops.filterMap Op.requests).Nodup ∧
    e.mgr = Manager.run (start (clientFiles n.name nd0) '<') ops
  node : ∃ as : List Access, e.node = nd0.run as
  inFile : e.inFile = 0
  outFile : e.outFile = 1
  shape : ∃ o0 o1 o2 : FObj, Shape n.name nd0 e.mgr e.node o0 o1 o2

theorem Linked.sep {n : Node} {nd0 : NodeData} {e : Endpoint H} (h : Linked n nd0 e) : Sep clientLocal e.mgr := by
  obtain ⟨ops, h1, _, h2⟩ := h.run
  rw [h2]
  exact (sep_start (fresh_client _ _) _).run _ h1

theorem Linked.step {n : Node} {nd0 : NodeData} {e : Endpoint H} (h : Linked n nd0 e) (op : Op H)
    (hr : op.Respects clientLocal) (hq : op.requests = none) :
    ∃ ops : List (Op H), (∀ op ∈ ops, op.Respects clientLocal) ∧ (ops.filterMap Op.requests).Nodup ∧
      Manager.step e.mgr op = Manager.run (start (clientFiles n.name nd0) '<') ops := by
  obtain ⟨ops, h1, hn, h2⟩ := h.run
  refine ⟨ops ++ [op], ?_, by simpa [hq] using hn, by rw [h2]; simp [Manager.run]⟩
  intro o ho
  rcases List.mem_append.mp ho with h3 | h3
  · exact h1 o h3
  · simp at h3; subst h3; exact hr

theorem access_snoc (nd : NodeData) (as : List Access) (a : Access) : nd.run (as ++ [a]) = (nd.run as).step a := by
  induction as generalizing nd with
  | nil => rfl
  | cons b as ih => exact ih (nd.step b)

theorem Linked.access {n : Node} {nd0 : NodeData} {e : Endpoint H} (h : Linked n nd0 e) (a : Access) :
    ∃ as, e.node.step a = nd0.run as := by
  obtain ⟨as, h1⟩ := h.node
  exact ⟨as ++ [a], by rw [h1, access_snoc]⟩

theorem linked_start (n : Node) (nd0 : NodeData) (hf : SizesFit nd0) :
    Linked n nd0 (⟨clientStart n.name nd0, nd0, 0, 1, [], false⟩ : Endpoint H) :=
  ⟨⟨attachOps nd0, attachOps_respect nd0, attachOps_requests nd0, (run_attach n.name nd0 hf).symm⟩, ⟨[], rfl⟩, rfl, rfl, shape_start _ _⟩

/-- `writeLocal` changes the content of the file and perhaps the queue. -/
theorem writeLocal_content (s : Mgr H) (i : Nat) (off : Int) (data : Bytes) (o : FObj) (ho : s.files[i]? = some o) :
    ∃ q, (writeLocal s i off data).1 =
      { s with files := s.files.modify i fun o' => { o' with content := (o.content.write off data).1 }, queue := q } := by
  unfold writeLocal
  rw [ho]
  simp only [FileData.outputWrite, update]
  split
  · exact ⟨s.queue, rfl⟩
  · simp only [outPortDataWriteNotify]
    (repeat' split)
    · exact ⟨s.queue, rfl⟩
    · exact ⟨s.queue, rfl⟩
    · exact ⟨_, rfl⟩
    · exact ⟨s.queue, rfl⟩

/-- What a write to a provide port does to the data files. -/
theorem writeProvide_files (nd : NodeData) (i : Int) (v : PyVal) :
    ((nd.writeProvide i v).1.inFile = nd.inFile) ∧
    (match (nd.writeProvide i v).2 with
     | .ok (off, data) => ∃ f, nd.outFile = some f ∧ (nd.writeProvide i v).1.outFile = some (f.write off data).1
     | _ => (nd.writeProvide i v).1.outFile = nd.outFile) := by
  unfold NodeData.writeProvide
  split
  · exact ⟨rfl, rfl⟩
  · split
    · exact ⟨rfl, rfl⟩
    · split
      · exact ⟨rfl, rfl⟩
      · split
        · exact ⟨rfl, rfl⟩
        · simp only
          split
          · exact ⟨rfl, rfl⟩
          · rename_i f hf
            exact ⟨rfl, f, hf, rfl⟩

theorem Linked.act {n : Node} {nd0 : NodeData} {e : Endpoint H} (h : Linked n nd0 e) (a : Act H) :
    Linked n nd0 (e.act a) := by
  obtain ⟨o0, o1, o2, hs⟩ := h.shape
  cases a with
  | connected c =>
    refine ⟨h.step (.connected c) trivial rfl, h.node, h.inFile, h.outFile, ?_⟩
    obtain ⟨infos, he⟩ := onConnected_queue e.mgr c
    exact ⟨o0, o1, o2, by simp only [Endpoint.act]; rw [he]; exact hs.queue _⟩
  | stop =>
    exact ⟨h.step .stop trivial rfl, h.node, h.inFile, h.outFile, o0, o1, o2, hs.queue _⟩
  | read i =>
    refine ⟨h.run, h.access (.read i), h.inFile, h.outFile, o0, o1, o2, ?_⟩
    simp only [Endpoint.act]
    rcases NodeData.readRequire_state e.node i with he | he <;> rw [he]
    · exact hs
    · exact hs.node rfl rfl
  | write i v =>
    have hacc := h.access (.write i v)
    simp only [NodeData.step] at hacc
    simp only [Endpoint.act]
    unfold Endpoint.write
    have hfiles := writeProvide_files e.node i v
    split
    · rename_i nd x hw
      rw [hw] at hacc hfiles
      exact ⟨h.run, hacc, h.inFile, h.outFile, o0, o1, o2, hs.node hfiles.1 hfiles.2⟩
    · rename_i nd hw
      rw [hw] at hacc hfiles
      exact ⟨h.run, hacc, h.inFile, h.outFile, o0, o1, o2, hs.node hfiles.1 hfiles.2⟩
    · rename_i nd off data hw
      rw [hw] at hacc hfiles
      obtain ⟨hin, f, hf, hout⟩ := hfiles
      simp only at hin hout
      have h1 : e.mgr.files[1]? = some o1 := by rw [hs.files]; rfl
      have key : ∃ o0 o1 o2 : FObj, Shape n.name nd0 (writeLocal e.mgr 1 off data).1 nd o0 o1 o2 := by
        obtain ⟨q, hq⟩ := writeLocal_content e.mgr 1 off data o1 h1
        rw [hq]
        rw [hs.content1] at hf
        obtain ⟨f0, hf0⟩ : ∃ f0, nd0.outFile = some f0 := by
          cases hh : nd0.outFile with
          | none => rw [hh] at hf; cases hf
          | some f0 => exact ⟨f0, rfl⟩
        rw [hf0] at hf
        simp only [Option.map_some, Option.some.injEq] at hf
        subst hf
        have := hs.output (o1.content.write off data).1 (FileData.write_length _ _ _) q
        exact ⟨_, _, _, this.node hin (by simp [hf0, hout])⟩
      rw [h.outFile]
      have hst := h.step (.write 1 off data) trivial rfl
      simp only [Manager.step] at hst
      split <;> rename_i m _ _ hm <;> rw [hm] at hst key <;>
        exact ⟨hst, hacc, h.inFile, rfl, key⟩
  | message msg =>
    simp only [Endpoint.act]
    unfold Endpoint.receive
    split
    · exact h
    have hst := h.step (.message msg) trivial rfl
    simp only [Manager.step] at hst
    rcases onMsg_contents e.mgr msg with ⟨nn, more, i, o, off, hi, ho, hopen, hfit, he⟩ | ⟨hn, heff⟩
    · obtain ⟨rfl, hsome⟩ := hs.remoteIds hi
      have : o = o0 := by rw [hs.files] at ho; simpa using ho.symm
      subst this
      rw [he] at hst ⊢
      simp only at hst ⊢
      have hacc := h.access (.remote true off (msg.drop nn) more)
      obtain ⟨f0, hf0⟩ : ∃ f0, nd0.inFile = some f0 := Option.isSome_iff_exists.mp hsome
      have hin : e.node.inFile = some o.content := by rw [hs.content0, hf0]; rfl
      have hshape := hs.input (o.content.inputWrite off (msg.drop nn) more true).1
        (FileData.write_length o.content off (msg.drop nn))
      simp only [NodeData.step, NodeData.remoteWrite, hin] at hacc
      rw [hs.handler0] at hst ⊢
      have hfile : Endpoint.withFile e.node ((e.mgr.files.modify 0 fun o' =>
          { o' with content := (o.content.inputWrite off (msg.drop nn) more true).1 })[0]?) =
          { e.node with inFile := some (o.content.inputWrite off (msg.drop nn) more true).1 } := by
        rw [hs.files]
        simp [Endpoint.withFile, hin]
      rw [h.inFile, hfile]
      simp only [hf0, Option.map_some] at hshape
      rcases hnote : (o.content.inputWrite off (msg.drop nn) more true).2.2 with _ | note
      · rw [hnote] at hacc
        exact ⟨hst, hacc, rfl, h.outFile, _, _, _, hshape⟩
      · have hno : note.offset.toNat = off ∧ note.len = (msg.drop nn).length := by
          simp only [FileData.inputWrite] at hnote
          (repeat' split at hnote) <;> cases hnote
          exact ⟨by simp, rfl⟩
        rw [hnote] at hacc
        simp only [NodeData.afterRemote] at hacc
        simp only [Option.map_some, Endpoint.notify, if_true, hno.1, hno.2]
        have hstate := NodeData.inPortNotify_state
          { e.node with inFile := some (o.content.inputWrite off (msg.drop nn) more true).1 } true off (msg.drop nn).length
        generalize NodeData.inPortNotify
          { e.node with inFile := some (o.content.inputWrite off (msg.drop nn) more true).1 } true off (msg.drop nn).length
            = r at hacc hstate ⊢
        have hsh : Shape n.name nd0 { e.mgr with files := e.mgr.files.modify 0 fun o' =>
            { o' with content := (o.content.inputWrite off (msg.drop nn) more true).1 } } r.1
            { o with content := (o.content.inputWrite off (msg.drop nn) more true).1 } o1 o2 := by
          rcases hstate with hh | hh <;> rw [hh]
          · exact hshape
          · exact hshape.node rfl rfl
        obtain ⟨nd', l, oc⟩ := r
        cases oc <;> exact ⟨hst, hacc, rfl, h.outFile, _, _, _, hsh⟩
    · have hsh := hs.effect h.sep.rlen heff
      generalize hr : onMsgReceived e.mgr msg = r at hst hn heff hsh ⊢
      obtain ⟨m, x, note⟩ := r
      simp only at hn hst hsh
      subst hn
      cases x with
      | some x => exact ⟨hst, h.node, h.inFile, h.outFile, hsh⟩
      | none =>
        obtain ⟨p0, p1, p2, hp⟩ := hsh
        have hfile : Endpoint.withFile e.node m.files[e.inFile]? = e.node := by
          rw [h.inFile, hp.files]
          simp only [List.getElem?_cons_zero, Endpoint.withFile]
          split
          · rename_i hsome
            have := hp.content0
            obtain ⟨f, hf⟩ := Option.isSome_iff_exists.mp hsome
            rw [hf] at this
            cases h0 : nd0.inFile with
            | none => rw [h0] at this; cases this
            | some g =>
              rw [h0] at this
              simp only [Option.map_some, Option.some.injEq] at this
              rw [← this, ← hf]
          · rfl
        simp only [Endpoint.notify, hfile]
        exact ⟨hst, h.node, h.inFile, h.outFile, p0, p1, p2, hp⟩

theorem Linked.history {n : Node} {nd0 : NodeData} (as : List (Act H)) {e : Endpoint H} (h : Linked n nd0 e) :
    Linked n nd0 (e.history as) := by
  induction as generalizing e with
  | nil => exact h
  | cons a as ih => exact ih (h.act a)

end Apx
