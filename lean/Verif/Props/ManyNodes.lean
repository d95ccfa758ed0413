import Verif.Proofs.ManyNodes
import Verif.Props.Session

/-! C103: one file manager serves several nodes. -/

namespace Apx.Manager
open FileMap

variable {H : Type}

/-- The calls made on the manager for several nodes. -/
def nodeOps : List NodeFiles → List (Op H)
  | [] => []
  | n :: ns => (n.out.toList.map .attach ++ n.definition.toList.map .attach ++ n.inp.toList.map .request) ++ nodeOps ns

theorem attachNodes_run (ns : List NodeFiles) : ∀ (s s' : Mgr H), attachNodes s ns = (s', none) →
    s' = run s (nodeOps ns) := by
  induction ns with
  | nil => intro s s' h; exact (Prod.mk.inj h).1.symm
  | cons n ns ih =>
    intro s s' h
    unfold attachNodes at h
    have ha : ∀ (s s' : Mgr H) (x : Option Nat), attachOpt s x = (s', none) → run s (x.toList.map .attach) = s' := by
      intro s s' x hx
      cases x with
      | none => exact (Prod.mk.inj hx).1
      | some i =>
        simp only [attachOpt] at hx
        simp [run, step, hx]
    have hq : ∀ (s s' : Mgr H) (x : Option Nat), requestOpt s x = (s', none) → run s (x.toList.map .request) = s' := by
      intro s s' x hx
      cases x with
      | none => exact (Prod.mk.inj hx).1
      | some i =>
        simp only [requestOpt] at hx
        simp [run, step, hx]
    cases he : attachNodeData s n with
    | mk s1 e =>
      rw [he] at h
      cases e with
      | some x => simp at h
      | none =>
        simp only at h
        rw [ih _ _ h]
        unfold attachNodeData at he
        cases h1 : attachOpt s n.out with
        | mk t1 e1 =>
          rw [h1] at he
          cases e1 with
          | some x => simp at he
          | none =>
            simp only at he
            cases h2 : attachOpt t1 n.definition with
            | mk t2 e2 =>
              rw [h2] at he
              cases e2 with
              | some x => simp at he
              | none =>
                simp only at he
                have g1 := ha _ _ _ h1
                have g2 := ha _ _ _ h2
                have g3 := hq _ _ _ he
                simp only [run] at g1 g2 g3 ⊢
                simp only [nodeOps, List.foldl_append]
                rw [g1, g2, g3]

/-- Which objects are local files. -/
def nodeLocal (ns : List NodeFiles) (i : Nat) : Bool := decide (i ∈ outs ns ++ definitions ns)

theorem nodeOps_mem (ns : List NodeFiles) (op : Op H) (h : op ∈ nodeOps ns) :
    (∃ i, op = .attach i ∧ i ∈ outs ns ++ definitions ns) ∨ ∃ i, op = .request i ∧ i ∈ ins ns := by
  induction ns with
  | nil => simp [nodeOps] at h
  | cons n ns ih =>
    simp only [nodeOps, List.mem_append, List.mem_map, outs_cons, definitions_cons, ins_cons] at h ⊢
    rcases h with ((⟨i, hi, rfl⟩ | ⟨i, hi, rfl⟩) | ⟨i, hi, rfl⟩) | h
    · exact .inl ⟨i, rfl, .inl (.inl hi)⟩
    · exact .inl ⟨i, rfl, .inr (.inl hi)⟩
    · exact .inr ⟨i, rfl, .inl hi⟩
    · rcases ih h with ⟨i, rfl, hi⟩ | ⟨i, rfl, hi⟩
      · refine .inl ⟨i, rfl, ?_⟩
        rcases List.mem_append.mp hi with hi | hi
        · exact .inl (.inr hi)
        · exact .inr (.inr hi)
      · exact .inr ⟨i, rfl, .inr hi⟩

theorem nodeOps_respects {files : List FObj} {ns : List NodeFiles} (h : NewNodes files ns) :
    ∀ op ∈ (nodeOps ns : List (Op H)), op.Respects (nodeLocal ns) := by
  intro op hop
  rcases nodeOps_mem ns op hop with ⟨i, rfl, hi⟩ | ⟨i, rfl, hi⟩
  · simpa [Op.Respects, nodeLocal] using hi
  · have hd := h.apart
    rw [List.nodup_append] at hd
    simp only [Op.Respects, nodeLocal, decide_eq_false_iff_not]
    intro hc
    exact hd.2.2 i hc i hi rfl

theorem later_respects {isLocal : Nat → Bool} {op : Op H} (h : op.later) : op.Respects isLocal := by
  cases op <;> first | exact absurd h id | trivial

/-- What stays the same of the local files. -/
theorem step_static {isLocal : Nat → Bool} {s : Mgr H} (h : Sep isLocal s) (op : Op H) (hl : op.later) :
    (step s op).localMap = s.localMap ∧
    ∀ (i : Nat) (o : FObj), isLocal i = true → s.files[i]? = some o →
      ∃ o', (step s op).files[i]? = some o' ∧ o'.info = o.info ∧ o'.kind = o.kind := by
  have hmod : ∀ (j : Nat) (f : FObj → FObj) (i : Nat) (o : FObj), s.files[i]? = some o →
      (∀ o, s.files[j]? = some o → (i = j → (f o).info = o.info ∧ (f o).kind = o.kind)) →
      ∃ o', (s.files.modify j f)[i]? = some o' ∧ o'.info = o.info ∧ o'.kind = o.kind := by
    intro j f i o ho hf
    by_cases hij : j = i
    · subst hij
      exact ⟨f o, modify_get _ _ _ _ ho, hf o ho rfl⟩
    · exact ⟨o, by rw [modify_ne _ _ _ _ hij]; exact ho, rfl, rfl⟩
  have hwr : ∀ (o : FObj) (n : Nat) (data : Bytes), n + data.length ≤ o.length →
      ({ o with content := (o.content.write n data).1 } : FObj).info = o.info := by
    intro o n data hfit
    have := (write_overwrites o.content n data hfit).1
    unfold FObj.info FObj.length
    simp only [this]
  cases op with
  | attach i => exact absurd hl id
  | request i => exact absurd hl id
  | stop => exact ⟨rfl, fun i o _ ho => ⟨o, ho, rfl, rfl⟩⟩
  | connected c =>
    obtain ⟨infos, he⟩ := onConnected_queue s c
    simp only [step, he]
    exact ⟨trivial, fun i o _ ho => ⟨o, ho, rfl, rfl⟩⟩
  | write j off data =>
    simp only [step]
    rcases writeLocal_cases h j off data with he | ⟨o2, n, ho2, -, hn, ⟨_, he⟩ | ⟨_, _, _, _, _, he⟩⟩
    · rw [he]; exact ⟨rfl, fun i o _ ho => ⟨o, ho, rfl, rfl⟩⟩
    all_goals
      rw [he]
      refine ⟨rfl, fun i o _ ho => hmod j _ i o ho ?_⟩
      intro o3 ho3 _
      rw [ho2] at ho3
      cases ho3
      exact ⟨hwr _ _ _ hn, rfl⟩
  | message msg =>
    simp only [step]
    have he := onMsg_effect s msg
    generalize (onMsgReceived s msg).1 = s' at he ⊢
    cases he with
    | same => exact ⟨rfl, fun i o _ ho => ⟨o, ho, rfl, rfl⟩⟩
    | info j o2 r a req obj len addr =>
      refine ⟨rfl, fun i o hi ho => hmod j _ i o ho ?_⟩
      intro o3 ho3 hij
      subst hij
      have := (h.req _ _ (lookup_mem req)).1
      rw [this] at hi
      cases hi
    | opened j o2 a mem obj addr =>
      exact ⟨rfl, fun i o hi ho => hmod j _ i o ho (fun _ _ _ => ⟨rfl, rfl⟩)⟩
    | written n x more j o2 a off header mem obj isOpen addr offset fits =>
      refine ⟨rfl, fun i o hi ho => hmod j _ i o ho ?_⟩
      intro o3 ho3 _
      rw [obj] at ho3
      cases ho3
      exact ⟨hwr _ _ _ fits, rfl⟩

theorem run_static {isLocal : Nat → Bool} (ops : List (Op H)) : ∀ {s : Mgr H}, Sep isLocal s → (∀ op ∈ ops, op.later) →
    (run s ops).localMap = s.localMap ∧
    ∀ (i : Nat) (o : FObj), isLocal i = true → s.files[i]? = some o →
      ∃ o', (run s ops).files[i]? = some o' ∧ o'.info = o.info ∧ o'.kind = o.kind := by
  induction ops with
  | nil => intro s _ _; exact ⟨rfl, fun i o _ ho => ⟨o, ho, rfl, rfl⟩⟩
  | cons op ops ih =>
    intro s h hl
    have h0 := hl op (by simp)
    obtain ⟨a1, a2⟩ := step_static h op h0
    obtain ⟨b1, b2⟩ := ih (h.step op (later_respects h0)) (fun o ho => hl o (by simp [ho]))
    refine ⟨by rw [show run s (op :: ops) = run (step s op) ops from rfl, b1, a1], ?_⟩
    intro i o hi ho
    obtain ⟨o1, c1, c2, c3⟩ := a2 i o hi ho
    obtain ⟨o2, d1, d2, d3⟩ := b2 i o1 hi c1
    exact ⟨o2, d1, by rw [d2, c2], by rw [d3, c3]⟩

/-! ### The requested files -/

theorem lookup_map_set {α : Type} (d : List (Str × α)) (k : Str) (v : α) (k' : Str) (h : (d.lookup k).isSome = true) :
    (d.map fun p => if p.1 = k then (k, v) else p).lookup k' = if k' = k then some v else d.lookup k' := by
  induction d with
  | nil => simp at h
  | cons p d ih =>
    obtain ⟨a, b⟩ := p
    simp only [List.map_cons]
    by_cases hak : a = k
    · subst hak
      rw [if_pos rfl]
      by_cases hk : k' = a
      · subst hk; simp [List.lookup]
      · have h1 : (k' == a) = false := by simpa using hk
        rw [List.lookup_cons, h1, if_neg hk, List.lookup_cons, h1]
        simp only
        by_cases hs : (d.lookup a).isSome = true
        · rw [ih hs, if_neg hk]
        · clear ih h h1
          induction d with
          | nil => rfl
          | cons q d ih =>
            obtain ⟨x, y⟩ := q
            rw [List.lookup_cons] at hs
            cases hx : a == x with
            | true => rw [hx] at hs; simp at hs
            | false =>
              rw [hx] at hs
              have hxa : x ≠ a := fun e => by simp [e] at hx
              simp only [List.map_cons, if_neg hxa, List.lookup_cons]
              rw [ih hs]
    · rw [if_neg hak]
      have h1 : (k == a) = false := by simpa using fun e : k = a => hak e.symm
      rw [List.lookup_cons, h1] at h
      rw [List.lookup_cons, List.lookup_cons]
      cases hx : k' == a with
      | true =>
        have : k' = a := by simpa using hx
        subst this
        rw [if_neg hak]
      | false => exact ih h

theorem lookup_set {α : Type} (d : List (Str × α)) (k : Str) (v : α) (k' : Str) :
    (dictSet d k v).lookup k' = if k' = k then some v else d.lookup k' := by
  unfold dictSet
  split
  · rename_i h
    exact lookup_map_set d k v k' h
  · rename_i h
    rw [List.lookup_append]
    by_cases hk : k' = k
    · subst hk
      have : d.lookup k' = none := by
        cases hx : d.lookup k' with
        | none => rfl
        | some x => rw [hx] at h; simp at h
      rw [this, if_pos rfl]
      simp [List.lookup]
    · have h1 : (k' == k) = false := by simpa using hk
      rw [if_neg hk]
      simp [List.lookup, h1]

/-- Every entry is the one found under its key. -/
def KeysOk (d : List (Str × Nat)) : Prop := ∀ p ∈ d, d.lookup p.1 = some p.2

theorem KeysOk.set {d : List (Str × Nat)} (h : KeysOk d) (k : Str) (v : Nat) : KeysOk (dictSet d k v) := by
  intro p hp
  rw [lookup_set]
  by_cases hk : p.1 = k
  · rw [if_pos hk]
    unfold dictSet at hp
    split at hp
    · obtain ⟨q, hq, rfl⟩ := List.mem_map.mp hp
      by_cases hqk : q.1 = k
      · rw [if_pos hqk]
      · rw [if_neg hqk] at hk; exact absurd hk hqk
    · rename_i hs
      rcases List.mem_append.mp hp with hp | hp
      · have := h p hp
        rw [hk] at this
        rw [this] at hs
        simp at hs
      · simp only [List.mem_cons, List.not_mem_nil, or_false] at hp
        rw [hp]
  · rw [if_neg hk]
    rcases dictSet_mem hp with hp | hp
    · exact h p hp
    · rw [hp] at hk; exact absurd rfl hk

theorem KeysOk.requests {files : List FObj} (l : List Nat) : ∀ {d : List (Str × Nat)}, KeysOk d →
    KeysOk (l.foldl (requestName files) d) := by
  induction l with
  | nil => intro d h; exact h
  | cons i l ih => intro d h; exact ih (h.set _ _)

theorem requests_lookup {files : List FObj} (i : Nat) (l : List Nat) : ∀ (d : List (Str × Nat)),
    (∀ j ∈ l, fileName files j = fileName files i → j = i) →
    (i ∈ l ∨ d.lookup (fileName files i) = some i) →
    (l.foldl (requestName files) d).lookup (fileName files i) = some i := by
  induction l with
  | nil => intro d _ h; exact h.resolve_left (by simp)
  | cons j l ih =>
    intro d hu h
    refine ih _ (fun k hk => hu k (by simp [hk])) ?_
    by_cases hi : i ∈ l
    · exact .inl hi
    · right
      unfold requestName
      rw [lookup_set]
      by_cases hj : fileName files i = fileName files j
      · rw [if_pos hj, hu j (by simp) hj.symm]
      · rw [if_neg hj]
        refine h.resolve_left ?_
        intro hc
        rcases List.mem_cons.mp hc with rfl | hc
        · exact hj rfl
        · exact hi hc

/-- Once another file is requested under the same name, the name stands for another file. -/
theorem requests_other {files : List FObj} (i : Nat) (l : List Nat) (hi : i ∉ l) : ∀ (d : List (Str × Nat)),
    d.lookup (fileName files i) ≠ some i → (l.foldl (requestName files) d).lookup (fileName files i) ≠ some i := by
  induction l with
  | nil => intro d h; exact h
  | cons j l ih =>
    intro d h
    refine ih (fun hc => hi (by simp [hc])) _ ?_
    unfold requestName
    rw [lookup_set]
    split
    · intro hc
      cases hc
      exact hi (by simp)
    · exact h

/-! ### The theorems -/

/-- C103: new nodes whose files fit, the first of them with provide ports (or none with provide ports), can all be
given to one manager: nothing is raised and nothing is sent; the out-port data files lie side by side from 0,
the definitions side by side from 64M, no two of them overlap; and every in-port data file is requested, if no
other has its name.  Missing: a first node without provide ports (`C103_order_violated`). -/
theorem C103_attached_partial (files : List FObj) (bo : Char) (ns : List NodeFiles) (h : NewNodes files ns)
    (hfit : AllFit files ns) (hfirst : FirstProvides ns) :
    ∃ s : Mgr H, attachNodes (start files bo) ns = (s, none) ∧ s.queue = [] ∧
      s.localMap.ids = outs ns ++ definitions ns ∧
      (outs ns ++ definitions ns).map (fileAddress s.files) = (addressPlan files ns).map (fun a : Nat => some (a : Int)) ∧
      ((outs ns ++ definitions ns).Pairwise fun i j => Disjoint (ent s.files i) (ent s.files j)) ∧
      (∀ i ∈ ins ns, (∀ j ∈ ins ns, fileName files j = fileName files i → j = i) →
        s.requested.lookup (fileName files i) = some i) := by
  have hnd := h.apart
  rw [List.nodup_append] at hnd
  obtain ⟨s, e, k, r, -⟩ := (attached_start (H := H) files bo).nodes ns h.out h.definition h.inp
    (by simpa using hnd.1) (.inr (.inr ⟨rfl, hfirst⟩)) (by simpa using hfit.1) (by simpa using hfit.2)
  simp only [List.nil_append] at k
  refine ⟨s, e, k.queue, by rw [k.map], ?_, ?_, ?_⟩
  · have h1 := k.laid.inv.agree
    simp only [MapRef.view, k.map, List.map_map] at h1
    have h2 : (outs ns ++ definitions ns).map (fileAddress s.files) =
        (outs ns ++ definitions ns).map ((fun x => x.address) ∘ ent s.files) := by
      apply List.map_congr_left
      intro i hi
      simp only [Function.comp, fileAddress, ent]
      cases s.files[i]? <;> rfl
    rw [h2, h1]
    rfl
  · have := k.laid.before.imp Before.disjoint
    simp only [MapRef.view, k.map] at this
    exact List.pairwise_map.mp this
  · intro i hi hu
    rw [r]
    exact requests_lookup i _ _ hu (.inl hi)

/-- C103, violation: after nodes without provide ports no node with provide ports can be given to the manager:
`UnboundLocalError`, and nothing of that node (nor of the nodes that follow) is known to the manager. -/
theorem C103_order_violated (files : List FObj) (bo : Char) (pre post : List NodeFiles) (n : NodeFiles) (i : Nat)
    (h : NewNodes files (pre ++ n :: post)) (hfit : AllFit files pre) (hpre : outs pre = [])
    (hdef : definitions pre ≠ []) (hi : n.out = some i) :
    ∃ s : Mgr H, attachNodes (start files bo) pre = (s, none) ∧
      attachNodes (start files bo) (pre ++ n :: post) = (s, some .unboundLocal) ∧
      (∀ j ∈ n.out.toList ++ n.definition.toList ++ n.inp.toList, s.files[j]? = files[j]? ∧ j ∉ s.localMap.ids ∧
        ∀ m, (m, j) ∉ s.requested) := by
  have e1 : outs (pre ++ n :: post) = outs pre ++ (n.out.toList ++ outs post) := by
    rw [← outs_cons]; simp [outs, List.filterMap_append]
  have e2 : definitions (pre ++ n :: post) = definitions pre ++ (n.definition.toList ++ definitions post) := by
    rw [← definitions_cons]; simp [definitions, List.filterMap_append]
  have e3 : ins (pre ++ n :: post) = ins pre ++ (n.inp.toList ++ ins post) := by
    rw [← ins_cons]; simp [ins, List.filterMap_append]
  have hnd := h.apart
  rw [e1, e2, e3, hpre] at hnd
  have hout := h.out
  have hdefn := h.definition
  have hinp := h.inp
  rw [e1] at hout
  rw [e2] at hdefn
  rw [e3] at hinp
  simp only [List.nil_append, List.nodup_append, List.mem_append] at hnd
  obtain ⟨⟨⟨a1, a2, a3⟩, ⟨b1, ⟨b2, b3, b4⟩, b5⟩, a4⟩, ⟨c1, ⟨c2, c3, c4⟩, c5⟩, a5⟩ := hnd
  obtain ⟨s, e, k, r, -⟩ := (attached_start (H := H) files bo).nodes pre
    (fun i hi => hout i (by simp [hi])) (fun i hi => hdefn i (by simp [hi])) (fun i hi => hinp i (by simp [hi]))
    (by rw [hpre]; simpa using b1) (.inl hpre) (by simpa using hfit.1) (by simpa using hfit.2)
  simp only [List.nil_append, hpre] at k
  have hreq : ∀ (m : Str) (j : Nat), (m, j) ∈ s.requested → j ∈ ins pre := by
    rw [r]
    have : ∀ (l : List Nat) (d : List (Str × Nat)) (m : Str) (j : Nat),
        (m, j) ∈ l.foldl (requestName files) d → (m, j) ∈ d ∨ j ∈ l := by
      intro l
      induction l with
      | nil => intro d m j hh; exact .inl hh
      | cons x l ih =>
        intro d m j hh
        rcases ih _ m j hh with hh | hh
        · rcases dictSet_mem hh with hh | hh
          · exact .inl hh
          · cases hh; exact .inr (by simp)
        · exact .inr (by simp [hh])
    intro m j hh
    rcases this _ _ m j hh with hh | hh
    · simp [start] at hh
    · exact hh
  refine ⟨s, e, ?_, ?_⟩
  · have happ : ∀ (l l' : List NodeFiles) (s s' : Mgr H), attachNodes s l = (s', none) →
        attachNodes s (l ++ l') = attachNodes s' l' := by
      intro l l'
      induction l with
      | nil => intro s s' hh; cases hh; rfl
      | cons x l ih =>
        intro s s' hh
        unfold attachNodes at hh
        rw [List.cons_append, attachNodes]
        generalize attachNodeData s x = y at hh ⊢
        obtain ⟨t, z⟩ := y
        cases z with
        | some _ => simp at hh
        | none => exact ih _ _ hh
    rw [happ _ _ _ _ e, attachNodes]
    have hr := k.refuse i (fun hc => a4 i (.inl (by simp [hi])) i (.inl hc) rfl) (hout i (by simp [hi])) hdef
    have : attachNodeData s n = (s, some .unboundLocal) := by
      unfold attachNodeData
      rw [hi]
      simp only [attachOpt]
      rw [hr]
    rw [this]
  · intro j hj
    simp only [List.mem_append] at hj
    have hnotin : j ∉ definitions pre := by
      intro hc
      rcases hj with (hj | hj) | hj
      · exact a4 j (.inl hj) j (.inl hc) rfl
      · exact b5 j hc j (.inl hj) rfl
      · exact a5 j (.inr (.inl hc)) j (.inr (.inl hj)) rfl
    refine ⟨k.others j (by simpa using hnotin), by rw [k.map]; simpa using hnotin, ?_⟩
    intro m hm
    have hin := hreq m j hm
    rcases hj with (hj | hj) | hj
    · exact a5 j (.inl (.inl hj)) j (.inl hin) rfl
    · exact a5 j (.inr (.inr (.inl hj))) j (.inl hin) rfl
    · exact c5 j hin j (.inl hj) rfl

/-- A file object the manager knows nothing about. -/
structure Unknown (i : Nat) (s : Mgr H) : Prop where
  requested : ∀ m, (m, i) ∉ s.requested
  remote : i ∉ s.remoteMap.ids
  localIds : i ∉ s.localMap.ids

/-- The program itself does not write the file. -/
def Op.leaves (i : Nat) : Op H → Prop
  | .write j _ _ => j ≠ i
  | _ => True

theorem Unknown.step {i : Nat} {s : Mgr H} (h : Unknown i s) (op : Op H) (hl : op.later) (hw : op.leaves i) :
    Unknown i (step s op) ∧ (step s op).files[i]? = s.files[i]? := by
  cases op with
  | attach j => exact absurd hl id
  | request j => exact absurd hl id
  | stop => exact ⟨⟨h.requested, h.remote, h.localIds⟩, rfl⟩
  | connected c =>
    obtain ⟨infos, he⟩ := onConnected_queue s c
    simp only [Manager.step, he]
    exact ⟨⟨h.requested, h.remote, h.localIds⟩, trivial⟩
  | write j off data =>
    have hj : j ≠ i := hw
    simp only [Manager.step, writeLocal]
    split
    · exact ⟨h, rfl⟩
    · rename_i o ho
      split
      · exact ⟨⟨h.requested, h.remote, h.localIds⟩, modify_ne _ _ _ _ hj⟩
      · simp only [outPortDataWriteNotify]
        split
        · exact ⟨⟨h.requested, h.remote, h.localIds⟩, modify_ne _ _ _ _ hj⟩
        · split
          · exact ⟨⟨h.requested, h.remote, h.localIds⟩, modify_ne _ _ _ _ hj⟩
          · split
            · exact ⟨⟨h.requested, h.remote, h.localIds⟩, modify_ne _ _ _ _ hj⟩
            · exact ⟨⟨h.requested, h.remote, h.localIds⟩, modify_ne _ _ _ _ hj⟩
  | message msg =>
    simp only [Manager.step]
    have he := onMsg_effect s msg
    generalize (onMsgReceived s msg).1 = s' at he ⊢
    cases he with
    | same => exact ⟨h, rfl⟩
    | info j o r a req obj len addr =>
      have hj : j ≠ i := fun e => h.requested r.name (e ▸ lookup_mem req)
      refine ⟨⟨?_, ?_, h.localIds⟩, modify_ne _ _ _ _ hj⟩
      · intro m hm
        simp only [dictDel, List.mem_filter] at hm
        exact h.requested m hm.1
      · intro hc
        rcases mem_insertIdx_sub hc with hc | hc
        · exact hj hc.symm
        · exact h.remote hc
    | opened j o a mem obj addr =>
      have hj : j ≠ i := fun e => h.localIds (e ▸ mem)
      exact ⟨⟨h.requested, h.remote, h.localIds⟩, modify_ne _ _ _ _ hj⟩
    | written n x more j o a off header mem obj isOpen addr offset fits =>
      have hj : j ≠ i := fun e => h.remote (e ▸ mem)
      exact ⟨⟨h.requested, h.remote, h.localIds⟩, modify_ne _ _ _ _ hj⟩

theorem Unknown.run {i : Nat} (ops : List (Op H)) : ∀ {s : Mgr H}, Unknown i s →
    (∀ op ∈ ops, op.later ∧ op.leaves i) → (run s ops).files[i]? = s.files[i]? := by
  induction ops with
  | nil => intro s _ _; rfl
  | cons op ops ih =>
    intro s h hl
    obtain ⟨g1, g2⟩ := h.step op (hl op (by simp)).1 (hl op (by simp)).2
    have := ih g1 (fun o ho => hl o (by simp [ho]))
    rw [show Manager.run s (op :: ops) = Manager.run (Manager.step s op) ops from rfl, this, g2]

/-- C103, violation: when a later node's in-port data file has the same name (the nodes have the same name), the
manager forgets the earlier one: whatever is received afterwards, that file never changes and is never opened. -/
theorem C103_same_name_violated (files : List FObj) (bo : Char) (ns : List NodeFiles) (h : NewNodes files ns)
    (s : Mgr H) (hs : attachNodes (start files bo) ns = (s, none)) (hfit : AllFit files ns) (hfirst : FirstProvides ns)
    (a b : List Nat) (i j : Nat) (hins : ins ns = a ++ j :: b) (hi : i ∈ a) (hname : fileName files i = fileName files j)
    (ops : List (Op H)) (hops : ∀ op ∈ ops, op.later ∧ op.leaves i) :
    (run s ops).files[i]? = files[i]? ∧ ∃ o, files[i]? = some o ∧ o.isOpen = false := by
  have hnd := h.apart
  rw [List.nodup_append] at hnd
  obtain ⟨s', e, k, r, -⟩ := (attached_start (H := H) files bo).nodes ns h.out h.definition h.inp
    (by simpa using hnd.1) (.inr (.inr ⟨rfl, hfirst⟩)) (by simpa using hfit.1) (by simpa using hfit.2)
  rw [hs] at e
  cases e
  simp only [List.nil_append] at k
  have hmem : i ∈ ins ns := by rw [hins]; simp [hi]
  have hnin : i ∉ outs ns ++ definitions ns := fun hc => hnd.2.2 i hc i hmem rfl
  have hij : i ∉ j :: b := by
    have := hnd.2.1
    rw [hins, List.nodup_append] at this
    exact fun hc => this.2.2 i hi i hc rfl
  have hu : Unknown i s := by
    refine ⟨?_, by rw [k.remote]; simp, by rw [k.map]; exact hnin⟩
    intro m hm
    have hk : KeysOk s.requested := by rw [r]; exact KeysOk.requests _ (by intro p hp; simp [start] at hp)
    have h1 := hk _ hm
    have hmn : m = fileName files i := by
      have hall : ∀ (l : List Nat) (d : List (Str × Nat)), (∀ p ∈ d, p.1 = fileName files p.2) →
          ∀ p ∈ l.foldl (requestName files) d, p.1 = fileName files p.2 := by
        intro l
        induction l with
        | nil => intro d hd; exact hd
        | cons x l ih =>
          intro d hd
          refine ih _ ?_
          intro p hp
          rcases dictSet_mem hp with hp | hp
          · exact hd p hp
          · rw [hp]
      rw [r] at hm
      exact hall _ _ (by simp [start]) _ hm
    subst hmn
    simp only at h1
    rw [r, hins, List.foldl_append, List.foldl_cons] at h1
    refine requests_other i b (fun hc => hij (by simp [hc])) _ ?_ h1
    unfold requestName
    rw [lookup_set, if_pos hname]
    intro hc
    cases hc
    exact hij (by simp)
  refine ⟨by rw [hu.run ops hops, k.others i hnin], ?_⟩
  obtain ⟨o, h1, _, _, _, _, h2, _⟩ := (h.inp i hmem).exists'
  exact ⟨o, h1, h2⟩

/-- A manager that serves several nodes, after any calls and messages. -/
structure Serves (files : List FObj) (ns : List NodeFiles) (s : Mgr H) : Prop where
  run : ∃ ops : List (Op H), (∀ op ∈ ops, op.Respects (nodeLocal ns)) ∧ s = Manager.run (start files '<') ops
  ids : s.localMap.ids = outs ns ++ definitions ns
  object : ∀ i ∈ outs ns ++ definitions ns, ∃ o o', files[i]? = some o ∧ s.files[i]? = some o' ∧ o'.kind = .output ∧
    o'.name = o.name ∧ o'.length = o.length ∧ o'.fileType = 0 ∧ o'.digestType = 0 ∧
    o'.digestData = List.replicate 32 0 ∧ 0 < o.length
  addresses : (outs ns ++ definitions ns).map (fileAddress s.files) =
    (addressPlan files ns).map (fun a : Nat => some (a : Int))
  apart : (outs ns ++ definitions ns).Pairwise fun i j => Disjoint (ent s.files i) (ent s.files j)
  order : s.byteOrder = '<'

theorem serves (files : List FObj) (hf : Fresh files) (ns : List NodeFiles) (h : NewNodes files ns)
    (hfit : AllFit files ns) (hfirst : FirstProvides ns) (s : Mgr H)
    (hs : attachNodes (start files '<') ns = (s, none)) (ops : List (Op H)) (hops : ∀ op ∈ ops, op.later) :
    Serves files ns (run s ops) := by
  obtain ⟨s', e, -, a1, a2, a3, -⟩ := C103_attached_partial (H := H) files '<' ns h hfit hfirst
  have hnd := h.apart
  rw [List.nodup_append] at hnd
  obtain ⟨s2, e2, k, -, -⟩ := (attached_start (H := H) files '<').nodes ns h.out h.definition h.inp
    (by simpa using hnd.1) (.inr (.inr ⟨rfl, hfirst⟩)) (by simpa using hfit.1) (by simpa using hfit.2)
  rw [hs] at e e2
  cases e
  cases e2
  simp only [List.nil_append] at k
  have hrun := attachNodes_run ns _ _ hs
  have hresp := nodeOps_respects (H := H) h
  have hsep : Sep (nodeLocal ns) s := by rw [hrun]; exact (sep_start hf '<').run _ hresp
  obtain ⟨b1, b2⟩ := run_static ops hsep hops
  have hall : ∀ op ∈ nodeOps ns ++ ops, op.Respects (nodeLocal ns) := by
    intro op hop
    rcases List.mem_append.mp hop with hop | hop
    · exact hresp op hop
    · exact later_respects (hops op hop)
  have hrun2 : run s ops = run (start files '<') (nodeOps ns ++ ops) := by
    rw [hrun]; simp [run, List.foldl_append]
  have hobj : ∀ i ∈ outs ns ++ definitions ns, ∃ (o o1 o2 : FObj), files[i]? = some o ∧ s.files[i]? = some o1 ∧
      (run s ops).files[i]? = some o2 ∧ o2.info = o1.info ∧ o2.kind = .output ∧ o1.name = o.name ∧
      o1.length = o.length ∧ o1.fileType = 0 ∧ o1.digestType = 0 ∧
      o1.digestData = List.replicate 32 0 ∧ 0 < o.length := by
    intro i hi
    have hl : nodeLocal ns i = true := by simpa [nodeLocal] using hi
    have hnew : ∃ o, files[i]? = some o ∧ o.kind = .output ∧ 0 < o.length ∧ o.fileType = 0 ∧ o.digestType = 0 ∧
        o.digestData = List.replicate 32 0 := by
      rcases List.mem_append.mp hi with hi | hi
      · obtain ⟨o, g1, g2, _, g3, _, _, _, g4, g5, g6⟩ := (h.out i hi).exists'
        exact ⟨o, g1, g2, g3, g4, g5, g6⟩
      · obtain ⟨o, g1, g2, _, g3, _, _, _, g4, g5, g6⟩ := (h.definition i hi).exists'
        exact ⟨o, g1, g2, g3, g4, g5, g6⟩
    obtain ⟨o, g1, g2, g3, g4, g5, g6⟩ := hnew
    obtain ⟨a, m, hso⟩ := k.same i o g1
    obtain ⟨o2, c1, c2, c3⟩ := b2 i _ hl hso
    exact ⟨o, _, o2, g1, hso, c1, c2, by rw [c3]; exact g2, rfl, rfl, g4, g5, g6, g3⟩
  have hent : ∀ i ∈ outs ns ++ definitions ns, ent (run s ops).files i = ent s.files i := by
    intro i hi
    obtain ⟨o, o1, o2, g1, g2, g3, g4, g5, -⟩ := hobj i hi
    rw [ent_some g2, ent_some g3]
    unfold FObj.info at g4
    simp only [Rmf.FileInfo.mk.injEq] at g4
    obtain ⟨q1, q2, -, q3, -⟩ := g4
    rw [q1, q3, Int.natCast_inj.mp q2]
  refine ⟨⟨_, hall, hrun2⟩, by rw [b1, a1], ?_, ?_, ?_, ?_⟩
  · intro i hi
    obtain ⟨o, o1, o2, g1, g2, g3, g4, g5, g6, g7, g8, g9, g10, g11⟩ := hobj i hi
    unfold FObj.info at g4
    simp only [Rmf.FileInfo.mk.injEq] at g4
    obtain ⟨q1, q2, q3, -, q5, q6⟩ := g4
    exact ⟨o, o2, g1, g3, g5, by rw [q1, g6], by rw [Int.natCast_inj.mp q2, g7], by rw [q3, g8], by rw [q5, g9],
      by rw [q6, g10], g11⟩
  · rw [← a2]
    apply List.map_congr_left
    intro i hi
    have := congrArg FileEnt.address (hent i hi)
    unfold ent at this
    unfold fileAddress
    obtain ⟨o, o1, o2, g1, g2, g3, -⟩ := hobj i hi
    rw [g2, g3] at this ⊢
    exact this
  · refine List.Pairwise.imp_of_mem ?_ a3
    intro i j hi hj hd
    rw [hent i hi, hent j hj]
    exact hd
  · rw [hrun2]
    exact run_byteOrder _ _ hall rfl (sep_start hf _)

/-! ### What the server sees -/

theorem Serves.info {files : List FObj} {ns : List NodeFiles} {s : Mgr H} (h : Serves files ns s) (i : Nat) (a : Nat)
    (p : Nat × Nat) (hp : p = (i, a)) (hm : p ∈ (outs ns ++ definitions ns).zip (addressPlan files ns)) :
    ∃ o, s.files[i]? = some o ∧
      o.info = ⟨fileName files i, fileSize files i, 0, some (a : Int), 0, List.replicate 32 0⟩ := by
  subst hp
  obtain ⟨k, hk⟩ := List.mem_iff_getElem?.mp hm
  rw [List.getElem?_zip_eq_some] at hk
  obtain ⟨o, o', g1, g2, g3, g4, g5, g6, g7, g8, g9⟩ := h.object i (List.mem_of_getElem? hk.1)
  have ha := congrArg (·[k]?) h.addresses
  simp only [List.getElem?_map, hk.1, hk.2, Option.map_some, Option.some.injEq] at ha
  unfold fileAddress at ha
  rw [g2] at ha
  refine ⟨o', g2, ?_⟩
  unfold FObj.info fileName fileSize
  rw [g1, g4, g5, g6, g7, g8]
  simp only [Option.bind_some] at ha
  rw [ha]
  rfl

theorem plan_length (files : List FObj) (ns : List NodeFiles) :
    (addressPlan files ns).length = (outs ns ++ definitions ns).length := by
  simp [addressPlan, sideBySide_length]

/-- Every file of the plan ends before 512M. -/
theorem plan_bounds (files : List FObj) (ns : List NodeFiles) (hfit : AllFit files ns) :
    ∀ p ∈ (outs ns ++ definitions ns).zip (addressPlan files ns), p.2 + fileSize files p.1 ≤ 536870912 := by
  have key : ∀ (b stop : Nat) (l : List Nat) (a : Nat), Room b stop a (l.map (fileSize files)) →
      ∀ p ∈ l.zip (sideBySide b a (l.map (fileSize files))), p.2 + fileSize files p.1 ≤ stop := by
    intro b stop l
    induction l with
    | nil => intro a _ p hp; simp at hp
    | cons i l ih =>
      intro a hr p hp
      simp only [List.map_cons, sideBySide, List.zip_cons_cons, List.mem_cons] at hp
      rcases hp with rfl | hp
      · exact hr.1
      · exact ih _ hr.2 p hp
  intro p hp
  unfold addressPlan at hp
  rw [List.zip_append (by simp [sideBySide_length])] at hp
  rcases List.mem_append.mp hp with hp | hp
  · have := key _ _ _ _ hfit.1 p hp
    omega
  · exact key _ _ _ _ hfit.2 p hp

/-- C103: whatever was received before, when the connection is made the manager announces the out-port data and the
definition of every node, each once, with its name, its length and its own address, and nothing else. -/
theorem C103_announces (files : List FObj) (hf : Fresh files) (ns : List NodeFiles) (h : NewNodes files ns)
    (hfit : AllFit files ns) (hfirst : FirstProvides ns) (s0 : Mgr H)
    (hs : attachNodes (start files '<') ns = (s0, none)) (ops : List (Op H)) (hops : ∀ op ∈ ops, op.later)
    (hn : ∀ i ∈ outs ns ++ definitions ns, ∀ c ∈ fileName files i, c.toNat < 128 ∧ c ≠ '\x00')
    (s : Mgr H) (he : s = run s0 ops) (c : H) :
    ∃ infos : List Bytes, (onConnected s c).2 = none ∧
      (onConnected s c).1.queue = s.queue ++ .connect c :: infos.map .fileInfo ∧
      infos.map (fun b => Rmf.unpackFileInfo b '<') = ((outs ns ++ definitions ns).zip (addressPlan files ns)).map
        (fun p => .ok (some ⟨fileName files p.1, fileSize files p.1, 0, some (p.2 : Int), 0, List.replicate 32 0⟩)) := by
  have hsv := serves files hf ns h hfit hfirst s0 hs ops hops
  rw [← he] at hsv
  have key : ∀ (l : List (Nat × Nat)) (t : Mgr H), t.files = s.files →
      (∀ p ∈ l, p ∈ (outs ns ++ definitions ns).zip (addressPlan files ns)) →
      ∃ infos : List Bytes, announce t (l.map Prod.fst) = ({ t with queue := t.queue ++ infos.map .fileInfo }, none) ∧
        infos.map (fun b => Rmf.unpackFileInfo b '<') = l.map
          (fun p => .ok (some ⟨fileName files p.1, fileSize files p.1, 0, some (p.2 : Int), 0, List.replicate 32 0⟩)) := by
    intro l
    induction l with
    | nil => intro t _ _; exact ⟨[], by simp [announce], rfl⟩
    | cons p l ih =>
      intro t ht hl
      obtain ⟨i, a⟩ := p
      have hm := hl (i, a) (by simp)
      obtain ⟨o, ho, hi⟩ := hsv.info i a _ rfl hm
      have hb := plan_bounds files ns hfit _ hm
      simp only at hb
      have hmem : i ∈ outs ns ++ definitions ns := (List.of_mem_zip hm).1
      obtain ⟨bs, p1, -, u1, -⟩ := Rmf.C07_fileinfo_roundtrip ⟨fileName files i, fileSize files i, 0,
        some (a : Int), 0, List.replicate 32 0⟩
        ⟨⟨a, rfl, by omega⟩, by constructor <;> simp only <;> omega,
          (show (0 : Int) ≤ 0 ∧ (0 : Int) < 2 ^ 16 by decide), (show (0 : Int) ≤ 0 ∧ (0 : Int) < 2 ^ 16 by decide),
          List.length_replicate .., hn i hmem⟩ '<' (.inl rfl)
      obtain ⟨infos, g1, g2⟩ := ih (t.put (.fileInfo bs)) ht (fun p hp => hl p (by simp [hp]))
      refine ⟨bs :: infos, ?_, ?_⟩
      · simp only [List.map_cons, announce, ht, ho, hi, p1]
        rw [g1]
        simp [Mgr.put, ht]
      · simp only [List.map_cons, u1, g2]
  obtain ⟨infos, g1, g2⟩ := key ((outs ns ++ definitions ns).zip (addressPlan files ns)) (s.put (.connect c)) rfl
    (fun p hp => hp)
  have e : ((outs ns ++ definitions ns).zip (addressPlan files ns)).map Prod.fst = outs ns ++ definitions ns :=
    List.map_fst_zip (by rw [plan_length]; exact Nat.le_refl _)
  rw [e] at g1
  refine ⟨infos, ?_, ?_, g2⟩
  · unfold onConnected
    rw [hsv.ids, g1]
  · unfold onConnected
    rw [hsv.ids, g1]
    simp [Mgr.put]

/-- C103: at any time, opening any address of one node's out-port data or definition is answered with one message,
that file's complete content at that file's address. -/
theorem C103_open (files : List FObj) (hf : Fresh files) (ns : List NodeFiles) (h : NewNodes files ns)
    (hfit : AllFit files ns) (hfirst : FirstProvides ns) (s0 : Mgr H)
    (hs : attachNodes (start files '<') ns = (s0, none)) (ops : List (Op H)) (hops : ∀ op ∈ ops, op.later)
    (s : Mgr H) (he : s = run s0 ops) (i a x : Nat)
    (hia : (i, a) ∈ (outs ns ++ definitions ns).zip (addressPlan files ns))
    (h1 : a ≤ x) (h2 : x < a + fileSize files i) (frame : Bytes) (hfr : OpenFrame x frame) :
    ∃ (o : FObj) (s' : Mgr H), s.files[i]? = some o ∧ onMsgReceived s frame = (s', none, none) ∧
      s'.files[i]? = some { o with isOpen := true } ∧ s'.queue = s.queue ++ [.writeData a o.content.data] := by
  have hsv := serves files hf ns h hfit hfirst s0 hs ops hops
  rw [← he] at hsv
  obtain ⟨ops', r1, r2⟩ := hsv.run
  obtain ⟨body, hb, hdr, more, hh, rfl⟩ := hfr
  obtain ⟨o, ho, hi⟩ := hsv.info i a _ rfl hia
  have hbd := plan_bounds files ns hfit _ hia
  simp only at hbd
  unfold FObj.info at hi
  simp only [Rmf.FileInfo.mk.injEq] at hi
  obtain ⟨-, q2, -, q4, -, -⟩ := hi
  have hmem : i ∈ outs ns ++ definitions ns := (List.of_mem_zip hia).1
  obtain ⟨s', g1, g2, g3⟩ := C39_open_sends_content (nodeLocal ns) files hf '<' ops' r1 s r2 (.inl hsv.order)
    (by rw [hsv.ids]; exact hsv.apart)
    (by
      intro j hj
      rw [hsv.ids] at hj
      obtain ⟨oj, oj', w1, w2, -, -, w3, -, -, -, w4⟩ := hsv.object j hj
      rw [ent_some w2]
      simp only
      omega)
    i (by rw [hsv.ids]; exact hmem) o ho a q4 x (by omega) (by omega) (by omega) more hdr body hh
    (by rw [hsv.order]; exact hb)
  exact ⟨o, s', ho, g1, g2, g3⟩

/-- C103: whatever happened, replaying the messages queued so far gives the current content of every open file of
every node: messages about one node never disturb a copy of another node's data. -/
theorem C103_copies (files : List FObj) (hf : Fresh files) (ns : List NodeFiles) (h : NewNodes files ns)
    (hfit : AllFit files ns) (hfirst : FirstProvides ns) (s0 : Mgr H)
    (hs : attachNodes (start files '<') ns = (s0, none)) (ops : List (Op H)) (hops : ∀ op ∈ ops, op.later)
    (s : Mgr H) (he : s = run s0 ops) (i a : Nat)
    (hia : (i, a) ∈ (outs ns ++ definitions ns).zip (addressPlan files ns))
    (o : FObj) (ho : s.files[i]? = some o) (hopen : o.isOpen = true) (copy : Bytes)
    (hc : copy.length = fileSize files i) : mirrorAll a copy s.queue = o.content.data := by
  have hsv := serves files hf ns h hfit hfirst s0 hs ops hops
  rw [← he] at hsv
  obtain ⟨ops', r1, r2⟩ := hsv.run
  have hmem : i ∈ outs ns ++ definitions ns := (List.of_mem_zip hia).1
  obtain ⟨o1, w1, hi⟩ := hsv.info i a _ rfl hia
  rw [ho] at w1
  cases w1
  unfold FObj.info at hi
  simp only [Rmf.FileInfo.mk.injEq] at hi
  obtain ⟨-, q2, -, q4, -, -⟩ := hi
  obtain ⟨_, o2, _, w2, hk, _⟩ := hsv.object i hmem
  rw [ho] at w2
  cases w2
  have hnd := h.apart
  rw [List.nodup_append] at hnd
  obtain ⟨b, hb, hcopy⟩ := C39_replay (nodeLocal ns) files hf '<' ops' r1 s r2 i (by simpa [nodeLocal] using hmem) o ho hk
    hopen (by
      intro j hj hji
      rw [hsv.ids] at hj
      obtain ⟨p, hp⟩ := List.mem_iff_getElem?.mp hj
      obtain ⟨q, hq⟩ := List.mem_iff_getElem?.mp hmem
      obtain ⟨hp1, hp2⟩ := List.getElem?_eq_some_iff.mp hp
      obtain ⟨hq1, hq2⟩ := List.getElem?_eq_some_iff.mp hq
      have hpw := List.pairwise_iff_getElem.mp hsv.apart
      rcases Nat.lt_trichotomy p q with hlt | heq | hgt
      · have := hpw p q hp1 hq1 hlt
        rw [hp2, hq2] at this
        exact this
      · subst heq
        exact absurd (hp2.symm.trans hq2) hji
      · have := hpw q p hq1 hp1 hgt
        rw [hp2, hq2] at this
        exact fun x hx => this x ⟨hx.2, hx.1⟩)
  rw [q4] at hb
  cases hb
  exact hcopy copy (by omega)

/-! ### Nodes as the library makes them -/

theorem nodeRefs_mem (l : List (Str × NodeData)) : ∀ k,
    (∀ i ∈ outs (nodeRefs k l), k ≤ i ∧ (i - k) % 3 = 1) ∧ (outs (nodeRefs k l)).Pairwise (· < ·) ∧
    (∀ i ∈ definitions (nodeRefs k l), k ≤ i ∧ (i - k) % 3 = 2) ∧ (definitions (nodeRefs k l)).Pairwise (· < ·) ∧
    (∀ i ∈ ins (nodeRefs k l), k ≤ i ∧ (i - k) % 3 = 0) ∧ (ins (nodeRefs k l)).Pairwise (· < ·) := by
  induction l with
  | nil => intro k; simp [nodeRefs, outs, definitions, ins]
  | cons p l ih =>
    intro k
    obtain ⟨name, nd⟩ := p
    obtain ⟨h1, h2, h3, h4, h5, h6⟩ := ih (k + 3)
    simp only [nodeRefs, outs_cons, definitions_cons, ins_cons]
    refine ⟨?_, ?_, ?_, ?_, ?_, ?_⟩
    · intro i hi
      rcases List.mem_append.mp hi with hi | hi
      · simp at hi
        omega
      · have := h1 i hi; omega
    · rw [List.pairwise_append]
      refine ⟨by cases nd.outFile.isSome <;> simp, h2, ?_⟩
      intro a ha b hb
      have := h1 b hb
      simp at ha
      omega
    · intro i hi
      rcases List.mem_append.mp hi with hi | hi
      · simp at hi; omega
      · have := h3 i hi; omega
    · rw [List.pairwise_append]
      refine ⟨by simp, h4, ?_⟩
      intro a ha b hb
      have := h3 b hb
      simp at ha
      omega
    · intro i hi
      rcases List.mem_append.mp hi with hi | hi
      · simp at hi
        omega
      · have := h5 i hi; omega
    · rw [List.pairwise_append]
      refine ⟨by cases nd.inFile.isSome <;> simp, h6, ?_⟩
      intro a ha b hb
      have := h5 b hb
      simp at ha
      omega

theorem nodeHeap_new (l : List (Str × NodeData))
    (hl : ∀ p ∈ l, (p.2.inFile.isSome = true → 0 < (fileBytes p.2.inFile).length) ∧
      (p.2.outFile.isSome = true → 0 < (fileBytes p.2.outFile).length) ∧ 0 < p.2.definitionFile.data.length) :
    ∀ (pre : List FObj) (files : List FObj), files = pre ++ nodeHeap l →
      (∀ i ∈ outs (nodeRefs pre.length l), NewFile files i .output ".out".toList) ∧
      (∀ i ∈ definitions (nodeRefs pre.length l), NewFile files i .output ".apx".toList) ∧
      (∀ i ∈ ins (nodeRefs pre.length l), NewFile files i .input ".in".toList) := by
  induction l with
  | nil => intro pre files _; simp [nodeRefs, outs, definitions, ins]
  | cons p l ih =>
    intro pre files hfiles
    obtain ⟨name, nd⟩ := p
    obtain ⟨q1, q2, q3⟩ := hl (name, nd) (by simp)
    obtain ⟨h1, h2, h3⟩ := ih (fun p hp => hl p (by simp [hp])) (pre ++ clientFiles name nd) files
      (by rw [hfiles]; simp [nodeHeap])
    have hlen : (pre ++ clientFiles name nd).length = pre.length + 3 := by simp [clientFiles]
    rw [hlen] at h1 h2 h3
    have hget : ∀ (k : Nat), k < 3 → files[pre.length + k]? = (clientFiles name nd)[k]? := by
      intro k hk
      rw [hfiles, List.getElem?_append_right (by omega), Nat.add_sub_cancel_left, nodeHeap,
        List.getElem?_append_left (by simpa [clientFiles] using hk)]
    have hbytes : ∀ (f : Option FileData), f.isSome = true → (f.getD ⟨[]⟩).data.length = (fileBytes f).length := by
      intro f hf
      cases f with
      | none => cases hf
      | some f => rfl
    simp only [nodeRefs, outs_cons, definitions_cons, ins_cons]
    refine ⟨?_, ?_, ?_⟩
    · intro i hi
      rcases List.mem_append.mp hi with hi | hi
      · split at hi
        · rename_i hs
          have hi : i = pre.length + 1 := by simpa using hi
          subst hi
          refine ⟨_, hget 1 (by omega), rfl, ⟨name, rfl⟩, ?_, rfl, rfl, rfl, rfl, rfl, rfl⟩
          show 0 < (nd.outFile.getD ⟨[]⟩).data.length
          rw [hbytes _ hs]
          exact q2 hs
        · simp at hi
      · exact h1 i hi
    · intro i hi
      rcases List.mem_append.mp hi with hi | hi
      · have hi : i = pre.length + 2 := by simpa using hi
        subst hi
        exact ⟨_, hget 2 (by omega), rfl, ⟨name, rfl⟩, q3, rfl, rfl, rfl, rfl, rfl, rfl⟩
      · exact h2 i hi
    · intro i hi
      rcases List.mem_append.mp hi with hi | hi
      · split at hi
        · rename_i hs
          have hi : i = pre.length + 0 := by simpa using hi
          subst hi
          refine ⟨_, hget 0 (by omega), rfl, ⟨name, rfl⟩, ?_, rfl, rfl, rfl, rfl, rfl, rfl⟩
          show 0 < (nd.inFile.getD ⟨[]⟩).data.length
          rw [hbytes _ hs]
          exact q1 hs
        · simp at hi
      · exact h3 i hi

theorem fresh_heap (q : List (Str × NodeData)) : Fresh (nodeHeap q) := by
  induction q with
  | nil => intro o ho; simp [nodeHeap] at ho
  | cons p q ih =>
    obtain ⟨name, nd⟩ := p
    intro o ho
    rw [nodeHeap, List.mem_append] at ho
    rcases ho with ho | ho
    · exact fresh_client name nd o ho
    · exact ih o ho

/-- C103: the node data of any nodes, made one after the other, are new files in the sense of the other theorems. -/
theorem C103_made (l : List (Node × NodeData)) (hl : ∀ p ∈ l, p.1.nodeData = .ok p.2) :
    let q := l.map fun p => (p.1.name, p.2)
    NewNodes (nodeHeap q) (nodeRefs 0 q) ∧ Fresh (nodeHeap q) := by
  intro q
  have hq : ∀ p ∈ q, (p.2.inFile.isSome = true → 0 < (fileBytes p.2.inFile).length) ∧
      (p.2.outFile.isSome = true → 0 < (fileBytes p.2.outFile).length) ∧ 0 < p.2.definitionFile.data.length := by
    intro p hp
    obtain ⟨p', hp', rfl⟩ := List.mem_map.mp hp
    exact files_nonempty (hl p' hp')
  obtain ⟨h1, h2, h3⟩ := nodeHeap_new q hq [] (nodeHeap q) rfl
  obtain ⟨m1, m2, m3, m4, m5, m6⟩ := nodeRefs_mem q 0
  refine ⟨⟨h1, h2, h3, ?_⟩, ?_⟩
  · have hne : ∀ {l : List Nat}, l.Pairwise (· < ·) → l.Nodup := fun h => h.imp (fun h => Nat.ne_of_lt h)
    rw [List.nodup_append, List.nodup_append]
    refine ⟨⟨hne m2, hne m4, ?_⟩, hne m6, ?_⟩
    · intro a ha b hb hab
      have := m1 a ha
      have := m3 b hb
      omega
    · intro a ha b hb hab
      have := m5 b hb
      rcases List.mem_append.mp ha with ha | ha
      · have := m1 a ha; omega
      · have := m3 a ha; omega
  · exact fresh_heap q

/-- A node data object with the given port data. -/
def mnNode (name : String) (i o : Option (List UInt8)) : Str × NodeData :=
  (name.toList, { inRanges := [], inProgs := [], inFile := i.map FileData.mk, outRanges := [], outProgs := [],
                  outFile := o.map FileData.mk, outValues := [], definitionFile := ⟨[65, 80, 88]⟩, locked := false })

/-- Three nodes, the first with provide ports. -/
def mnThree : List (Str × NodeData) :=
  [mnNode "A" none (some (List.replicate 1025 0)), mnNode "B" (some [1, 2]) none, mnNode "C" (some [3]) (some [4, 5])]

example : let s := attachNodes (start (nodeHeap mnThree) '<' : Mgr Unit) (nodeRefs 0 mnThree)
    s.2 = none ∧ s.1.localMap = ⟨[0, 2048, 67108864, 68157440, 69206016], [1, 7, 2, 5, 8]⟩ ∧
    s.1.requested = [("B.in".toList, 3), ("C.in".toList, 6)] ∧
    addressPlan (nodeHeap mnThree) (nodeRefs 0 mnThree) = [0, 2048, 67108864, 68157440, 69206016] := by
  decide +kernel

/-- The node without provide ports comes first. -/
def mnOrder : List (Str × NodeData) := [mnNode "B" (some [1, 2]) none, mnNode "C" (some [3]) (some [4, 5])]

example : (attachNodes (start (nodeHeap mnOrder) '<' : Mgr Unit) (nodeRefs 0 mnOrder)).2 = some .unboundLocal := by
  decide +kernel

/-- Two nodes of the same name. -/
def mnTwins : List (Str × NodeData) := [mnNode "B" (some [1, 2]) none, mnNode "B" (some [3, 4]) none]

example : let s := attachNodes (start (nodeHeap mnTwins) '<' : Mgr Unit) (nodeRefs 0 mnTwins)
    s.2 = none ∧ s.1.requested = [("B.in".toList, 3)] ∧ ins (nodeRefs 0 mnTwins) = [0] ++ 3 :: [] := by
  decide +kernel

/-- The hypotheses of the theorems are met. -/
example : AllFit (nodeHeap mnThree) (nodeRefs 0 mnThree) ∧ FirstProvides (nodeRefs 0 mnThree) ∧
    NewNodes (nodeHeap mnThree) (nodeRefs 0 mnThree) := by
  refine ⟨⟨?_, ?_⟩, .inl rfl, ?_⟩
  · have : ((outs (nodeRefs 0 mnThree)).map (fileSize (nodeHeap mnThree))) = [1025, 2] := by decide +kernel
    rw [this]
    simp [Room, slot]
  · have : ((definitions (nodeRefs 0 mnThree)).map (fileSize (nodeHeap mnThree))) = [3, 3, 3] := by decide +kernel
    rw [this]
    simp [Room, slot]
  · have hq : ∀ p ∈ mnThree, (p.2.inFile.isSome = true → 0 < (fileBytes p.2.inFile).length) ∧
        (p.2.outFile.isSome = true → 0 < (fileBytes p.2.outFile).length) ∧ 0 < p.2.definitionFile.data.length := by
      decide +kernel
    obtain ⟨h1, h2, h3⟩ := nodeHeap_new mnThree hq [] (nodeHeap mnThree) rfl
    exact ⟨h1, h2, h3, by decide +kernel⟩

end Apx.Manager
