import Verif.Props.GenUnit
import Verif.Proofs.CDispatch

/-!
C105: the text of the function that is told of received data, and of the header files, read by the rules of C.
-/

namespace Apx

/-! ### The macros with the positions and lengths of ports -/

theorem single_value {α β : Type} (k : α → Str) (v : α → β) (l : List α) (h : (l.map k).Nodup) (a : α) (ha : a ∈ l) :
    l.filterMap (fun x => if k x = k a then some (v x) else none) = [v a] := by
  induction l with
  | nil => cases ha
  | cons y l ih =>
    rw [List.map_cons, List.nodup_cons] at h
    rcases List.mem_cons.1 ha with rfl | ha
    · rw [List.filterMap_cons, if_pos rfl]
      have : l.filterMap (fun x => if k x = k a then some (v x) else none) = [] := by
        rw [List.filterMap_eq_nil_iff]
        intro x hx
        rw [if_neg]
        intro e
        exact h.1 (e ▸ List.mem_map_of_mem hx)
      rw [this]
    · have : k y ≠ k a := fun e => h.1 (e ▸ List.mem_map_of_mem ha)
      rw [List.filterMap_cons, if_neg this]
      exact ih h.2 ha

theorem append_take (pre w : Str) (n : Nat) (h : n ≤ pre.length) : (pre ++ w).take n = pre.take n :=
  List.take_append_of_le_length h

theorem items_rx (s : GenSource) (m : List (Str × Nat) × List (Str × Nat)) (hm : s.macros = some m) (name : Str)
    (hname : name.take 7 = "APX_RX_".toList) :
    s.items.filterMap (CItem.macroValue name) =
      m.1.filterMap (fun x => if "APX_RX_LEN_".toList ++ macroName x.1 = name then some x.2 else none) ++
      m.2.filterMap (fun x => if "APX_RX_OFFSET_".toList ++ macroName x.1 = name then some x.2 else none) := by
  have h1 : (s.defs.map fun d => CItem.func d.proto d.body.lines).filterMap (CItem.macroValue name) = [] := by
    rw [List.filterMap_eq_nil_iff]
    intro x hx
    obtain ⟨d, -, rfl⟩ := List.mem_map.1 hx
    rfl
  have h2 : ∀ (n : Str) (v : Nat), n.take 7 ≠ "APX_RX_".toList → CItem.macroValue name (.define n v) = none := by
    intro n v hne
    show (if n = name then some v else none) = none
    rw [if_neg]
    intro e
    exact hne (e ▸ hname)
  have h3 : ([.define "APX_DEFINITON_LEN".toList s.defLen, .define "APX_IN_PORT_DATA_LEN".toList s.inLen,
      .define "APX_OUT_PORT_DATA_LEN".toList s.outLen] : List CItem).filterMap (CItem.macroValue name) = [] := by
    rw [List.filterMap_cons, h2 _ _ (by decide +kernel), List.filterMap_cons, h2 _ _ (by decide +kernel), List.filterMap_cons,
      h2 _ _ (by decide +kernel)]
    rfl
  have h4 : ([.object "apx_nodeData_t".toList "m_nodeData".toList, .literal "m_apxDefinitionData".toList s.literal] :
      List CItem).filterMap (CItem.macroValue name) = [] := rfl
  have h5 : (bufferItems "out".toList "OUT".toList "Dirty".toList true s.outInit).filterMap (CItem.macroValue name) = [] := by
    rw [bufferItems_out, buffer_macros]
  have h6 : (bufferItems "in".toList "IN".toList "Synced".toList s.flags s.inInit).filterMap (CItem.macroValue name) = [] := by
    rw [bufferItems_in, buffer_macros]
  unfold GenSource.items
  rw [hm]
  simp only [List.filterMap_append, h1, h3, h4, h5, h6, List.append_nil, List.nil_append,
    Option.elim_some, List.filterMap_map]
  rfl

/-- The macros of the ports have the positions and lengths of the ports, if the names differ even after upper-casing. -/
theorem port_macros (s : GenSource) (es : List CbEntry) (hm : s.macros = some (mkMacros es))
    (hn : (es.map fun e => macroName e.name).Nodup) (e : CbEntry) (he : e ∈ es) :
    macroOf s.items ("APX_RX_OFFSET_".toList ++ macroName e.name) = some e.offset ∧
      macroOf s.items ("APX_RX_LEN_".toList ++ macroName e.name) = some e.len := by
  have apart : ∀ a b : Str, "APX_RX_OFFSET_".toList ++ a ≠ "APX_RX_LEN_".toList ++ b := by
    intro a b h
    have := congrArg (List.take 8) h
    rw [append_take _ _ _ (by decide +kernel), append_take _ _ _ (by decide +kernel)] at this
    exact absurd this (by decide +kernel)
  have pick : ∀ (key : CbEntry → Nat) (v : CbEntry → Nat) (pre : Str),
      ((sortedByKey key es).map fun e => (e.name, v e)).filterMap
        (fun x => if pre ++ macroName x.1 = pre ++ macroName e.name then some x.2 else none) = [v e] := by
    intro key v pre
    rw [List.filterMap_map]
    have hp := sortedByKey_perm key es
    have := single_value (fun x : CbEntry => macroName x.name) v (sortedByKey key es)
      ((hp.map fun x => macroName x.name).nodup_iff.2 hn) e (hp.mem_iff.2 he)
    rw [← this]
    congr 1
    funext x
    simp only [Function.comp, List.append_cancel_left_eq]
  have none : ∀ (l : List (Str × Nat)) (pre w : Str), (∀ a : Str, pre ++ a ≠ w) →
      l.filterMap (fun x => if pre ++ macroName x.1 = w then some x.2 else none) = [] := by
    intro l pre w h
    rw [List.filterMap_eq_nil_iff]
    intro x _
    rw [if_neg (h _)]
  constructor
  · apply macros_found
    rw [items_rx s _ hm _ (by rw [append_take _ _ _ (by decide +kernel)]; decide +kernel),
      none (mkMacros es).1 _ _ (fun a h => apart _ _ h.symm), List.nil_append]
    exact pick _ _ _
  · apply macros_found
    rw [items_rx s _ hm _ (by rw [append_take _ _ _ (by decide +kernel)]; decide +kernel),
      none (mkMacros es).2 _ _ (fun a h => apart _ _ h), List.append_nil]
    exact pick _ _ _

/-! ### The cases -/

/-- A case of a port. -/
def CbPort.case (name : Str) (c : CbPort) : CCase :=
  ⟨"APX_RX_OFFSET_".toList ++ macroName c.entry.name, c.calls name, "APX_RX_LEN_".toList ++ macroName c.entry.name⟩

theorem switch_cases (name : Str) (isCase : CbEntry → Bool) (last : Nat) : ∀ (l : List CbPort) (w : Bool),
    (switchItems name isCase last w l).filterMap CSwitchItem.toCase = (l.filter fun c => isCase c.entry).map (CbPort.case name)
  | [], _ => rfl
  | c :: l, w => by
    have h1 : (if w then [CSwitchItem.comment c.entry.name] else []).filterMap CSwitchItem.toCase = [] := by cases w <;> rfl
    simp only [switchItems, List.filterMap_append, h1, List.nil_append, switch_cases name isCase last l]
    cases h : isCase c.entry with
    | true =>
      rw [List.filter_cons, h]
      rfl
    | false =>
      rw [List.filter_cons, h]
      rfl

theorem caseValues_ports (u : List CItem) (name : Str) : ∀ (l : List CbPort),
    (∀ c ∈ l, macroOf u ("APX_RX_OFFSET_".toList ++ macroName c.entry.name) = some c.entry.offset ∧
      macroOf u ("APX_RX_LEN_".toList ++ macroName c.entry.name) = some c.entry.len) →
    caseValues u (l.map (CbPort.case name)) = some (l.map fun c => (c.entry.offset, c.calls name, c.entry.len))
  | [], _ => rfl
  | c :: l, h => by
    have hc := h c (by simp)
    show (macroOf u (CbPort.case name c).label).bind _ = _
    have e1 : macroOf u (CbPort.case name c).label = some c.entry.offset := hc.1
    have e2 : macroOf u (CbPort.case name c).step = some c.entry.len := hc.2
    rw [e1, Option.bind_some, e2, Option.bind_some, caseValues_ports u name l (fun x hx => h x (List.mem_cons_of_mem _ hx))]
    rfl

/-- The loop makes the calls for the ports that the loop on the entries reports. -/
theorem switchLoop_ports (name : Str) (l : List CbPort) (F : Str × Str → List CDataCall)
    (hF : ∀ c ∈ l, c.calls name = (c.entry.callback.map fun f => (f, c.entry.name)).toList.flatMap F) (offset stop : Nat) :
    switchLoop (l.map fun c => (c.entry.offset, c.calls name, c.entry.len)) offset stop =
      (dispatchLoop (l.map CbPort.entry) offset stop).map fun r => r.flatMap F := by
  induction hk : stop - offset using Nat.strongRecOn generalizing offset with
  | _ k ih =>
    subst hk
    rw [switchLoop, dispatchLoop]
    by_cases ho : offset < stop
    · rw [if_pos ho, if_pos ho, List.find?_map, List.find?_map]
      have e1 : l.find? ((fun c : Nat × List CDataCall × Nat => decide (c.1 = offset)) ∘
          fun c : CbPort => (c.entry.offset, c.calls name, c.entry.len)) = l.find? fun c => decide (c.entry.offset = offset) := rfl
      have e2 : l.find? ((fun e : CbEntry => decide (e.offset = offset)) ∘ CbPort.entry) =
          l.find? fun c => decide (c.entry.offset = offset) := rfl
      rw [e1, e2]
      cases hfind : l.find? fun c => decide (c.entry.offset = offset) with
      | none => rfl
      | some c =>
        have hc := List.mem_of_find?_eq_some hfind
        simp only [Option.map_some]
        by_cases hl : 0 < c.entry.len
        · rw [if_pos hl, if_pos hl, ih _ (by omega) _ rfl, Option.map_map, Option.map_map, hF c hc]
          congr 1
          funext r
          simp only [Function.comp, List.flatMap_append]
        · rw [if_neg hl, if_neg hl]
          rfl
    · rw [if_neg ho, if_neg ho]
      rfl

/-! ### Calls for signals -/

/-- Is the value of the signal an array? -/
def Signal.array (s : Signal) : Bool :=
  match s.elem.resolveDataElement with
  | .ok d => d.arrayLen.isSome
  | .error _ => false

/-- Is the value handed over by its address: is it an array or a record? -/
def Signal.byAddress (s : Signal) : Bool :=
  match s.elem.resolveDataElement with
  | .ok (.record _ _) => true
  | .ok d => d.arrayLen.isSome
  | .error _ => false

/-- The calls for a received signal with a callback: its read function stores the value in the member of the union that
has the name of the signal, and the callback gets this value. -/
def signalCalls (name : Str) (s : Signal) (f : Str) : List CDataCall :=
  [⟨"ApxNode_Read_".toList ++ name ++ ('_' :: s.name), true, s.name, s.array⟩, ⟨f, s.byAddress, s.name, s.array⟩]

theorem mkCbPort_calls {cb : Str → Option Str} {s : Signal} {c : CbPort} (h : mkCbPort cb s = .ok c) (name : Str) :
    c.entry = mkEntry cb s ∧ c.arrayLen.isSome = s.array ∧ c.calls name = (cb s.name).elim [] (signalCalls name s) := by
  unfold mkCbPort at h
  obtain ⟨t, h1, h⟩ := bind_ok_iff.1 h
  obtain ⟨d, h2, h⟩ := bind_ok_iff.1 h
  obtain ⟨b, h3, h⟩ := bind_ok_iff.1 h
  cases h
  have ha : s.array = d.arrayLen.isSome := by unfold Signal.array; rw [h2]
  have hb : s.byAddress = b := by
    unfold Elem.isComplexType Elem.isArray at h3
    rw [h2] at h3
    unfold Signal.byAddress
    rw [h2]
    cases d with
    | record fs a =>
      cases a with
      | none => exact (Except.ok.inj h3)
      | some k => exact (Except.ok.inj h3)
    | prim t lo hi a =>
      cases a with
      | none => exact (Except.ok.inj h3)
      | some k => exact (Except.ok.inj h3)
    | refId i => exact (Except.ok.inj h3)
    | refName i => exact (Except.ok.inj h3)
    | refType i e => exact (Except.ok.inj h3)
  refine ⟨rfl, ha.symm, ?_⟩
  unfold CbPort.calls signalCalls
  rw [ha, hb]
  show (match cb s.name with | none => _ | some f => _) = _
  cases cb s.name <;> rfl

theorem mkCbPorts_entries {cb : Str → Option Str} : ∀ {ss : List Signal} {l : List CbPort}, mkCbPorts cb ss = .ok l →
    l.map CbPort.entry = ss.map (mkEntry cb)
  | [], l, h => by cases h; rfl
  | s :: ss, l, h => by
    simp only [mkCbPorts, bind_ok_iff, Except.ok.injEq] at h
    obtain ⟨c, h1, r, h2, rfl⟩ := h
    rw [List.map_cons, List.map_cons, mkCbPorts_entries h2, (mkCbPort_calls h1 []).1]

theorem switch_idents (name : Str) (hn : WordChars name) (isCase : CbEntry → Bool) (last : Nat) : ∀ (l : List CbPort) (w : Bool),
    (∀ c ∈ l, WordChars c.entry.name ∧ (c.entry.callback.isSome → CIdent c.entry.name) ∧ ∀ f, c.entry.callback = some f → CIdent f) →
    ∀ i ∈ switchItems name isCase last w l, i.Idents
  | [], _, _, i, hi => by cases hi
  | c :: l, w, h, i, hi => by
    have hc := h c (by simp)
    simp only [switchItems, List.mem_append] at hi
    rcases hi with (hi | hi) | hi
    · split at hi
      · rw [List.mem_singleton.1 hi]
        trivial
      · cases hi
    · split at hi
      · rw [List.mem_singleton.1 hi]
        refine ⟨hc.1, ?_⟩
        intro x hx
        unfold CbPort.calls at hx
        split at hx
        · cases hx
        · rename_i f hf
          have hid := hc.2.1 (by rw [hf]; rfl)
          simp only [List.mem_cons, List.not_mem_nil, or_false] at hx
          rcases hx with rfl | rfl
          · refine ⟨?_, hid⟩
            show CIdent ("ApxNode_Read_".toList ++ name ++ ('_' :: c.entry.name))
            rw [List.append_assoc]
            refine prefixed_ident _ _ (by decide +kernel) (by decide +kernel) ?_
            intro d hd
            rcases List.mem_append.1 hd with hd | hd
            · exact hn d hd
            · rcases List.mem_cons.1 hd with rfl | hd
              · decide +kernel
              · exact hc.1 d hd
          · exact ⟨hc.2.2 f hf, hid⟩
      · cases hi
    · exact switch_idents name hn isCase last l _ (fun x hx => h x (List.mem_cons_of_mem _ hx)) i hi

theorem members_sublist : ∀ cbs : List CbPort,
    ((cbs.filterMap CbPort.member).map CMember.name).Sublist ((cbs.map CbPort.entry).map CbEntry.name)
  | [] => List.Sublist.slnil
  | x :: l => by
    have ih := members_sublist l
    rw [List.filterMap_cons]
    unfold CbPort.member
    by_cases h : x.entry.callback.isSome
    · rw [if_pos h]
      exact ih.cons_cons _
    · rw [if_neg h]
      exact ih.cons _

/-- C105: the source file of a node, some of whose require ports have callbacks, has a function that is told of received
data. A call of it with `off` and `len` calls, for exactly the ports with callbacks that start in these bytes and in the
order of the ports, the read function of the port and then the callback with the value just read. This needs positive
lengths, names that differ even after upper-casing, and an `off` that is the start of a port or not beyond the first
port with a callback. -/
theorem C105_callbacks_partial (n : Node) (g : Generated) (hg : generate n = .ok g) (o : GenOptions) (f : GenFiles)
    (hf : genFiles none o g = .ok f) (hn : GenNames none o g) (cb : Str → Option Str) (ho : o.callbacks = some cb)
    (hid : ∀ p ∈ g.node.requires, (cb p.name).isSome → CIdent p.name)
    (hcb : ∃ s ∈ g.require, (cb s.name).isSome) (hpos : ∀ s ∈ g.require, 0 < s.packLen)
    (hm : (g.require.map fun s => macroName s.name).Nodup) :
    ∃ u lines d, readSource f.source.text = some u ∧
      .func ⟨notifyName (o.nameFor g.node), ⟨"void".toList, false⟩,
        [⟨"arg".toList, ⟨"void".toList, true⟩⟩, ⟨"nodeData".toList, ⟨"apx_nodeData_t".toList, true⟩⟩,
          ⟨"offset".toList, ⟨"uint32_t".toList, false⟩⟩, ⟨"len".toList, ⟨"uint32_t".toList, false⟩⟩]⟩ lines ∈ u ∧
      readSwitch lines = some d ∧ ∀ off len,
        ((∃ s ∈ g.require, s.offset = off) ∨ (∀ s ∈ g.require, (cb s.name).isSome → off ≤ s.offset)) →
        d.call u off len = some ((g.require.filter fun s => off ≤ s.offset ∧ s.offset < off + len).flatMap fun s =>
          (cb s.name).elim [] (signalCalls (o.nameFor g.node) s)) := by
  have hparts := genFiles_parts hf
  obtain ⟨rs, ps, cbs, c, rd, wd, k1, k2, k3, k4, k5, k6, k7, k8, k9, k10, k11⟩ := hparts
  have hsig := generate_signals hg
  have hnames := cbPort_names hn hsig.1 k3
  have k3' : mkCbPorts cb g.require = .ok cbs := by simpa [cbPortsOf, ho] using k3
  have hent := mkCbPorts_entries k3'
  obtain ⟨c', w1, w2⟩ := C69_dispatch_partial n g hg cb o.name hcb hpos hm
  have hcc : c' = c := by
    rw [ho] at k4
    have : (GenState.new.generate g o.name (some cb)).2 = .ok c := k4
    rw [w1] at this
    exact Except.ok.inj this
  subst hcc
  obtain ⟨n', h1, h2⟩ := bind_ok_iff.mp hg
  obtain ⟨rs', h3, h2⟩ := bind_ok_iff.mp h2
  obtain ⟨ps', h4, h2⟩ := bind_ok_iff.mp h2
  obtain ⟨ib, h5, h2⟩ := bind_ok_iff.mp h2
  obtain ⟨ob, h6, h2⟩ := bind_ok_iff.mp h2
  have hr : g.require = rs' := by
    simp only [Except.ok.injEq] at h2
    rw [← h2]
  have hlen : g.inLen = totalLen g.require := by
    simp only [Except.ok.injEq] at h2
    rw [← h2]
  have hc : CbChain 0 (g.require.map (mkEntry cb)) := by
    rw [hr]
    exact genSignals_chain cb _ _ _ _ _ h3 (by rw [← hr]; exact hpos)
  have hin : 0 < g.inLen := by
    obtain ⟨s, hs, _⟩ := hcb
    rw [hlen]
    exact Nat.lt_of_lt_of_le (hpos s hs) (packLen_le_total s _ hs)
  obtain ⟨fst, c2, q1, q2, q3, q4, -, -, -, q5, q6⟩ := fresh_code g cb o.name 0 hc hin hcb
  have hcc : c2 = c' := by
    rw [w1] at q2
    exact (Except.ok.inj q2).symm
  subst hcc
  generalize hes : g.require.map (mkEntry cb) = es at *
  have hnes : (es.map fun e => macroName e.name).Nodup := by
    rw [← hes, List.map_map]
    exact hm
  have hnames' : (es.map CbEntry.name).Nodup := by
    have : (es.map fun e => macroName e.name) = (es.map CbEntry.name).map macroName := by rw [List.map_map]; rfl
    rw [this] at hnes
    exact List.Pairwise.of_map macroName (fun a b h e => h (congrArg macroName e)) hnes
  have hmac : f.source.macros = some (mkMacros es) := by
    unfold genFiles at hf
    simp only [bind_ok_iff, Except.ok.injEq] at hf
    obtain ⟨_, _, _, _, cbs', h3, _, _, _, _, _, _, _, _, rfl⟩ := hf
    rw [k3] at h3
    cases h3
    show (if o.callbacks.isSome then some (mkMacros (cbs.map CbPort.entry)) else none) = _
    rw [ho, hent]
    rfl
  have hpm := port_macros f.source es hmac hnes
  have hsort : sortedByKey (fun x : CbPort => x.entry.offset) cbs = cbs := by
    apply sortedByKey_sorted
    have := cbChain_pairwise _ _ hc
    rw [← hent, List.pairwise_map] at this
    exact this
  have hmem : ∀ x ∈ cbs, x.entry ∈ es := fun x hx => hent ▸ List.mem_map_of_mem hx
  -- the function
  have hbody : notifyBody (o.nameFor g.node) o.callbacks.isSome c2 cbs = .dispatch (cbMembers cbs) c2.start
      (switchItems (o.nameFor g.node) (fun e => decide (e ∈ c2.cases)) (lastCallbackOffset c2.macros) false cbs) := by
    unfold notifyBody
    rw [ho, hsort]
    rfl
  have hmb : (cbMembers cbs).Perm (cbs.filterMap CbPort.member) := sortedByName_perm _ _
  have hmembers : ((cbMembers cbs).map CMember.name).Nodup := by
    rw [(hmb.map _).nodup_iff]
    have hsub := members_sublist cbs
    rw [hent] at hsub
    exact hnames'.sublist hsub
  have hidc : ∀ x ∈ cbs, x.entry.callback.isSome → CIdent x.entry.name := by
    intro x hx hs
    obtain ⟨s, hs1, hs2⟩ := (mkCbPorts_mem k3').2 x hx
    obtain ⟨e1, -, -⟩ := mkCbPort_calls hs2 []
    obtain ⟨p, hp1, hp2, -⟩ := hsig.1 s hs1
    rw [e1] at hs ⊢
    show CIdent s.name
    rw [hp2]
    exact hid p hp1 (by rw [← hp2]; exact hs)
  have hsn : SwitchNames (cbMembers cbs) c2.start
      (switchItems (o.nameFor g.node) (fun e => decide (e ∈ c2.cases)) (lastCallbackOffset c2.macros) false cbs) := by
    refine ⟨?_, ?_, ?_⟩
    · intro m hm
      obtain ⟨x, hx, e⟩ := List.mem_filterMap.1 (hmb.mem_iff.1 hm)
      unfold CbPort.member at e
      split at e
      · rename_i hsome
        cases e
        exact ⟨(hnames x hx).2.1, hidc x hx hsome⟩
      · cases e
    · intro p hp
      obtain ⟨s, hs, rfl⟩ := code_start k4 hp
      obtain ⟨q, hq, e, -⟩ := hsig.1 s hs
      rw [e]
      exact (hn.ports q (List.mem_append.2 (.inl hq))).name
    · exact switch_idents _ hn.name.1.2 _ _ _ _ fun x hx => ⟨(hnames x hx).1, hidc x hx, (hnames x hx).2.2⟩
  refine ⟨f.source.items, _, _, readSource_text _ (source_names n g hg none o f hf hn), ?_, readSwitch_lines _ _ _ hsn hmembers, ?_⟩
  · unfold GenSource.items
    refine List.mem_append.2 (.inr (List.mem_map.2 ⟨⟨notifyProto (notifyName (o.nameFor g.node)),
      notifyBody (o.nameFor g.node) o.callbacks.isSome c2 cbs⟩, ?_, by rw [hbody]; rfl⟩))
    rw [k10, q5]
    exact List.mem_append.2 (.inr (List.mem_singleton.2 rfl))
  · intro off len hoff
    have hw := w2 off len hoff
    have hom : ∀ e ∈ es, c2.offsetMacro e.name = e.offset := fun e he => by
      unfold CallbackCode.offsetMacro
      rw [q3]
      exact macroValue_perm _ _ _ (sortedByKey_perm _ _) hnes e he
    have hlm : ∀ e ∈ es, c2.lenMacro e.name = e.len := fun e he => by
      unfold CallbackCode.lenMacro
      rw [q3]
      exact macroValue_perm _ _ _ (sortedByKey_perm _ _) hnes e he
    have hexp : c2.cases.map c2.expand = c2.cases := by
      rw [List.map_congr_left (g := id) (fun e he => ?_), List.map_id]
      have : e ∈ es := by rw [q6] at he; exact (List.mem_filter.mp he).1
      simp [CallbackCode.expand, hom e this, hlm e this]
    let l := cbs.filter fun x => decide (x.entry ∈ c2.cases)
    have hl : l.map CbPort.entry = c2.cases := by
      have : l.map CbPort.entry = (cbs.map CbPort.entry).filter fun e => decide (e ∈ c2.cases) := by
        rw [List.filter_map]
        rfl
      rw [this, hent]
      conv => rhs; rw [q6]
      apply List.filter_congr
      intro e he
      rw [q6]
      simp only [List.mem_filter, he, true_and, decide_eq_true_eq]
    unfold CallbackCode.written at hw
    rw [hexp] at hw
    dsimp only at hw
    split at hw
    · rename_i hnd
      -- the calls of a port
      let F : Str × Str → List CDataCall := fun x =>
        (g.require.find? fun s => decide (s.name = x.2)).elim [] fun s => signalCalls (o.nameFor g.node) s x.1
      have hfind : ∀ s ∈ g.require, g.require.find? (fun t => decide (t.name = s.name)) = some s := by
        have hnd' : (g.require.map Signal.name).Nodup := by
          rw [← hes, List.map_map] at hnames'
          exact hnames'
        intro s hs
        exact find_unique Signal.name g.require hnd' s hs
      have hF : ∀ x ∈ l, x.calls (o.nameFor g.node) = (x.entry.callback.map fun f => (f, x.entry.name)).toList.flatMap F := by
        intro x hx
        obtain ⟨s, hs1, hs2⟩ := (mkCbPorts_mem k3').2 x (List.mem_filter.1 hx).1
        obtain ⟨e1, -, e3⟩ := mkCbPort_calls hs2 (o.nameFor g.node)
        rw [e3, e1]
        show _ = ((cb s.name).map fun f => (f, s.name)).toList.flatMap F
        cases cb s.name with
        | none => rfl
        | some y =>
          show _ = F (y, s.name) ++ []
          rw [List.append_nil]
          show _ = (g.require.find? fun t => decide (t.name = s.name)).elim [] _
          rw [hfind s hs1]
          rfl
      have hres : ((g.require.filter fun s => decide (off ≤ s.offset ∧ s.offset < off + len)).filterMap
          fun s => (cb s.name).map fun f => (f, s.name)).flatMap F =
          (g.require.filter fun s => decide (off ≤ s.offset ∧ s.offset < off + len)).flatMap fun s =>
            (cb s.name).elim [] (signalCalls (o.nameFor g.node) s) := by
        have : ∀ k : List Signal, (∀ s ∈ k, s ∈ g.require) → (k.filterMap fun s => (cb s.name).map fun f => (f, s.name)).flatMap F =
            k.flatMap fun s => (cb s.name).elim [] (signalCalls (o.nameFor g.node) s) := by
          intro k hk
          induction k with
          | nil => rfl
          | cons s k ih =>
            have ih := ih fun t ht => hk t (List.mem_cons_of_mem _ ht)
            rw [List.flatMap_cons, ← ih, List.filterMap_cons]
            cases cb s.name with
            | none => rfl
            | some y =>
              show F (y, s.name) ++ _ = _
              congr 1
              show (g.require.find? fun t => decide (t.name = s.name)).elim [] _ = _
              rw [hfind s (hk s (by simp))]
              rfl
        exact this _ fun s hs => (List.mem_filter.1 hs).1
      have hloop : switchLoop (l.map fun c => (c.entry.offset, c.calls (o.nameFor g.node), c.entry.len)) (c2.from off) (off + len) =
          some ((g.require.filter fun s => decide (off ≤ s.offset ∧ s.offset < off + len)).flatMap fun s =>
            (cb s.name).elim [] (signalCalls (o.nameFor g.node) s)) := by
        rw [switchLoop_ports _ l F hF, hl, hw, Option.map_some, hres]
      unfold CSwitch.call
      show (caseValues _ ((switchItems _ _ _ _ _).filterMap CSwitchItem.toCase)).bind _ = _
      rw [switch_cases, caseValues_ports _ _ _ (fun x hx => hpm x.entry (hmem x (List.mem_filter.1 hx).1)), Option.bind_some, if_pos]
      · show (match c2.start.map boundMacro with | none => _ | some m => _) = _
        rw [← hloop]
        unfold CallbackCode.from
        cases hst : c2.start with
        | none => rfl
        | some p =>
          have hp : ∃ e ∈ es, e.name = p := by
            rw [q4] at hst
            split at hst
            · cases hst
              exact ⟨fst, List.mem_of_find?_eq_some q1, rfl⟩
            · cases hst
          obtain ⟨e, he, rfl⟩ := hp
          show (macroOf _ (boundMacro e.name)).bind _ = switchLoop _ (if off < c2.offsetMacro e.name then c2.offsetMacro e.name else off) _
          rw [hom e he]
          have : macroOf f.source.items (boundMacro e.name) = some e.offset := (hpm e he).1
          rw [this]
          rfl
      · constructor
        · have : ((cbs.filter fun x => decide (x.entry ∈ c2.cases)).map fun c =>
              (c.entry.offset, c.calls (o.nameFor g.node), c.entry.len)).map Prod.fst = c2.cases.map CbEntry.offset := by
            have e : c2.cases.map CbEntry.offset = (l.map CbPort.entry).map CbEntry.offset := by rw [hl]
            rw [e, List.map_map, List.map_map]
            rfl
          rw [this]
          exact hnd
        · intro cc hcc x hx
          obtain ⟨y, hy, rfl⟩ := List.mem_map.1 hcc
          have hy := (List.mem_filter.1 hy).1
          have hx : x ∈ y.calls (o.nameFor g.node) := hx
          unfold CbPort.calls at hx
          split at hx
          · cases hx
          · rename_i ff hff
            refine ⟨⟨y.entry.name, y.typename, y.arrayLen⟩, hmb.mem_iff.2 (List.mem_filterMap.2 ⟨y, hy, ?_⟩), ?_⟩
            · unfold CbPort.member
              rw [hff]
              rfl
            · simp only [List.mem_cons, List.not_mem_nil, or_false] at hx
              rcases hx with rfl | rfl <;> exact ⟨rfl, rfl⟩
    · cases hw

/-! ### Header files -/

theorem readProtos_skips : ∀ (ls rest : List Str), (∀ l ∈ ls, cSkipped l = true) → readProtos (ls ++ rest) = readProtos rest
  | [], _, _ => rfl
  | l :: ls, rest, h => by
    rw [List.cons_append, readProtos, if_pos (h l (by simp)), readProtos_skips ls rest (fun x hx => h x (List.mem_cons_of_mem _ hx))]

theorem readProtos_lines (rest : List Str) : ∀ ps : List CProto, (∀ p ∈ ps, p.Words) →
    readProtos (ps.map CProto.line ++ rest) = (readProtos rest).map fun r => ps ++ r
  | [], _ => by
    show readProtos rest = _
    cases readProtos rest <;> rfl
  | p :: ps, h => by
    have hp := h p (by simp)
    obtain ⟨s, hs⟩ := proto_text_split p
    have hskip : ¬ cSkipped p.line = true := by
      unfold CProto.line
      rw [hs, List.append_assoc, word_not_skipped (typeName_word hp.2.1)]
      simp
    have hr : readHead (lexC p.line) = some (p, [.sym ';']) := by
      unfold CProto.line
      rw [readHead_more p hp, lex_semi]
    rw [List.map_cons, List.cons_append, readProtos, if_neg hskip, hr, Option.bind_some, if_pos rfl,
      readProtos_lines rest ps (fun x hx => h x (List.mem_cons_of_mem _ hx)), Option.map_map]
    rfl

theorem readGuard_guarded (guard : Str) (h : CIdent guard) (l : List Str) :
    readGuard (guarded guard l) = some (guard, [] :: l ++ [[]]) := by
  have e1 : lexC ("#ifndef ".toList ++ guard) = [.sym '#', .word "ifndef".toList, .word guard] := by
    have : lexC "#ifndef ".toList = [.sym '#', .word "ifndef".toList] := by decide +kernel
    rw [lexC_lit _ _ (by decide +kernel), this, lexC_word guard h.1]
    rfl
  have e2 : lexC ("#define ".toList ++ guard) = [.sym '#', .word "define".toList, .word guard] := by
    have : lexC "#define ".toList = [.sym '#', .word "define".toList] := by decide +kernel
    rw [lexC_lit _ _ (by decide +kernel), this, lexC_word guard h.1]
    rfl
  have e3 : ("#endif //".toList ++ guard).take 6 = "#endif".toList := by
    rw [append_take _ _ _ (by decide +kernel)]
    decide +kernel
  show readGuard (("#ifndef ".toList ++ guard) :: ("#define ".toList ++ guard) :: ([] :: l ++ [[], "#endif //".toList ++ guard])) = _
  unfold readGuard
  dsimp only
  simp only [e1, e2]
  have e4 : ([] :: l ++ [[], "#endif //".toList ++ guard] : List Str) = ([] :: l ++ [[]]) ++ ["#endif //".toList ++ guard] := by simp
  rw [if_pos ⟨trivial, trivial, trivial, h⟩, e4, List.getLast?_concat]
  dsimp only
  rw [if_pos e3, List.dropLast_concat]

theorem skip_sysinclude (s : Str) : cSkipped (sysincludeLine s) = true := by
  have e1 : "#include <".toList = "#include ".toList ++ ['<'] := by decide +kernel
  have e2 : "#include ".toList.length = 9 := by decide +kernel
  simp only [cSkipped, decide_eq_true_eq]
  refine .inr (.inr (.inl ?_))
  unfold sysincludeLine
  rw [e1, List.append_assoc, List.append_assoc, ← e2, List.take_left']
  rfl

theorem flat_line {p : CProto} (h : p.Words) : Flat p.line := flat_append (flat_proto h) (by decide +kernel)

theorem flat_guarded {guard : Str} (h : Flat guard) {l : List Str} (hl : ∀ x ∈ l, Flat x) : ∀ x ∈ guarded guard l, Flat x := by
  intro x hx
  unfold guarded at hx
  simp only [List.mem_append, List.mem_cons, List.not_mem_nil, or_false] at hx
  rcases hx with ((rfl | rfl | rfl) | hx) | (rfl | rfl)
  · flat_text
  · flat_text
  · decide
  · exact hl x hx
  · decide
  · flat_text

/-- The header file, read. -/
theorem readHeader_text (h : GenHeader) (hg : CIdent h.guard) (hi : ∀ i ∈ h.includes, Flat i) (hp : ∀ p ∈ h.protos, p.Words) :
    readHeader h.text = some (h.guard, h.protos) := by
  have hp1 : ∀ p ∈ h.node, p.Words := fun p hx => hp p (List.mem_append.2 (.inl (List.mem_append.2 (.inl hx))))
  have hp2 : ∀ p ∈ h.ports, p.Words := fun p hx => hp p (List.mem_append.2 (.inl (List.mem_append.2 (.inr hx))))
  have hp3 : ∀ p ∈ h.notify, p.Words := fun p hx => hp p (List.mem_append.2 (.inr hx))
  have hskip : ∀ l ∈ ([] :: [sysincludeLine "stdbool.h".toList, includeLine "apx_nodeData.h".toList] ++ h.includes.map includeLine ++ [[]] ++
      commentHeader "CONSTANTS".toList ++ [[]] ++ commentHeader "FUNCTION PROTOTYPES".toList : List Str), cSkipped l = true := by
    intro l hl
    simp only [List.mem_append, List.mem_cons, List.not_mem_nil, or_false] at hl
    rcases hl with (((((rfl | rfl | rfl) | hl) | rfl) | hl) | rfl) | hl
    · rfl
    · exact skip_sysinclude _
    · exact skip_include _
    · obtain ⟨i, -, rfl⟩ := List.mem_map.1 hl
      exact skip_include _
    · rfl
    · exact skip_commentHeader _ l hl
    · rfl
    · exact skip_commentHeader _ l hl
  unfold readHeader GenHeader.text
  rw [cLines_fileText, readGuard_guarded _ hg, Option.bind_some]
  · show (readProtos ([] :: ([sysincludeLine "stdbool.h".toList, includeLine "apx_nodeData.h".toList] ++ h.includes.map includeLine ++ [[]] ++
      commentHeader "CONSTANTS".toList ++ [[]] ++ commentHeader "FUNCTION PROTOTYPES".toList ++
      h.node.map CProto.line ++ [[]] ++ h.ports.map CProto.line ++ h.notify.map CProto.line) ++ [[]])).map _ = _
    have e : ([] :: ([sysincludeLine "stdbool.h".toList, includeLine "apx_nodeData.h".toList] ++ h.includes.map includeLine ++ [[]] ++
        commentHeader "CONSTANTS".toList ++ [[]] ++ commentHeader "FUNCTION PROTOTYPES".toList ++
        h.node.map CProto.line ++ [[]] ++ h.ports.map CProto.line ++ h.notify.map CProto.line) ++ [[]] : List Str) =
        ([] :: [sysincludeLine "stdbool.h".toList, includeLine "apx_nodeData.h".toList] ++ h.includes.map includeLine ++ [[]] ++
        commentHeader "CONSTANTS".toList ++ [[]] ++ commentHeader "FUNCTION PROTOTYPES".toList) ++
        (h.node.map CProto.line ++ ([[]] ++ (h.ports.map CProto.line ++ (h.notify.map CProto.line ++ [[]])))) := by
      simp only [List.append_assoc, List.cons_append, List.nil_append]
    rw [e, readProtos_skips _ _ hskip, readProtos_lines _ _ hp1, readProtos_skips [[]] _ (by decide), readProtos_lines _ _ hp2,
      readProtos_lines _ _ hp3]
    show some _ = _
    unfold GenHeader.protos
    simp only [List.append_nil, List.append_assoc]
  · apply flat_guarded (flat_word hg.1)
    intro x hx
    have hl : ∀ ps : List CProto, (∀ p ∈ ps, p.Words) → ∀ y ∈ ps.map CProto.line, Flat y := by
      intro ps hps y hy
      obtain ⟨p, hp, rfl⟩ := List.mem_map.1 hy
      exact flat_line (hps p hp)
    simp only [List.mem_append] at hx
    rcases hx with ((((((((hx | hx) | hx) | hx) | hx) | hx) | hx) | hx) | hx) | hx
    · revert x
      decide +kernel
    · obtain ⟨i, hm, rfl⟩ := List.mem_map.1 hx
      have := hi i hm
      unfold includeLine
      flat_text
    · rw [List.mem_singleton.1 hx]
      decide
    · exact flat_commentHeader (by decide +kernel) x hx
    · rw [List.mem_singleton.1 hx]
      decide
    · exact flat_commentHeader (by decide +kernel) x hx
    · exact hl _ hp1 x hx
    · rw [List.mem_singleton.1 hx]
      decide
    · exact hl _ hp2 x hx
    · exact hl _ hp3 x hx

/-- The header of the callbacks, read. -/
theorem readCbHeader_text (h : GenCbHeader) (hg : CIdent h.guard) (hp : ∀ p ∈ h.protos, p.Words) :
    readHeader h.text = some (h.guard, h.protos) := by
  have hskip : ∀ l ∈ ([] :: (commentHeader "INCLUDES".toList ++ [includeLine "Rte_Type.h".toList, []] ++
      commentHeader "FUNCTION PROTOTYPES".toList) : List Str), cSkipped l = true := by
    intro l hl
    simp only [List.mem_append, List.mem_cons, List.not_mem_nil, or_false] at hl
    rcases hl with rfl | ((hl | (rfl | rfl)) | hl)
    · rfl
    · exact skip_commentHeader _ l hl
    · exact skip_include _
    · rfl
    · exact skip_commentHeader _ l hl
  unfold readHeader GenCbHeader.text
  rw [cLines_fileText, readGuard_guarded _ hg, Option.bind_some]
  · show (readProtos ([] :: (commentHeader "INCLUDES".toList ++ [includeLine "Rte_Type.h".toList, []] ++
      commentHeader "FUNCTION PROTOTYPES".toList ++ h.protos.map CProto.line) ++ [[]])).map _ = _
    have e : ([] :: (commentHeader "INCLUDES".toList ++ [includeLine "Rte_Type.h".toList, []] ++
        commentHeader "FUNCTION PROTOTYPES".toList ++ h.protos.map CProto.line) ++ [[]] : List Str) =
        ([] :: (commentHeader "INCLUDES".toList ++ [includeLine "Rte_Type.h".toList, []] ++
        commentHeader "FUNCTION PROTOTYPES".toList)) ++ (h.protos.map CProto.line ++ [[]]) := by
      simp only [List.append_assoc, List.cons_append, List.nil_append]
    rw [e, readProtos_skips _ _ hskip, readProtos_lines _ _ hp]
    show some _ = _
    simp only [List.append_nil]
  · apply flat_guarded (flat_word hg.1)
    intro x hx
    simp only [List.mem_append] at hx
    rcases hx with ((hx | hx) | hx) | hx
    · exact flat_commentHeader (by decide +kernel) x hx
    · revert x
      decide +kernel
    · exact flat_commentHeader (by decide +kernel) x hx
    · obtain ⟨p, hm, rfl⟩ := List.mem_map.1 hx
      exact flat_line (hp p hm)

theorem guard_ident {name : Str} (h : WordChars name) (e : Str) (he : WordChars e) (hl : e.getLast? = some 'H') :
    CIdent (macroName (prefixedName name) ++ e) := by
  have hm : macroName (prefixedName name) = "APXNODE_".toList ++ macroName name := by
    have : "ApxNode_".toList.map Char.toUpper = "APXNODE_".toList := by decide +kernel
    unfold macroName prefixedName
    rw [List.map_append, this]
  rw [hm, List.append_assoc]
  have hw : WordChars (macroName name ++ e) := by
    intro c hc
    rcases List.mem_append.1 hc with hc | hc
    · exact macroName_words h c hc
    · exact he c hc
  refine ⟨cWord_append (by decide +kernel) hw, ?_, ?_⟩
  · have : ("APXNODE_".toList ++ (macroName name ++ e)).head? = some 'A' := by
      have e : "APXNODE_".toList = 'A' :: "PXNODE_".toList := by decide +kernel
      rw [e]
      rfl
    rw [this]
    decide +kernel
  · intro hk
    have : ∀ s ∈ cKeywords, s.getLast? ≠ some 'H' := by decide +kernel
    refine this _ hk ?_
    rw [List.getLast?_append, List.getLast?_append, hl]
    rfl

/-- C105: the text of the header file, and that of the header of the callbacks, read by the rules of C, is a guarded list of
exactly the declarations that are meant. -/
theorem C105_headers_partial (n : Node) (g : Generated) (hg : generate n = .ok g) (old : Option Str) (o : GenOptions) (f : GenFiles)
    (hf : genFiles old o g = .ok f) (hn : GenNames old o g) (hi : ∀ i ∈ o.includes, '\n' ∉ i) :
    readHeader f.header.text = some (f.header.guard, f.header.protos) ∧
      ∀ c, f.callbacks = some c → readHeader c.2.text = some (c.2.guard, c.2.protos) := by
  have hname := hn.name.1.2
  have hsig := generate_signals hg
  obtain ⟨rs, ps, cbs, c, rd, wd, k1, k2, k3, k4, k5, k6, k7, k8, k9, k10, k11⟩ := genFiles_parts hf
  have hcb := cbPort_names hn hsig.1 k3
  constructor
  · apply readHeader_text
    · rw [k8]
      exact guard_ident hname _ (show CWord _ by decide +kernel).2 (by decide +kernel)
    · rw [k8]
      exact hi
    · rw [k8]
      intro p hp
      unfold GenHeader.protos mkHeader at hp
      simp only [List.mem_append, List.mem_cons, List.not_mem_nil, or_false] at hp
      rcases hp with ((rfl | rfl | rfl) | (hp | hp)) | hp
      · exact words_noParams (by decide +kernel) (by decide +kernel) (by decide +kernel) hname
      · exact words_noParams (by decide +kernel) (by decide +kernel) (by decide +kernel) hname
      · exact words_noParams (by decide +kernel) (by decide +kernel) (by decide +kernel) hname
      · obtain ⟨x, hx, rfl⟩ := List.mem_map.1 hp
        obtain ⟨q, hq1, -, hq2⟩ := (protos_mem k1).2 x hx
        have := hn.ports q (List.mem_append.2 (.inl hq1))
        exact proto_words _ q _ (.inl hq2) hname this.name this.type
      · obtain ⟨x, hx, rfl⟩ := List.mem_map.1 hp
        obtain ⟨q, hq1, -, hq2⟩ := (protos_mem k2).2 x hx
        have := hn.ports q (List.mem_append.2 (.inr hq1))
        exact proto_words _ q _ (.inr hq2) hname this.name this.type
      · split at hp
        · rw [List.mem_singleton.1 hp]
          exact words_notify (notify_ident hn.name)
        · cases hp
  · intro x hx
    rw [k11] at hx
    split at hx
    · cases hx
      apply readCbHeader_text
      · exact guard_ident hname _ (show CWord _ by decide +kernel).2 (by decide +kernel)
      · intro p hp
        obtain ⟨y, hy, e⟩ := List.mem_filterMap.1 hp
        rw [(sortedByKey_perm _ _).mem_iff] at hy
        unfold CbPort.proto at e
        obtain ⟨z, hz, rfl⟩ := Option.map_eq_some_iff.1 e
        refine ⟨(hcb y hy).2.2 z hz, .inr rfl, ?_⟩
        intro w hw
        rw [List.mem_singleton.1 hw]
        exact ⟨show CIdent "value".toList by decide +kernel, .inl (hcb y hy).2.1⟩
    · cases hx

/-- C105: if ports of one direction have distinct names and the callbacks are apart from the generated functions, the
functions with texts in the source file are those declared in the text of the header, in the same order and with the same
heads. -/
theorem C105_declared_partial (n : Node) (g : Generated) (hg : generate n = .ok g) (o : GenOptions) (f : GenFiles)
    (hf : genFiles none o g = .ok f) (hn : GenNames none o g) (hi : ∀ i ∈ o.includes, '\n' ∉ i)
    (hr : (g.node.requires.map Port.name).Nodup) (hp : (g.node.provides.map Port.name).Nodup)
    (hcb : ∀ cb, o.callbacks = some cb → CallbacksApart o g f cb) :
    ∃ u guard ps, readSource f.source.text = some u ∧ readHeader f.header.text = some (guard, ps) ∧
      (u.filterMap CItem.function).map Prod.fst = ps := by
  refine ⟨f.source.items, _, _, readSource_text _ (source_names n g hg none o f hf hn),
    (C105_headers_partial n g hg none o f hf hn hi).1, ?_⟩
  rw [items_functions, List.map_map]
  exact (C88_fit_partial n g hg o f hf hr hp hcb).defined

/-! ### Names that cannot be used in C -/

theorem readHead_ident {ts : List CTok} {x : CProto × List CTok} (h : readHead ts = some x) : CIdent x.1.name := by
  unfold readHead at h
  simp only [Option.bind_eq_bind] at h
  obtain ⟨⟨t, ts'⟩, -, h⟩ := Option.bind_eq_some_iff.1 h
  dsimp only at h
  split at h
  · split at h
    · rename_i hi
      split at h
      · cases h
        exact hi
      · obtain ⟨y, -, h⟩ := Option.bind_eq_some_iff.1 h
        cases h
        exact hi
    · cases h
  · cases h

theorem readProtos_ident : ∀ {ls : List Str} {ps : List CProto}, readProtos ls = some ps → ∀ p ∈ ps, CIdent p.name
  | [], ps, h, p, hp => by
    cases h
    cases hp
  | l :: ls, ps, h, p, hp => by
    rw [readProtos] at h
    split at h
    · exact readProtos_ident h p hp
    · obtain ⟨x, hx, h⟩ := Option.bind_eq_some_iff.1 h
      split at h
      · obtain ⟨r, hr, rfl⟩ := Option.map_eq_some_iff.1 h
        rcases List.mem_cons.1 hp with rfl | hp
        · exact readHead_ident hx
        · exact readProtos_ident hr p hp
      · cases h

/-- Whatever is read from a header has identifiers for names. -/
theorem readHeader_ident {text guard : Str} {ps : List CProto} (h : readHeader text = some (guard, ps)) : ∀ p ∈ ps, CIdent p.name := by
  unfold readHeader at h
  obtain ⟨x, -, h⟩ := Option.bind_eq_some_iff.1 h
  obtain ⟨q, hq, h⟩ := Option.map_eq_some_iff.1 h
  cases h
  exact readProtos_ident hq

/-- The head of the function one is in is made of identifiers. -/
def CPlace.Ident : CPlace → Prop
  | .head p => CIdent p.name
  | .body p _ => CIdent p.name
  | _ => True

/-- The head of a function is made of identifiers. -/
def CItem.Ident : CItem → Prop
  | .func p _ => CIdent p.name
  | _ => True

theorem readDecl_ident {ts : List CTok} : (∀ p, readDecl ts = some (.inl p) → p.Ident) ∧ (∀ i, readDecl ts = some (.inr i) → i.Ident) := by
  have hs : (∀ p, ∀ ts, readStatic ts = some (.inl p) → p.Ident) ∧ (∀ i, ∀ ts, readStatic ts = some (.inr i) → i.Ident) := by
    constructor
    · intro p ts h
      unfold readStatic at h
      split at h <;> (first | cases h | (split at h <;> (first | (cases h; trivial) | cases h)))
    · intro p ts h
      unfold readStatic at h
      split at h <;> (first | cases h | (split at h <;> (first | (cases h; trivial) | cases h)))
  constructor
  · intro p h
    unfold readDecl at h
    split at h
    · split at h
      · split at h
        · obtain ⟨v, -, h⟩ := Option.map_eq_some_iff.1 h
          cases h
        · cases h
      · cases h
    · split at h
      · exact hs.1 p _ h
      · obtain ⟨x, hx, h⟩ := Option.bind_eq_some_iff.1 h
        split at h
        · cases h
          exact readHead_ident hx
        · cases h
  · intro p h
    unfold readDecl at h
    split at h
    · split at h
      · split at h
        · obtain ⟨v, -, h⟩ := Option.map_eq_some_iff.1 h
          cases h
          trivial
        · cases h
      · cases h
    · split at h
      · exact hs.2 p _ h
      · obtain ⟨x, hx, h⟩ := Option.bind_eq_some_iff.1 h
        split at h <;> cases h

theorem readItems_ident : ∀ (ls : List Str) (pl : CPlace) (u : List CItem), pl.Ident → readItems pl ls = some u → ∀ i ∈ u, i.Ident
  | [], pl, u, hp, h => by
    cases pl <;> cases h
    intro i hi
    cases hi
  | l :: ls, pl, u, hp, h => by
    have add : ∀ {i : CItem}, i.Ident → ∀ {u : List CItem}, (readItems .top ls).map (fun r => i :: r) = some u → ∀ j ∈ u, j.Ident := by
      intro i hi u h j hj
      obtain ⟨r, hr, rfl⟩ := Option.map_eq_some_iff.1 h
      rcases List.mem_cons.1 hj with rfl | hj
      · exact hi
      · exact readItems_ident ls .top r trivial hr j hj
    cases pl with
    | top =>
      rw [readItems] at h
      split at h
      · exact readItems_ident ls .top u trivial h
      · split at h
        · rename_i p e
          exact readItems_ident ls p u (readDecl_ident.1 p e) h
        · rename_i i e
          exact add (readDecl_ident.2 i e) h
        · cases h
    | numbers n s ts =>
      rw [readItems] at h
      split at h
      · obtain ⟨x, -, h⟩ := Option.bind_eq_some_iff.1 h
        exact add (i := .array n s (some x)) trivial h
      · exact readItems_ident ls (.numbers n s (ts ++ lexC l)) u trivial h
    | literals n text =>
      rw [readItems] at h
      split at h
      · exact add (i := .literal n (text ++ l)) trivial h
      · exact readItems_ident ls (.literals n (text ++ l ++ ['\n'])) u trivial h
    | head p =>
      rw [readItems] at h
      split at h
      · exact readItems_ident ls (.body p []) u hp h
      · cases h
    | body p lines =>
      rw [readItems] at h
      split at h
      · exact add (i := .func p lines) hp h
      · exact readItems_ident ls (.body p (lines ++ [l])) u hp h

/-- C105 is violated by names that cannot be used in C, which the parser and the generator let pass: if the name under which
the code is generated has a character other than letters, digits and underscores (a blank, say), neither the text of the
header nor that of the source says what it is meant to say. -/
theorem C105_names_violated (old : Option Str) (o : GenOptions) (g : Generated) (f : GenFiles) (hf : genFiles old o g = .ok f)
    (c : Char) (hc : c ∈ o.nameFor g.node) (hw : cWordChar c = false) :
    (∀ guard, readHeader f.header.text ≠ some (guard, f.header.protos)) ∧
    ∀ u, readSource f.source.text = some u → u.filterMap CItem.function ≠ f.source.defs.map fun d => (d.proto, d.body.lines) := by
  obtain ⟨rs, ps, cbs, code, rd, wd, k1, k2, k3, k4, k5, k6, k7, k8, k9, k10, k11⟩ := genFiles_parts hf
  have hno : ¬ CIdent (initProto (o.nameFor g.node)).name := by
    intro h
    have := h.1.2 c (List.mem_append.2 (.inr hc))
    rw [hw] at this
    cases this
  constructor
  · intro guard h
    refine hno (readHeader_ident h _ ?_)
    rw [k8]
    simp [GenHeader.protos, mkHeader]
  · intro u hu e
    have hm : (initProto (o.nameFor g.node), (CBody.init (initBody g.node.name g.inLen g.outLen o.flags code.handler)).lines) ∈
        u.filterMap CItem.function := by
      rw [e]
      refine List.mem_map.2 ⟨⟨initProto (o.nameFor g.node), .init (initBody g.node.name g.inLen g.outLen o.flags code.handler)⟩, ?_, rfl⟩
      rw [k10]
      simp
    obtain ⟨i, hi, e⟩ := List.mem_filterMap.1 hm
    have hid := readItems_ident _ .top u trivial hu i hi
    cases i with
    | func p ls =>
      cases e
      exact hno hid
    | _ => cases e

/-! ### Examples -/

/-- `GenNames` for options without an earlier handler, checked. -/
def genNamesCheck (o : GenOptions) (g : Generated) : Bool :=
  decide (CIdent g.node.name) && decide (CIdent (o.nameFor g.node)) &&
  ((g.node.requires ++ g.node.provides).all fun p => decide (∀ c ∈ p.name, cWordChar c = true) &&
    (match p.elem.ctypename with
      | .ok t => decide (CIdent t)
      | .error _ => true) &&
    (match (do let e ← p.elem.resolveType g.node.named; e.resolveDataElement) with
      | .ok d => decide (d.CNames o.suffix)
      | .error _ => true)) &&
  (o.callbacks.all fun cb => g.node.requires.all fun p => (cb p.name).all fun f => decide (CIdent f))

theorem genNamesCheck_ok {o : GenOptions} {g : Generated} (h : genNamesCheck o g = true) : GenNames none o g := by
  unfold genNamesCheck at h
  simp only [Bool.and_eq_true] at h
  obtain ⟨⟨⟨h1, h2⟩, h3⟩, h4⟩ := h
  refine ⟨of_decide_eq_true h1, of_decide_eq_true h2, fun x hx => (by cases hx), ?_, ?_⟩
  · intro p hp
    have := List.all_eq_true.1 h3 p hp
    simp only [Bool.and_eq_true] at this
    obtain ⟨⟨a1, a2⟩, a3⟩ := this
    refine ⟨fun c hc => of_decide_eq_true a1 c hc, ?_, ?_⟩
    · intro t ht
      rw [ht] at a2
      exact of_decide_eq_true a2
    · intro e d he hd
      rw [he, ok_bind, hd] at a3
      exact of_decide_eq_true a3
  · intro cb hcb p hp f hfn
    rw [hcb] at h4
    have h4 := List.all_eq_true.1 h4 p hp
    rw [hfn] at h4
    exact of_decide_eq_true h4

/-- What is asked by C105, for the node with callbacks of C88. -/
def guCheck (o : GenOptions) (cb : Str → Option Str) : Bool :=
  match generate gfNode with
  | .ok g => gfCheck (genFiles none o g) fun f => genNamesCheck o g &&
      decide ((∀ p ∈ g.node.requires, (cb p.name).isSome → CIdent p.name) ∧ (∃ s ∈ g.require, (cb s.name).isSome) ∧
        (∀ s ∈ g.require, 0 < s.packLen) ∧ (g.require.map fun s => macroName s.name).Nodup ∧ (∀ i ∈ o.includes, '\n' ∉ i) ∧
        (g.node.requires.map Port.name).Nodup ∧ (g.node.provides.map Port.name).Nodup ∧ o.nameFor g.node = g.node.name ∧ 0 < g.inLen ∧
        ((g.node.requires.map Port.name).filterMap cb).Nodup ∧
        ∀ p ∈ g.node.requires, ∀ x ∈ (cb p.name).toList, x ∉ f.header.protos.map CProto.name)
  | .error _ => false

/-- Options with callbacks, a suffix and a file to include. -/
def guOptions : GenOptions := { callbacks := some gfCb, suffix := "_RE".toList, includes := ["Rte_Type.h".toList] }

example : guCheck guOptions gfCb = true := by decide +kernel

example : ∃ g f, generate gfNode = .ok g ∧ genFiles none guOptions g = .ok f ∧ GenNames none guOptions g := by
  have h : guCheck guOptions gfCb = true := by decide +kernel
  unfold guCheck at h
  split at h
  · rename_i g hg
    obtain ⟨f, hf, h⟩ := gfCheck_ok h
    exact ⟨g, f, hg, hf, genNamesCheck_ok (Bool.and_eq_true _ _ ▸ h).1⟩
  · cases h

/-- The text of the source of this node, read. -/
def guUnit : Option (List CItem) :=
  match generateFiles guOptions gfNode with
  | .ok f => readSource f.source.text
  | .error _ => none

-- the functions of the file
example : (guUnit.map fun u => (u.filterMap CItem.function).map fun x => x.1.name) =
    some ["ApxNode_Init_N".toList, "ApxNode_GetNodeData_N".toList, "ApxNode_IsConnected_N".toList, "ApxNode_Read_N_Q".toList,
      "ApxNode_Read_N_R".toList, "ApxNode_Read_N_U".toList, "ApxNode_Write_N_P".toList, "ApxNode_Write_N_Q".toList,
      "N_inPortDataWritten".toList] := by decide +kernel

/-- The data of received signals after a call of the first function. -/
def guInit : Option (Bytes × Option CNodeData) :=
  guUnit.bind fun u => (u.filterMap CItem.function).head?.bind fun x =>
    (cCall u x.2 ⟨fun a => List.replicate ((arraySize u a).getD 0) 0xff, .missing, none⟩).map fun m => (m.bytes "m_inPortdata".toList, m.node)

example : decide (guInit.map Prod.fst = some [3, 0, 4, 0, 1, 1, 2, 0]) = true := by decide +kernel

example : decide (((guInit.bind Prod.snd).bind CNodeData.handler) = some "N_inPortDataWritten".toList) = true := by decide +kernel

/-- What the function that is told of received data does. -/
def guCall (off len : Nat) : Option (List CDataCall) :=
  guUnit.bind fun u => ((u.filterMap CItem.function).getLast?.bind fun x => readSwitch x.2).bind fun d => d.call u off len

-- all the data, then only that of the second port
example : guCall 0 8 = some [⟨"ApxNode_Read_N_Q".toList, true, ['Q'], true⟩, ⟨"onQ".toList, true, ['Q'], true⟩,
    ⟨"ApxNode_Read_N_R".toList, true, ['R'], false⟩, ⟨"onR".toList, true, ['R'], false⟩] ∧
  guCall 4 3 = some [⟨"ApxNode_Read_N_R".toList, true, ['R'], false⟩, ⟨"onR".toList, true, ['R'], false⟩] := by
  constructor <;> decide +kernel

/-- A name with a blank: the node is accepted and code is generated for it. -/
example : (match generateFiles { name := some ['a', ' ', 'b'] } gfNode with
    | .ok f => decide (readHeader f.header.text = none ∧ readSource f.source.text = none)
    | .error _ => false) = true ∧ cWordChar ' ' = false := by decide +kernel

end Apx
