import Verif.Proofs.CUnitFile

/-!
C105: the text of a generated source file, read by the rules of C.
-/

namespace Apx

/-- The names from which the files are made can be used in C: those of the node, of the ports with their types and
members, and of the callbacks. `old` is the name of the handler left from an earlier use of the generator. -/
structure GenNames (old : Option Str) (o : GenOptions) (g : Generated) : Prop where
  node : CIdent g.node.name
  name : CIdent (o.nameFor g.node)
  old : ∀ x, old = some x → CIdent x
  ports : ∀ p ∈ g.node.requires ++ g.node.provides, p.CNamed g.node.named o.suffix
  callbacks : ∀ cb, o.callbacks = some cb → ∀ p ∈ g.node.requires, ∀ f, cb p.name = some f → CIdent f

theorem flat_escape : ∀ s : Str, Flat s → Flat (escapeQuotes s)
  | [], _ => by decide
  | c :: s, h => by
    have hc : c ≠ '\n' := fun e => h (by rw [e]; exact List.mem_cons_self ..)
    have ih := flat_escape s (fun hm => h (List.mem_cons_of_mem _ hm))
    unfold escapeQuotes
    split
    · exact flat_cons (by decide) (flat_cons (by decide) ih)
    · exact flat_cons hc ih

theorem literal_lines (text : Str) : ∃ l, definitionLiteral text = joinLines l ++ [';'] ∧ ∀ x ∈ l, Flat x ∧ x.getLast? ≠ some ';' := by
  refine ⟨(splitOn '\n' text).map literalLine, rfl, ?_⟩
  intro x hx
  obtain ⟨y, hy, rfl⟩ := List.mem_map.1 hx
  refine ⟨flat_cons (by decide) (flat_append (flat_escape y (splitOn_oneLiners text y hy)) (by decide)), ?_⟩
  have : literalLine y = ('"' :: escapeQuotes y ++ ['\\', 'n']) ++ ['"'] := by simp [literalLine]
  rw [this, List.getLast?_concat]
  decide

theorem notify_ident {name : Str} (h : CIdent name) : CIdent (notifyName name) := by
  obtain ⟨⟨h1, h2⟩, h3, -⟩ := h
  unfold notifyName
  refine ⟨cWord_append ⟨h1, h2⟩ (fun c hc => (by decide +kernel : ∀ c ∈ "_inPortDataWritten".toList, cWordChar c = true) c hc), ?_, ?_⟩
  · cases name with
    | nil => exact absurd rfl h1
    | cons c s => exact h3
  · intro hm
    have hl : ∀ s ∈ cKeywords, s.length < 18 := by decide +kernel
    have := hl _ hm
    rw [List.length_append] at this
    have h2 : "_inPortDataWritten".toList.length = 18 := by decide +kernel
    omega

theorem words_notify {name : Str} (h : CIdent name) : (notifyProto name).Words := by
  refine ⟨h, ?_, ?_⟩
  · exact (by decide +kernel : CTypeName "void".toList)
  · intro x hx
    simp only [notifyProto, List.mem_cons, List.not_mem_nil, or_false] at hx
    have key : ∀ (n t : Str) (b : Bool), CIdent n → CTypeName t → CIdent (⟨n, ⟨t, b⟩⟩ : CParam).name ∧ (⟨n, ⟨t, b⟩⟩ : CParam).type.Words :=
      fun n t b h1 h2 => ⟨h1, h2⟩
    rcases hx with rfl | rfl | rfl | rfl
    · exact key _ _ _ (by decide +kernel) (by decide +kernel)
    · exact key _ _ _ (by decide +kernel) (by decide +kernel)
    · exact key _ _ _ (by decide +kernel) (by decide +kernel)
    · exact key _ _ _ (by decide +kernel) (by decide +kernel)

theorem words_noParams {pre name base : Str} {b : Bool} (h1 : CWord pre) (h2 : pre.take 8 = "ApxNode_".toList) (h3 : CTypeName base)
    (hn : WordChars name) : (⟨pre ++ name, ⟨base, b⟩, []⟩ : CProto).Words :=
  ⟨prefixed_ident pre name h1 h2 hn, h3, fun x hx => (by cases hx)⟩

/-- What is known of the entries of callbacks. -/
theorem cbPort_names {old : Option Str} {o : GenOptions} {g : Generated} (hn : GenNames old o g)
    (hsig : ∀ s ∈ g.require, ∃ p ∈ g.node.requires, s.name = p.name ∧ s.elem = p.elem) {cbs : List CbPort} (h : cbPortsOf o g = .ok cbs) :
    ∀ c ∈ cbs, WordChars c.entry.name ∧ CIdent c.typename ∧ ∀ f, c.entry.callback = some f → CIdent f := by
  intro c hc
  unfold cbPortsOf at h
  split at h
  · cases h
    cases hc
  · rename_i cb hcb
    obtain ⟨-, hm⟩ := mkCbPorts_mem h
    obtain ⟨s, hs, hmk⟩ := hm c hc
    obtain ⟨p, hp, e1, e2⟩ := hsig s hs
    have hp' := hn.ports p (List.mem_append.2 (.inl hp))
    unfold mkCbPort at hmk
    obtain ⟨t, ht, hmk⟩ := bind_ok_iff.1 hmk
    obtain ⟨d, -, hmk⟩ := bind_ok_iff.1 hmk
    obtain ⟨b, -, hmk⟩ := bind_ok_iff.1 hmk
    cases hmk
    refine ⟨?_, ?_, ?_⟩
    · show WordChars s.name
      rw [e1]
      exact hp'.name
    · exact hp'.type t (by rw [← e2]; exact ht)
    · intro f hf
      exact hn.callbacks cb hcb p hp f (by rw [← e1]; exact hf)

/-- The entries of the callback code are those of the ports. -/
theorem code_start {old : Option Str} {o : GenOptions} {g : Generated} {c : CallbackCode}
    (h : ((⟨[], [], [], old⟩ : GenState).generate g o.name o.callbacks).2 = .ok c) {p : Str} (hp : c.start = some p) :
    ∃ s ∈ g.require, s.name = p := by
  unfold GenState.generate at h
  split at h
  · cases h
    cases hp
  · rename_i cb hcb
    dsimp only at h
    split at h
    · cases h
    · cases h
      simp only [startName, Option.bind_eq_some_iff] at hp
      obtain ⟨e, he, hp⟩ := hp
      have hm := List.mem_of_find?_eq_some he
      rw [(sortedByKey_perm _ _).mem_iff, List.nil_append] at hm
      obtain ⟨s, hs, rfl⟩ := List.mem_map.1 hm
      split at hp
      · cases hp
        exact ⟨s, hs, rfl⟩
      · cases hp

theorem switch_names (name : Str) (hn : WordChars name) (isCase : CbEntry → Bool) (last : Nat) : ∀ (l : List CbPort) (w : Bool),
    (∀ c ∈ l, WordChars c.entry.name ∧ CIdent c.typename ∧ ∀ f, c.entry.callback = some f → CIdent f) →
    ∀ i ∈ switchItems name isCase last w l, i.Names
  | [], _, _, i, hi => by cases hi
  | c :: l, w, h, i, hi => by
    have hc := h c (by simp)
    simp only [switchItems, List.mem_append] at hi
    rcases hi with (hi | hi) | hi
    · split at hi
      · rw [List.mem_singleton.1 hi]
        exact hc.1
      · cases hi
    · split at hi
      · rw [List.mem_singleton.1 hi]
        refine ⟨hc.1, ?_⟩
        intro x hx
        unfold CbPort.calls at hx
        split at hx
        · cases hx
        · rename_i f hf
          simp only [List.mem_cons, List.not_mem_nil, or_false] at hx
          rcases hx with rfl | rfl
          · refine ⟨?_, hc.1⟩
            show CIdent ("ApxNode_Read_".toList ++ name ++ ('_' :: c.entry.name))
            rw [List.append_assoc]
            refine prefixed_ident _ _ (by decide +kernel) (by decide +kernel) ?_
            intro d hd
            rcases List.mem_append.1 hd with hd | hd
            · exact hn d hd
            · rcases List.mem_cons.1 hd with rfl | hd
              · decide +kernel
              · exact hc.1 d hd
          · exact ⟨hc.2.2 f hf, hc.1⟩
      · cases hi
    · exact switch_names name hn isCase last l _ (fun x hx => h x (List.mem_cons_of_mem _ hx)) i hi

theorem generate_signals {n : Node} {g : Generated} (hg : generate n = .ok g) :
    (∀ s ∈ g.require, ∃ p ∈ g.node.requires, s.name = p.name ∧ s.elem = p.elem) ∧
      (∀ s ∈ g.provide, ∃ p ∈ g.node.provides, s.name = p.name ∧ s.elem = p.elem) := by
  obtain ⟨n', h1, h2⟩ := bind_ok_iff.mp hg
  obtain ⟨rs', h3, h2⟩ := bind_ok_iff.mp h2
  obtain ⟨ps', h4, h2⟩ := bind_ok_iff.mp h2
  obtain ⟨ib, h5, h2⟩ := bind_ok_iff.mp h2
  obtain ⟨ob, h6, h2⟩ := bind_ok_iff.mp h2
  simp only [Except.ok.injEq] at h2
  rw [← h2]
  exact ⟨genSignals_port _ _ _ _ _ h3, genSignals_port _ _ _ _ _ h4⟩

/-- The names in the source file can be used in C. -/
theorem source_names (n : Node) (g : Generated) (hg : generate n = .ok g) (old : Option Str) (o : GenOptions) (f : GenFiles)
    (hf : genFiles old o g = .ok f) (hn : GenNames old o g) : f.source.Names := by
  have hname := hn.name.1.2
  have hsig := generate_signals hg
  have hparts := genFiles_parts hf
  obtain ⟨s1, s2, s3, s4, s5, s6⟩ := genFiles_source hf
  obtain ⟨rs, ps, cbs, c, rd, wd, k1, k2, k3, k4, k5, k6, k7, k8, k9, k10, k11⟩ := hparts
  have hcb := cbPort_names hn hsig.1 k3
  refine ⟨?_, ?_, ?_, ?_, ?_⟩
  · have : f.source.nodeName = g.node.name := by
      unfold genFiles at hf
      simp only [bind_ok_iff, Except.ok.injEq] at hf
      obtain ⟨_, _, _, _, _, _, _, _, _, _, _, _, _, _, rfl⟩ := hf
      rfl
    rw [this]
    exact hn.node.1.2
  · have hp : Flat (prefixedName (o.nameFor g.node)) := flat_append (by decide +kernel) (flat_word hn.name.1)
    rw [k9]
    intro i hi
    simp only [List.mem_append, List.mem_cons, List.not_mem_nil, or_false] at hi
    rcases hi with (rfl | hi) | rfl
    · flat_text
    · split at hi
      · rw [List.mem_singleton.1 hi]
        flat_text
      · cases hi
    · decide +kernel
  · have : f.source.macros = if o.callbacks.isSome then some (mkMacros (cbs.map CbPort.entry)) else none := by
      unfold genFiles at hf
      simp only [bind_ok_iff, Except.ok.injEq] at hf
      obtain ⟨_, _, _, _, cbs', h3, _, _, _, _, _, _, _, _, rfl⟩ := hf
      rw [k3] at h3
      cases h3
      rfl
    rw [this]
    intro m hm x hx
    split at hm
    · cases hm
      have key : ∀ (key : CbEntry → Nat) (h : CbEntry → Str × Nat), (∀ e, (h e).1 = e.name) →
          ∀ x ∈ (sortedByKey key (cbs.map CbPort.entry)).map h, WordChars x.1 := by
        intro key h he x hx
        obtain ⟨e, hm, rfl⟩ := List.mem_map.1 hx
        rw [(sortedByKey_perm _ _).mem_iff] at hm
        obtain ⟨c, hc, rfl⟩ := List.mem_map.1 hm
        rw [he]
        exact (hcb c hc).1
      rcases List.mem_append.1 hx with hx | hx
      · exact key _ _ (fun e => rfl) x hx
      · exact key _ _ (fun e => rfl) x hx
    · cases hm
  · unfold emitDefinition at s6
    obtain ⟨text, -, s6⟩ := bind_ok_iff.1 s6
    rw [← (Prod.mk.inj (Except.ok.inj s6)).1]
    exact literal_lines text
  · intro d hd
    rw [k10] at hd
    simp only [List.mem_append, List.mem_cons, List.not_mem_nil, or_false] at hd
    rcases hd with (((rfl | rfl | rfl) | hd) | hd) | hd
    · refine ⟨words_noParams (by decide +kernel) (by decide +kernel) (by decide +kernel) hname, ?_⟩
      intro s hs
      have hh := (callbackCode_eq k4).2
      have hhandler : ∀ x, c.handler = some x → CIdent x := by
        intro x hx
        rw [hh] at hx
        split at hx
        · cases hx
          exact notify_ident hn.node
        · cases hx
      simp only [initBody, List.mem_append, List.mem_cons, List.not_mem_nil, or_false] at hs
      rcases hs with ((((hs | hs) | hs) | rfl) | hs) | rfl
      · split at hs
        · rw [List.mem_singleton.1 hs]
          trivial
        · cases hs
      · split at hs
        · rcases List.mem_cons.1 hs with rfl | hs
          · trivial
          · split at hs
            · rw [List.mem_singleton.1 hs]
              trivial
            · cases hs
        · cases hs
      · split at hs
        · simp only [List.mem_cons, List.not_mem_nil, or_false] at hs
          rcases hs with rfl | rfl <;> trivial
        · cases hs
      · exact hn.node.1
      · split at hs
        · rename_i x hx
          simp only [List.mem_cons, List.not_mem_nil, or_false] at hs
          rcases hs with rfl | rfl | rfl
          · trivial
          · exact hhandler x hx
          · trivial
        · cases hs
      · trivial
    · exact ⟨words_noParams (by decide +kernel) (by decide +kernel) (by decide +kernel) hname, trivial⟩
    · exact ⟨words_noParams (by decide +kernel) (by decide +kernel) (by decide +kernel) hname, trivial⟩
    · obtain ⟨p, hp1, c', len, h1, h2, h3⟩ := portDefs_mem k5 d hd
      obtain ⟨x, hx1, hx2⟩ := protoNamed_mem h1
      obtain ⟨q, hq1, -, hq2⟩ := (protos_mem k1).2 x hx1
      rw [hx2] at hq2
      have := hn.ports q (List.mem_append.2 (.inl hq1))
      refine ⟨proto_words _ q d.proto (.inl hq2) hname this.name this.type, ?_⟩
      rw [h3]
      unfold readFunc at h2
      split at h2
      · cases h2
      · rename_i s hs
        have hs' : s ∈ g.require := by simpa using List.mem_of_find?_eq_some hs
        obtain ⟨q, hq1, -, hq2⟩ := hsig.1 s hs'
        obtain ⟨e1, dd, r1, r2⟩ := genFunc_resolved h2
        exact funcLines_ok _ _ _ _ _ _ _ _ e1 dd r1 r2
          ((hn.ports q (List.mem_append.2 (.inl hq1))).members e1 dd (by rw [← hq2]; exact r1) r2) _ _ h2
    · obtain ⟨p, hp1, c', len, h1, h2, h3⟩ := portDefs_mem k6 d hd
      obtain ⟨x, hx1, hx2⟩ := protoNamed_mem h1
      obtain ⟨q, hq1, -, hq2⟩ := (protos_mem k2).2 x hx1
      rw [hx2] at hq2
      have := hn.ports q (List.mem_append.2 (.inr hq1))
      refine ⟨proto_words _ q d.proto (.inr hq2) hname this.name this.type, ?_⟩
      rw [h3]
      unfold writeFunc at h2
      split at h2
      · cases h2
      · rename_i s hs
        have hs' : s ∈ g.provide := by simpa using List.mem_of_find?_eq_some hs
        obtain ⟨q, hq1, -, hq2⟩ := hsig.2 s hs'
        obtain ⟨b, -, h2⟩ := bind_ok_iff.1 h2
        obtain ⟨e1, dd, r1, r2⟩ := genFunc_resolved h2
        exact funcLines_ok _ _ _ _ _ _ _ _ e1 dd r1 r2
          ((hn.ports q (List.mem_append.2 (.inr hq1))).members e1 dd (by rw [← hq2]; exact r1) r2) _ _ h2
    · have hc := (callbackCode_eq k4).1
      unfold notifyDefs at hd
      split at hd
      · cases hd
      · rename_i x hx
        rw [List.mem_singleton.1 hd]
        have hid : CIdent x := by
          rw [hc] at hx
          unfold notifyAfter at hx
          split at hx
          · cases hx
            exact notify_ident hn.name
          · exact hn.old x hx
        refine ⟨words_notify hid, ?_⟩
        show (notifyBody _ _ _ _).Names
        unfold notifyBody
        split
        · refine ⟨?_, ?_, ?_⟩
          · intro m hm
            unfold cbMembers at hm
            rw [(sortedByName_perm _ _).mem_iff] at hm
            obtain ⟨y, hy, hm⟩ := List.mem_filterMap.1 hm
            unfold CbPort.member at hm
            split at hm
            · cases hm
              exact ⟨(hcb y hy).1, (hcb y hy).2.1⟩
            · cases hm
          · intro p hp
            obtain ⟨s, hs, rfl⟩ := code_start k4 hp
            obtain ⟨q, hq, e, -⟩ := hsig.1 s hs
            rw [e]
            exact (hn.ports q (List.mem_append.2 (.inl hq))).name
          · refine switch_names _ hname _ _ _ _ ?_
            intro y hy
            rw [(sortedByKey_perm _ _).mem_iff] at hy
            exact hcb y hy
        · trivial

/-! ### What names mean in the file -/

/-- What is found in the file, if functions and the macros for positions are not sought. -/
theorem items_found {β : Type} (s : GenSource) (p : CItem → Option β) (hf : ∀ a b, p (.func a b) = none)
    (hm : ∀ n v, n.take 7 = "APX_RX_".toList → p (.define n v) = none) :
    s.items.filterMap p =
      ([.define "APX_DEFINITON_LEN".toList s.defLen, .define "APX_IN_PORT_DATA_LEN".toList s.inLen,
        .define "APX_OUT_PORT_DATA_LEN".toList s.outLen] : List CItem).filterMap p ++
      (bufferItems "out".toList "OUT".toList "Dirty".toList true s.outInit).filterMap p ++
      (bufferItems "in".toList "IN".toList "Synced".toList s.flags s.inInit).filterMap p ++
      ([.object "apx_nodeData_t".toList "m_nodeData".toList, .literal "m_apxDefinitionData".toList s.literal] : List CItem).filterMap p := by
  have h1 : (s.defs.map fun d => CItem.func d.proto d.body.lines).filterMap p = [] := by
    rw [List.filterMap_eq_nil_iff]
    intro x hx
    obtain ⟨d, -, rfl⟩ := List.mem_map.1 hx
    exact hf _ _
  have h2 : (s.macros.elim [] fun m => m.1.map (fun x => CItem.define ("APX_RX_LEN_".toList ++ macroName x.1) x.2) ++
      m.2.map fun x => CItem.define ("APX_RX_OFFSET_".toList ++ macroName x.1) x.2).filterMap p = [] := by
    rw [List.filterMap_eq_nil_iff]
    intro x hx
    have key : ∀ (pre w : Str) (v : Nat), pre.length ≥ 7 → pre.take 7 = "APX_RX_".toList → p (.define (pre ++ w) v) = none := by
      intro pre w v hl hp
      exact hm _ _ (by rw [List.take_append_of_le_length hl, hp])
    cases hmac : s.macros with
    | none =>
      rw [hmac] at hx
      cases hx
    | some m =>
      rw [hmac] at hx
      rcases List.mem_append.1 hx with hx | hx
      · obtain ⟨y, -, rfl⟩ := List.mem_map.1 hx
        exact key _ _ _ (by decide +kernel) (by decide +kernel)
      · obtain ⟨y, -, rfl⟩ := List.mem_map.1 hx
        exact key _ _ _ (by decide +kernel) (by decide +kernel)
  unfold GenSource.items
  simp only [List.filterMap_append, h1, h2, List.append_nil]

/-- The declarations of the data. -/
theorem bufferItems_eq (dir macroDir flagsName : String) (flags : Bool) (b : Bytes) (n1 n2 n3 n4 : Str)
    (h1 : "m_".toList ++ dir.toList ++ "PortInitData".toList = n1) (h2 : "APX_".toList ++ macroDir.toList ++ "_PORT_DATA_LEN".toList = n2)
    (h3 : "m_".toList ++ dir.toList ++ "Portdata".toList = n3)
    (h4 : "m_".toList ++ dir.toList ++ "Port".toList ++ flagsName.toList ++ "Flags".toList = n4) :
    bufferItems dir.toList macroDir.toList flagsName.toList flags b =
      if b.length > 0 then [.array n1 n2 (some (b.map UInt8.toNat)), .array n3 n2 none] ++
        (if flags then [.array n4 n2 none] else []) else [] := by
  unfold bufferItems
  rw [h1, h2, h3, h4]

theorem bufferItems_in (flags : Bool) (b : Bytes) : bufferItems "in".toList "IN".toList "Synced".toList flags b =
      if b.length > 0 then [.array "m_inPortInitData".toList "APX_IN_PORT_DATA_LEN".toList (some (b.map UInt8.toNat)),
        .array "m_inPortdata".toList "APX_IN_PORT_DATA_LEN".toList none] ++
        (if flags then [.array "m_inPortSyncedFlags".toList "APX_IN_PORT_DATA_LEN".toList none] else []) else [] :=
  bufferItems_eq _ _ _ _ _ _ _ _ _ (by decide +kernel) (by decide +kernel) (by decide +kernel) (by decide +kernel)

theorem bufferItems_out (flags : Bool) (b : Bytes) : bufferItems "out".toList "OUT".toList "Dirty".toList flags b =
      if b.length > 0 then [.array "m_outPortInitData".toList "APX_OUT_PORT_DATA_LEN".toList (some (b.map UInt8.toNat)),
        .array "m_outPortdata".toList "APX_OUT_PORT_DATA_LEN".toList none] ++
        (if flags then [.array "m_outPortDirtyFlags".toList "APX_OUT_PORT_DATA_LEN".toList none] else []) else [] :=
  bufferItems_eq _ _ _ _ _ _ _ _ _ (by decide +kernel) (by decide +kernel) (by decide +kernel) (by decide +kernel)

theorem buffer_macros (name : Str) (b : Bytes) (n1 n2 n3 n4 : Str) (fl : Bool) :
    (if b.length > 0 then [.array n1 n2 (some (b.map UInt8.toNat)), .array n3 n2 none] ++
      (if fl then [.array n4 n2 none] else []) else [] : List CItem).filterMap (CItem.macroValue name) = [] := by
  by_cases h : b.length > 0 <;> cases fl <;> simp [h, CItem.macroValue]

theorem buffer_sizes (name : Str) (b : Bytes) (n1 n2 n3 n4 : Str) (fl : Bool) :
    (if b.length > 0 then [.array n1 n2 (some (b.map UInt8.toNat)), .array n3 n2 none] ++
      (if fl then [.array n4 n2 none] else []) else [] : List CItem).filterMap (CItem.sizeName name) =
    (if b.length > 0 then if n3 = name then [n2] else [] else []) ++
      if b.length > 0 ∧ fl = true then if n4 = name then [n2] else [] else [] := by
  by_cases h : b.length > 0 <;> cases fl <;> by_cases h3 : n3 = name <;> by_cases h4 : n4 = name <;> simp [h, h3, h4, CItem.sizeName, List.filterMap_cons]

theorem buffer_numbers (name : Str) (b : Bytes) (n1 n2 n3 n4 : Str) (fl : Bool) :
    (if b.length > 0 then [.array n1 n2 (some (b.map UInt8.toNat)), .array n3 n2 none] ++
      (if fl then [.array n4 n2 none] else []) else [] : List CItem).filterMap (CItem.numbers name) =
    if b.length > 0 then if n1 = name then [(n2, b.map UInt8.toNat)] else [] else [] := by
  by_cases h : b.length > 0 <;> cases fl <;> by_cases h3 : n1 = name <;> simp [h, h3, CItem.numbers]

theorem macros_found {u : List CItem} {name : Str} {v : Nat} (h : u.filterMap (CItem.macroValue name) = [v]) :
    macroOf u name = some v := by
  unfold macroOf
  rw [h]
  rfl

/-- The macros with the lengths. -/
theorem items_macros (s : GenSource) : macroOf s.items "APX_DEFINITON_LEN".toList = some s.defLen ∧
    macroOf s.items "APX_IN_PORT_DATA_LEN".toList = some s.inLen ∧ macroOf s.items "APX_OUT_PORT_DATA_LEN".toList = some s.outLen := by
  have key : ∀ (name : Str), name.take 7 ≠ "APX_RX_".toList → s.items.filterMap (CItem.macroValue name) =
      (if "APX_DEFINITON_LEN".toList = name then [s.defLen] else []) ++ (if "APX_IN_PORT_DATA_LEN".toList = name then [s.inLen] else []) ++
        (if "APX_OUT_PORT_DATA_LEN".toList = name then [s.outLen] else []) := by
    intro name hname
    rw [items_found s _ (fun a b => rfl), bufferItems_in, bufferItems_out, buffer_macros, buffer_macros]
    · generalize "APX_DEFINITON_LEN".toList = n1
      generalize "APX_IN_PORT_DATA_LEN".toList = n2
      generalize "APX_OUT_PORT_DATA_LEN".toList = n3
      by_cases h1 : n1 = name <;> by_cases h2 : n2 = name <;> by_cases h3 : n3 = name <;> simp [h1, h2, h3, CItem.macroValue]
    · intro n v hn
      show (if n = name then some v else none) = none
      rw [if_neg]
      intro e
      exact hname (e ▸ hn)
  have k1 : "APX_IN_PORT_DATA_LEN".toList ≠ "APX_DEFINITON_LEN".toList := by decide +kernel
  have k2 : "APX_OUT_PORT_DATA_LEN".toList ≠ "APX_DEFINITON_LEN".toList := by decide +kernel
  have k3 : "APX_IN_PORT_DATA_LEN".toList ≠ "APX_OUT_PORT_DATA_LEN".toList := by decide +kernel
  refine ⟨macros_found ?_, macros_found ?_, macros_found ?_⟩
  · rw [key _ (by decide +kernel), if_pos rfl, if_neg k1, if_neg k2]
    rfl
  · rw [key _ (by decide +kernel), if_pos rfl, if_neg k1.symm, if_neg k3.symm]
    rfl
  · rw [key _ (by decide +kernel), if_pos rfl, if_neg k2.symm, if_neg k3]
    rfl

/-- The arrays that can be changed. -/
theorem items_arrays (s : GenSource) (name : Str) : s.items.filterMap (CItem.sizeName name) =
    (if s.outInit.length > 0 then if "m_outPortdata".toList = name then ["APX_OUT_PORT_DATA_LEN".toList] else [] else []) ++
    (if s.outInit.length > 0 ∧ true = true then if "m_outPortDirtyFlags".toList = name then ["APX_OUT_PORT_DATA_LEN".toList] else [] else []) ++
    ((if s.inInit.length > 0 then if "m_inPortdata".toList = name then ["APX_IN_PORT_DATA_LEN".toList] else [] else []) ++
    (if s.inInit.length > 0 ∧ s.flags = true then if "m_inPortSyncedFlags".toList = name then ["APX_IN_PORT_DATA_LEN".toList] else [] else [])) := by
  rw [items_found s _ (fun a b => rfl) (fun n v _ => rfl), bufferItems_in, bufferItems_out, buffer_sizes, buffer_sizes]
  exact List.append_nil _

/-- The constant arrays. -/
theorem items_consts (s : GenSource) (name : Str) : s.items.filterMap (CItem.numbers name) =
    (if s.outInit.length > 0 then if "m_outPortInitData".toList = name then
      [("APX_OUT_PORT_DATA_LEN".toList, s.outInit.map UInt8.toNat)] else [] else []) ++
    (if s.inInit.length > 0 then if "m_inPortInitData".toList = name then
      [("APX_IN_PORT_DATA_LEN".toList, s.inInit.map UInt8.toNat)] else [] else []) := by
  rw [items_found s _ (fun a b => rfl) (fun n v _ => rfl), bufferItems_in, bufferItems_out, buffer_numbers, buffer_numbers]
  exact List.append_nil _

theorem bytes_back (b : Bytes) : (b.map UInt8.toNat).map UInt8.ofNat = b := by
  induction b with
  | nil => rfl
  | cons x b ih => simp [ih]

theorem constBytes_of {u : List CItem} {name size : Str} {b : Bytes}
    (h : u.filterMap (CItem.numbers name) = [(size, b.map UInt8.toNat)]) (hs : macroOf u size = some b.length) :
    constBytes u name = some b := by
  unfold constBytes
  rw [h]
  show (macroOf u size).bind _ = _
  rw [hs]
  show (if _ then _ else _) = _
  rw [if_pos]
  · rw [bytes_back, List.length_map, Nat.sub_self]
    exact congrArg some (List.append_nil _)
  · refine ⟨by simp, ?_⟩
    rw [List.all_eq_true]
    intro x hx
    obtain ⟨y, -, rfl⟩ := List.mem_map.1 hx
    simpa using y.toNat_lt

theorem arraySize_of {u : List CItem} {name size : Str} (h : u.filterMap (CItem.sizeName name) = [size]) :
    arraySize u name = macroOf u size := by
  unfold arraySize
  rw [h]

/-- The data of received signals. -/
theorem items_in (s : GenSource) (h : 0 < s.inInit.length) (hl : s.inInit.length = s.inLen) :
    arraySize s.items "m_inPortdata".toList = some s.inLen ∧ constBytes s.items "m_inPortInitData".toList = some s.inInit ∧
      (s.flags = true → arraySize s.items "m_inPortSyncedFlags".toList = some s.inLen) := by
  have m := (items_macros s).2.1
  have n1 : "m_outPortdata".toList ≠ "m_inPortdata".toList := by decide +kernel
  have n2 : "m_outPortDirtyFlags".toList ≠ "m_inPortdata".toList := by decide +kernel
  have n3 : "m_inPortSyncedFlags".toList ≠ "m_inPortdata".toList := by decide +kernel
  have n4 : "m_outPortInitData".toList ≠ "m_inPortInitData".toList := by decide +kernel
  have n5 : "m_outPortdata".toList ≠ "m_inPortSyncedFlags".toList := by decide +kernel
  have n6 : "m_outPortDirtyFlags".toList ≠ "m_inPortSyncedFlags".toList := by decide +kernel
  refine ⟨?_, ?_, ?_⟩
  · rw [arraySize_of (size := "APX_IN_PORT_DATA_LEN".toList), m]
    rw [items_arrays, if_neg n1, if_neg n2, if_neg n3, if_pos rfl, if_pos h, ite_self, ite_self, ite_self]
    rfl
  · apply constBytes_of (size := "APX_IN_PORT_DATA_LEN".toList)
    · rw [items_consts, if_neg n4, if_pos rfl, if_pos h, ite_self]
      rfl
    · rw [m, hl]
  · intro hfl
    rw [arraySize_of (size := "APX_IN_PORT_DATA_LEN".toList), m]
    rw [items_arrays, if_neg n5, if_neg n6, if_neg n3.symm, if_pos rfl, if_pos (⟨h, hfl⟩ : s.inInit.length > 0 ∧ s.flags = true), ite_self,
      ite_self, ite_self]
    rfl

/-- The data of sent signals. -/
theorem items_out (s : GenSource) (h : 0 < s.outInit.length) (hl : s.outInit.length = s.outLen) :
    arraySize s.items "m_outPortdata".toList = some s.outLen ∧ constBytes s.items "m_outPortInitData".toList = some s.outInit ∧
      arraySize s.items "m_outPortDirtyFlags".toList = some s.outLen := by
  have m := (items_macros s).2.2
  have n1 : "m_inPortdata".toList ≠ "m_outPortdata".toList := by decide +kernel
  have n2 : "m_outPortDirtyFlags".toList ≠ "m_outPortdata".toList := by decide +kernel
  have n3 : "m_inPortSyncedFlags".toList ≠ "m_outPortdata".toList := by decide +kernel
  have n4 : "m_inPortInitData".toList ≠ "m_outPortInitData".toList := by decide +kernel
  have n5 : "m_inPortdata".toList ≠ "m_outPortDirtyFlags".toList := by decide +kernel
  have n6 : "m_inPortSyncedFlags".toList ≠ "m_outPortDirtyFlags".toList := by decide +kernel
  refine ⟨?_, ?_, ?_⟩
  · rw [arraySize_of (size := "APX_OUT_PORT_DATA_LEN".toList), m]
    rw [items_arrays, if_neg n1, if_neg n2, if_neg n3, if_pos rfl, if_pos h, ite_self, ite_self, ite_self]
    rfl
  · apply constBytes_of (size := "APX_OUT_PORT_DATA_LEN".toList)
    · rw [items_consts, if_neg n4, if_pos rfl, if_pos h, ite_self]
      rfl
    · rw [m, hl]
  · rw [arraySize_of (size := "APX_OUT_PORT_DATA_LEN".toList), m]
    rw [items_arrays, if_neg n5, if_neg n6, if_neg n2.symm, if_pos rfl, if_pos (⟨h, rfl⟩ : s.outInit.length > 0 ∧ true = true), ite_self,
      ite_self, ite_self]
    rfl

/-! ### Initialization -/

/-- Statements, one after another. -/
def cRun (u : List CItem) : List CInitStmt → CMem → Option CMem
  | [], m => some m
  | s :: l, m => (cExec u m (lexC s.text)).bind (cRun u l)

theorem cRun_append (u : List CItem) : ∀ (a b : List CInitStmt) (m : CMem), cRun u (a ++ b) m = (cRun u a m).bind (cRun u b)
  | [], b, m => rfl
  | s :: a, b, m => by
    show (cExec u m (lexC s.text)).bind (cRun u (a ++ b)) = ((cExec u m (lexC s.text)).bind (cRun u a)).bind (cRun u b)
    cases cExec u m (lexC s.text) with
    | none => rfl
    | some m' => exact cRun_append u a b m'

theorem cCall_run (u : List CItem) : ∀ (l : List CInitStmt) (m : CMem),
    cCall u (CBody.init (l ++ [.done])).lines m = (cRun u l m).map fun m => { m with table := .missing }
  | [], m => by
    show (if ([] : List Str) = [] then _ else _) = _
    rw [if_pos rfl, lexC_indent, if_pos (by decide +kernel)]
    rfl
  | s :: l, m => by
    have e : (CBody.init (s :: l ++ [.done])).lines = indentBy 3 s.text :: (CBody.init (l ++ [.done])).lines := rfl
    have hne : (CBody.init (l ++ [.done])).lines ≠ [] := by
      show ((l ++ [CInitStmt.done]).map _) ≠ []
      simp
    rw [e, cCall, if_neg hne, lexC_indent]
    show (cExec u m (lexC s.text)).bind _ = ((cExec u m (lexC s.text)).bind (cRun u l)).map _
    cases cExec u m (lexC s.text) with
    | none => rfl
    | some m' => exact cCall_run u l m'

theorem exec_memcpy (u : List CItem) (m : CMem) (a b k : Str) (n len : Nat) (src : Bytes) (h1 : arraySize u a = some n)
    (h2 : constBytes u b = some src) (h3 : macroOf u k = some len) (h4 : len ≤ n) (h5 : len ≤ src.length) :
    cExec u m [kw "memcpy", .sym '(', .sym '&', .word a, .sym '[', .word ['0'], .sym ']', .sym ',', .sym '&', .word b, .sym '[', .word ['0'],
      .sym ']', .sym ',', .word k, .sym ')', .sym ';'] = some (m.put a (src.take len ++ (m.bytes a).drop len)) := by
  unfold cExec
  rw [List.head?_cons, if_pos rfl]
  show cMemcpy u m [.sym '(', .sym '&', .word a, .sym '[', .word ['0'], .sym ']', .sym ',', .sym '&', .word b, .sym '[', .word ['0'],
      .sym ']', .sym ',', .word k, .sym ')', .sym ';'] = _
  rw [cMemcpy, if_pos ⟨rfl, rfl⟩, h1, Option.bind_some, h2, Option.bind_some, h3, Option.bind_some, if_pos ⟨h4, h5⟩]

theorem exec_memset (u : List CItem) (m : CMem) (a : Str) (n : Nat) (h1 : arraySize u a = some n) :
    cExec u m [kw "memset", .sym '(', .sym '&', .word a, .sym '[', .word ['0'], .sym ']', .sym ',', .word ['0'], .sym ',', kw "sizeof",
      .sym '(', .word a, .sym ')', .sym ')', .sym ';'] = some (m.put a (List.replicate n 0)) := by
  have e : some (kw "memset") ≠ some (kw "memcpy") := by decide +kernel
  unfold cExec
  rw [List.head?_cons, if_neg e, if_pos rfl]
  show cMemset u m [.sym '(', .sym '&', .word a, .sym '[', .word ['0'], .sym ']', .sym ',', .word ['0'], .sym ',', .word "sizeof".toList,
      .sym '(', .word a, .sym ')', .sym ')', .sym ';'] = _
  rw [cMemset, if_pos ⟨rfl, rfl, rfl, rfl⟩, h1, Option.map_some]

theorem lex_copyIn : lexC (CInitStmt.copyIn).text = [kw "memcpy", .sym '(', .sym '&', kw "m_inPortdata", .sym '[', .word ['0'], .sym ']',
    .sym ',', .sym '&', kw "m_inPortInitData", .sym '[', .word ['0'], .sym ']', .sym ',', kw "APX_IN_PORT_DATA_LEN", .sym ')', .sym ';'] := by
  decide +kernel

theorem lex_copyOut : lexC (CInitStmt.copyOut).text = [kw "memcpy", .sym '(', .sym '&', kw "m_outPortdata", .sym '[', .word ['0'], .sym ']',
    .sym ',', .sym '&', kw "m_outPortInitData", .sym '[', .word ['0'], .sym ']', .sym ',', kw "APX_OUT_PORT_DATA_LEN", .sym ')', .sym ';'] := by
  decide +kernel

theorem lex_clearIn : lexC (CInitStmt.clearIn).text = [kw "memset", .sym '(', .sym '&', kw "m_inPortSyncedFlags", .sym '[', .word ['0'],
    .sym ']', .sym ',', .word ['0'], .sym ',', kw "sizeof", .sym '(', kw "m_inPortSyncedFlags", .sym ')', .sym ')', .sym ';'] := by
  decide +kernel

theorem lex_clearOut : lexC (CInitStmt.clearOut).text = [kw "memset", .sym '(', .sym '&', kw "m_outPortDirtyFlags", .sym '[', .word ['0'],
    .sym ']', .sym ',', .word ['0'], .sym ',', kw "sizeof", .sym '(', kw "m_outPortDirtyFlags", .sym ')', .sym ')', .sym ';'] := by
  decide +kernel

/-- The arguments for the data of received signals. -/
def inToks (hasIn flags : Bool) : List CTok :=
  if hasIn then [.sym '&', kw "m_inPortdata", .sym '[', .word ['0'], .sym ']', .sym ','] ++
    (if flags then [.sym '&', kw "m_inPortSyncedFlags", .sym '[', .word ['0'], .sym ']'] else [kw "NULL"]) ++
    [.sym ',', kw "APX_IN_PORT_DATA_LEN"]
  else [.word ['0'], .sym ',', .word ['0'], .sym ',', .word ['0']]

/-- The arguments for the data of sent signals. -/
def outToks (hasOut : Bool) : List CTok :=
  if hasOut then [.sym '&', kw "m_outPortdata", .sym '[', .word ['0'], .sym ']', .sym ',', .sym '&', kw "m_outPortDirtyFlags", .sym '[',
    .word ['0'], .sym ']', .sym ',', kw "APX_OUT_PORT_DATA_LEN"]
  else [.word ['0'], .sym ',', .word ['0'], .sym ',', .word ['0']]

/-- The text after the name of the node. -/
def createTail (hasIn flags hasOut : Bool) : Str :=
  '"' :: ',' :: ' ' :: joinItems (["(uint8_t*) &m_apxDefinitionData[0]".toList, "APX_DEFINITON_LEN".toList] ++
    (if hasIn then ["&m_inPortdata[0]".toList, if flags then "&m_inPortSyncedFlags[0]".toList else "NULL".toList,
      "APX_IN_PORT_DATA_LEN".toList] else [['0'], ['0'], ['0']]) ++
    (if hasOut then ["&m_outPortdata[0]".toList, "&m_outPortDirtyFlags[0]".toList, "APX_OUT_PORT_DATA_LEN".toList]
      else [['0'], ['0'], ['0']])) ++ ");".toList

theorem lex_createTail : ∀ hasIn flags hasOut, lexC (createTail hasIn flags hasOut) =
    lexC "\",(uint8_t*)&".toList ++ (kw "m_apxDefinitionData" :: (lexC "[0],".toList ++ (kw "APX_DEFINITON_LEN" :: .sym ',' ::
      (inToks hasIn flags ++ ([.sym ','] ++ (outToks hasOut ++ lexC ");".toList)))))) := by
  decide +kernel

theorem create_text (name : Str) (hasIn flags hasOut : Bool) : (CInitStmt.create name hasIn flags hasOut).text =
    "apx_nodeData_create(&m_nodeData, \"".toList ++ (name ++ createTail hasIn flags hasOut) := by
  have e : "apx_nodeData_create(&m_nodeData, \"".toList = "apx_nodeData_create(".toList ++ ("&m_nodeData".toList ++ [',', ' ', '"']) := by
    decide +kernel
  rw [e]
  unfold CInitStmt.text createTail
  simp only [List.cons_append, List.nil_append, List.append_assoc, joinItems]

theorem lex_create (name : Str) (hn : CWord name) (hasIn flags hasOut : Bool) : lexC (CInitStmt.create name hasIn flags hasOut).text =
    kw "apx_nodeData_create" :: (lexC "(&m_nodeData,\"".toList ++ (.word name :: lexC (createTail hasIn flags hasOut))) := by
  rw [create_text, lexC_lit _ _ (by decide +kernel), lexC_name name (createTail hasIn flags hasOut) hn (by rfl)]
  have e : lexC "apx_nodeData_create(&m_nodeData, \"".toList = kw "apx_nodeData_create" :: lexC "(&m_nodeData,\"".toList := by decide +kernel
  rw [e]
  rfl

theorem readBuffer_in (s : GenSource) (hasIn : Bool) (hh : hasIn = true → 0 < s.inInit.length ∧ s.inInit.length = s.inLen) (r : List CTok) :
    readBuffer s.items (inToks hasIn s.flags ++ r) = some ((if hasIn then
      some ⟨"m_inPortdata".toList, if s.flags then some "m_inPortSyncedFlags".toList else none, s.inLen⟩ else none), r) := by
  have m := (items_macros s).2.1
  cases hasIn with
  | false => rfl
  | true =>
    obtain ⟨h1, h2⟩ := hh rfl
    obtain ⟨a1, -, a2⟩ := items_in s h1 h2
    cases hfl : s.flags with
    | true =>
      have a2 := a2 hfl
      show readBuffer s.items (.sym '&' :: .word "m_inPortdata".toList :: .sym '[' :: .word ['0'] :: .sym ']' :: .sym ',' :: .sym '&' ::
        .word "m_inPortSyncedFlags".toList :: .sym '[' :: .word ['0'] :: .sym ']' :: .sym ',' :: .word "APX_IN_PORT_DATA_LEN".toList :: r) = _
      rw [readBuffer, if_pos ⟨rfl, rfl, by rw [m]; rfl, by rw [a1, m], by rw [a2, m]⟩, m]
      rfl
    | false =>
      show readBuffer s.items (.sym '&' :: .word "m_inPortdata".toList :: .sym '[' :: .word ['0'] :: .sym ']' :: .sym ',' ::
        .word "NULL".toList :: .sym ',' :: .word "APX_IN_PORT_DATA_LEN".toList :: r) = _
      rw [readBuffer, if_pos ⟨rfl, rfl, by rw [m]; rfl, by rw [a1, m]⟩, m]
      rfl

theorem readBuffer_out (s : GenSource) (hasOut : Bool) (hh : hasOut = true → 0 < s.outInit.length ∧ s.outInit.length = s.outLen)
    (r : List CTok) : readBuffer s.items (outToks hasOut ++ r) = some ((if hasOut then
      some ⟨"m_outPortdata".toList, some "m_outPortDirtyFlags".toList, s.outLen⟩ else none), r) := by
  have m := (items_macros s).2.2
  cases hasOut with
  | false => rfl
  | true =>
    obtain ⟨h1, h2⟩ := hh rfl
    obtain ⟨a1, -, a2⟩ := items_out s h1 h2
    show readBuffer s.items (.sym '&' :: .word "m_outPortdata".toList :: .sym '[' :: .word ['0'] :: .sym ']' :: .sym ',' :: .sym '&' ::
      .word "m_outPortDirtyFlags".toList :: .sym '[' :: .word ['0'] :: .sym ']' :: .sym ',' :: .word "APX_OUT_PORT_DATA_LEN".toList :: r) = _
    rw [readBuffer, if_pos ⟨rfl, rfl, by rw [m]; rfl, by rw [a1, m], by rw [a2, m]⟩, m]
    rfl

theorem nodeData_item (s : GenSource) : CItem.object "apx_nodeData_t".toList "m_nodeData".toList ∈ s.items := by
  unfold GenSource.items
  simp only [List.mem_append, List.mem_cons, true_or, or_true]

theorem literal_item (s : GenSource) : CItem.literal "m_apxDefinitionData".toList s.literal ∈ s.items := by
  unfold GenSource.items
  simp only [List.mem_append, List.mem_cons, true_or, or_true]

/-- What `apx_nodeData_create` is told. -/
def GenSource.nodeData (s : GenSource) (name : Str) (hasIn hasOut : Bool) (handler : Option Str) : CNodeData :=
  ⟨name, "m_apxDefinitionData".toList, s.defLen,
    if hasIn then some ⟨"m_inPortdata".toList, if s.flags then some "m_inPortSyncedFlags".toList else none, s.inLen⟩ else none,
    if hasOut then some ⟨"m_outPortdata".toList, some "m_outPortDirtyFlags".toList, s.outLen⟩ else none, handler⟩

theorem exec_create (s : GenSource) (m : CMem) (name : Str) (hn : CWord name) (hasIn hasOut : Bool)
    (hi : hasIn = true → 0 < s.inInit.length ∧ s.inInit.length = s.inLen)
    (ho : hasOut = true → 0 < s.outInit.length ∧ s.outInit.length = s.outLen) :
    cExec s.items m (lexC (CInitStmt.create name hasIn s.flags hasOut).text) =
      some { m with node := some (s.nodeData name hasIn hasOut none) } := by
  rw [lex_create name hn]
  have e1 : some (kw "apx_nodeData_create") ≠ some (kw "memcpy") := by decide +kernel
  have e2 : some (kw "apx_nodeData_create") ≠ some (kw "memset") := by decide +kernel
  have mm := (items_macros s).1
  unfold cExec
  rw [List.head?_cons, if_neg e1, if_neg e2, if_pos rfl, List.tail_cons, lex_createTail]
  unfold cCreate
  rw [expect_append]
  simp only [Option.bind_eq_bind, Option.bind_some]
  rw [expect_append, Option.bind_some]
  show (expect (lexC "[0],".toList) _).bind _ = _
  rw [expect_append, Option.bind_some]
  show (macroOf s.items "APX_DEFINITON_LEN".toList).bind _ = _
  rw [mm, Option.bind_some, readBuffer_in s hasIn hi, Option.bind_some]
  show (expect [.sym ','] _).bind _ = _
  rw [expect_append, Option.bind_some, readBuffer_out s hasOut ho, Option.bind_some]
  show (if _ then _ else _) = _
  rw [if_pos ⟨rfl, nodeData_item s⟩]
  rfl

theorem exec_declare (u : List CItem) (m : CMem) : cExec u m (lexC (CInitStmt.declareTable).text) = some { m with table := .garbage } := by
  have e : lexC (CInitStmt.declareTable).text = lexC "apx_nodeDataHandlerTable_t nodeDataHandler;".toList := rfl
  rw [e]
  unfold cExec
  rw [if_neg (by decide +kernel), if_neg (by decide +kernel), if_neg (by decide +kernel), if_neg (by decide +kernel), if_pos rfl]

theorem exec_clearTable (u : List CItem) (m : CMem) (h : m.table ≠ .missing) :
    cExec u m (lexC (CInitStmt.clearTable).text) = some { m with table := .set none } := by
  have e : lexC (CInitStmt.clearTable).text = [kw "memset", .sym '(', .sym '&', kw "nodeDataHandler", .sym ',', .word ['0'], .sym ',',
    kw "sizeof", .sym '(', kw "nodeDataHandler", .sym ')', .sym ')', .sym ';'] := by decide +kernel
  have e1 : some (kw "memset") ≠ some (kw "memcpy") := by decide +kernel
  rw [e]
  unfold cExec
  rw [List.head?_cons, if_neg e1, if_pos rfl]
  show cMemset u m [.sym '(', .sym '&', .word "nodeDataHandler".toList, .sym ',', .word ['0'], .sym ',', .word "sizeof".toList, .sym '(',
    .word "nodeDataHandler".toList, .sym ')', .sym ')', .sym ';'] = _
  rw [cMemset, if_pos ⟨rfl, rfl, rfl, rfl, h⟩]

theorem exec_assign (u : List CItem) (m : CMem) (f : Str) (hf : CWord f) (h : m.table = .set none) :
    cExec u m (lexC (CInitStmt.assign f).text) = some { m with table := .set (some f) } := by
  have e' : cAssign m f = some { m with table := .set (some f) } := by
    unfold cAssign
    rw [h]
  rw [← e']
  have e0 : lexC "nodeDataHandler.inPortDataWritten = ".toList = [kw "nodeDataHandler", .sym '.', kw "inPortDataWritten", .sym '='] := by
    decide +kernel
  have e : lexC (CInitStmt.assign f).text = [kw "nodeDataHandler", .sym '.', kw "inPortDataWritten", .sym '=', .word f, .sym ';'] := by
    show lexC ("nodeDataHandler.inPortDataWritten = ".toList ++ f ++ [';']) = _
    rw [List.append_assoc, lexC_lit _ _ (by decide +kernel), lexC_name f [';'] hf (by decide +kernel), lex_semi, e0]
    rfl
  have e1 : some (kw "nodeDataHandler") ≠ some (kw "memcpy") := by decide +kernel
  have e2 : some (kw "nodeDataHandler") ≠ some (kw "memset") := by decide +kernel
  have e3 : some (kw "nodeDataHandler") ≠ some (kw "apx_nodeData_create") := by decide +kernel
  have e4 : (lexC "apx_nodeData_setHandlerTable(&m_nodeData,&nodeDataHandler);".toList).head? ≠ some (kw "nodeDataHandler") := by decide +kernel
  have e5 : (lexC "apx_nodeDataHandlerTable_t nodeDataHandler;".toList).head? ≠ some (kw "nodeDataHandler") := by decide +kernel
  have e6 : [kw "nodeDataHandler", .sym '.', kw "inPortDataWritten", .sym '='] = lexC "nodeDataHandler.inPortDataWritten=".toList := by
    decide +kernel
  rw [e]
  unfold cExec
  rw [List.head?_cons, if_neg e1, if_neg e2, if_neg e3, if_neg (fun h => e4 (by rw [← h]; rfl)), if_neg (fun h => e5 (by rw [← h]; rfl)),
    if_pos (show List.take 4 [kw "nodeDataHandler", .sym '.', kw "inPortDataWritten", .sym '=', .word f, .sym ';'] = _ from e6)]
  rfl

theorem exec_install (u : List CItem) (m : CMem) : cExec u m (lexC (CInitStmt.install).text) = cInstall m := by
  have e : lexC (CInitStmt.install).text = lexC "apx_nodeData_setHandlerTable(&m_nodeData,&nodeDataHandler);".toList := by decide +kernel
  rw [e]
  unfold cExec
  rw [if_neg (by decide +kernel), if_neg (by decide +kernel), if_neg (by decide +kernel), if_pos rfl]

/-- The contents of memory after a call. -/
def initMem (s : GenSource) (b : Str → Bytes) (a : Str) : Bytes :=
  if 0 < s.inLen ∧ a = "m_inPortdata".toList then s.inInit
  else if 0 < s.inLen ∧ s.flags = true ∧ a = "m_inPortSyncedFlags".toList then List.replicate s.inLen 0
  else if 0 < s.outLen ∧ a = "m_outPortdata".toList then s.outInit
  else if 0 < s.outLen ∧ a = "m_outPortDirtyFlags".toList then List.replicate s.outLen 0
  else b a

/-- The first part. -/
theorem run_in (s : GenSource) (hi : s.inInit.length = s.inLen) (m : CMem) (hm : m.Fits s.items) :
    cRun s.items (if s.inLen > 0 then .copyIn :: (if s.flags then [.clearIn] else []) else []) m = some ⟨fun a =>
      if 0 < s.inLen ∧ a = "m_inPortdata".toList then s.inInit
      else if 0 < s.inLen ∧ s.flags = true ∧ a = "m_inPortSyncedFlags".toList then List.replicate s.inLen 0
      else m.bytes a, m.table, m.node⟩ := by
  by_cases h : s.inLen > 0
  · have h' : 0 < s.inInit.length := by omega
    obtain ⟨a1, a2, a3⟩ := items_in s h' hi
    rw [if_pos h]
    have c1 := exec_memcpy s.items m _ _ _ s.inLen s.inLen s.inInit a1 a2 (items_macros s).2.1 (Nat.le_refl _) (by omega)
    have l := hm _ _ a1
    rw [List.take_of_length_le (by omega), List.drop_of_length_le (by omega), List.append_nil] at c1
    show (cExec s.items m (lexC (CInitStmt.copyIn).text)).bind _ = _
    rw [lex_copyIn]
    have c1' : cExec s.items m [kw "memcpy", .sym '(', .sym '&', kw "m_inPortdata", .sym '[', .word ['0'], .sym ']',
      .sym ',', .sym '&', kw "m_inPortInitData", .sym '[', .word ['0'], .sym ']', .sym ',', kw "APX_IN_PORT_DATA_LEN", .sym ')', .sym ';'] =
        some (m.put "m_inPortdata".toList s.inInit) := c1
    rw [c1', Option.bind_some]
    cases hfl : s.flags with
    | false =>
      show some (m.put _ _) = _
      simp only [h, true_and, Bool.false_eq_true, false_and, and_false, if_false]
      rfl
    | true =>
      have c2 : cExec s.items (m.put "m_inPortdata".toList s.inInit) [kw "memset", .sym '(', .sym '&', kw "m_inPortSyncedFlags", .sym '[',
        .word ['0'], .sym ']', .sym ',', .word ['0'], .sym ',', kw "sizeof", .sym '(', kw "m_inPortSyncedFlags", .sym ')', .sym ')', .sym ';'] =
          some ((m.put "m_inPortdata".toList s.inInit).put "m_inPortSyncedFlags".toList (List.replicate s.inLen 0)) :=
        exec_memset s.items _ _ _ (a3 hfl)
      show (cExec s.items _ (lexC (CInitStmt.clearIn).text)).bind _ = _
      rw [lex_clearIn, c2, Option.bind_some]
      show some _ = _
      have ne : "m_inPortSyncedFlags".toList ≠ "m_inPortdata".toList := by decide +kernel
      congr 1
      unfold CMem.put
      simp only [h, true_and]
      congr 1
      funext a
      by_cases ha : a = "m_inPortdata".toList
      · rw [if_pos ha, if_neg (by rw [ha]; exact ne.symm), if_pos ha]
      · rw [if_neg ha, if_neg ha]
  · rw [if_neg h]
    simp only [show ¬ 0 < s.inLen from h, false_and, if_false]
    rfl

/-- The second part. -/
theorem run_out (s : GenSource) (ho : s.outInit.length = s.outLen) (m : CMem) (hm : m.Fits s.items) :
    cRun s.items (if s.outLen > 0 then [.copyOut, .clearOut] else []) m = some ⟨fun a =>
      if 0 < s.outLen ∧ a = "m_outPortdata".toList then s.outInit
      else if 0 < s.outLen ∧ a = "m_outPortDirtyFlags".toList then List.replicate s.outLen 0
      else m.bytes a, m.table, m.node⟩ := by
  by_cases h : s.outLen > 0
  · have h' : 0 < s.outInit.length := by omega
    obtain ⟨a1, a2, a3⟩ := items_out s h' ho
    rw [if_pos h]
    have c1 := exec_memcpy s.items m _ _ _ s.outLen s.outLen s.outInit a1 a2 (items_macros s).2.2 (Nat.le_refl _) (by omega)
    have l := hm _ _ a1
    rw [List.take_of_length_le (by omega), List.drop_of_length_le (by omega), List.append_nil] at c1
    show (cExec s.items m (lexC (CInitStmt.copyOut).text)).bind _ = _
    rw [lex_copyOut]
    have c1' : cExec s.items m [kw "memcpy", .sym '(', .sym '&', kw "m_outPortdata", .sym '[', .word ['0'], .sym ']',
      .sym ',', .sym '&', kw "m_outPortInitData", .sym '[', .word ['0'], .sym ']', .sym ',', kw "APX_OUT_PORT_DATA_LEN", .sym ')', .sym ';'] =
        some (m.put "m_outPortdata".toList s.outInit) := c1
    rw [c1', Option.bind_some]
    have c2 : cExec s.items (m.put "m_outPortdata".toList s.outInit) [kw "memset", .sym '(', .sym '&', kw "m_outPortDirtyFlags", .sym '[',
      .word ['0'], .sym ']', .sym ',', .word ['0'], .sym ',', kw "sizeof", .sym '(', kw "m_outPortDirtyFlags", .sym ')', .sym ')', .sym ';'] =
        some ((m.put "m_outPortdata".toList s.outInit).put "m_outPortDirtyFlags".toList (List.replicate s.outLen 0)) :=
      exec_memset s.items _ _ _ a3
    show (cExec s.items _ (lexC (CInitStmt.clearOut).text)).bind _ = _
    rw [lex_clearOut, c2, Option.bind_some]
    show some _ = _
    have ne : "m_outPortDirtyFlags".toList ≠ "m_outPortdata".toList := by decide +kernel
    congr 1
    unfold CMem.put
    simp only [h, true_and]
    congr 1
    funext a
    by_cases ha : a = "m_outPortdata".toList
    · rw [if_pos ha, if_neg (by rw [ha]; exact ne.symm), if_pos ha]
    · rw [if_neg ha, if_neg ha]
  · rw [if_neg h]
    simp only [show ¬ 0 < s.outLen from h, false_and, if_false]
    rfl

theorem fits_in (s : GenSource) (hi : s.inInit.length = s.inLen) (m : CMem) (hm : m.Fits s.items) :
    CMem.Fits s.items ⟨fun a => if 0 < s.inLen ∧ a = "m_inPortdata".toList then s.inInit
      else if 0 < s.inLen ∧ s.flags = true ∧ a = "m_inPortSyncedFlags".toList then List.replicate s.inLen 0
      else m.bytes a, m.table, m.node⟩ := by
  intro name n hn
  show List.length (if _ then _ else _) = n
  split
  · rename_i h
    rw [h.2, (items_in s (by omega) hi).1] at hn
    cases hn
    exact hi
  · split
    · rename_i h
      rw [h.2.2, (items_in s (by omega) hi).2.2 h.2.1] at hn
      cases hn
      simp
    · exact hm _ _ hn

theorem call_init (s : GenSource) (name : Str) (hn : CWord name) (handler : Option Str) (hh : ∀ f, handler = some f → CWord f)
    (hi : s.inInit.length = s.inLen) (ho : s.outInit.length = s.outLen) (m : CMem) (hm : m.Fits s.items) :
    cCall s.items (CBody.init (initBody name s.inLen s.outLen s.flags handler)).lines m =
      some ⟨initMem s m.bytes, .missing, some (s.nodeData name (decide (s.inLen > 0)) (decide (s.outLen > 0)) handler)⟩ := by
  have hbytes : ∀ b : Str → Bytes, (fun a => if 0 < s.outLen ∧ a = "m_outPortdata".toList then s.outInit
      else if 0 < s.outLen ∧ a = "m_outPortDirtyFlags".toList then List.replicate s.outLen 0
      else if 0 < s.inLen ∧ a = "m_inPortdata".toList then s.inInit
      else if 0 < s.inLen ∧ s.flags = true ∧ a = "m_inPortSyncedFlags".toList then List.replicate s.inLen 0
      else b a) = initMem s b := by
    intro b
    funext a
    unfold initMem
    have n1 : "m_outPortdata".toList ≠ "m_inPortdata".toList := by decide +kernel
    have n2 : "m_outPortdata".toList ≠ "m_inPortSyncedFlags".toList := by decide +kernel
    have n3 : "m_outPortDirtyFlags".toList ≠ "m_inPortdata".toList := by decide +kernel
    have n4 : "m_outPortDirtyFlags".toList ≠ "m_inPortSyncedFlags".toList := by decide +kernel
    by_cases h1 : a = "m_outPortdata".toList
    · have f1 : ¬ a = "m_inPortdata".toList := by rw [h1]; exact n1
      have f2 : ¬ a = "m_inPortSyncedFlags".toList := by rw [h1]; exact n2
      simp only [f1, f2, and_false, if_false]
    · by_cases h2 : a = "m_outPortDirtyFlags".toList
      · have f1 : ¬ a = "m_inPortdata".toList := by rw [h2]; exact n3
        have f2 : ¬ a = "m_inPortSyncedFlags".toList := by rw [h2]; exact n4
        simp only [f1, f2, and_false, if_false]
      · simp only [h1, h2, and_false, if_false]
  have hci : decide (s.inLen > 0) = true → 0 < s.inInit.length ∧ s.inInit.length = s.inLen := by
    intro h
    have := of_decide_eq_true h
    exact ⟨by omega, hi⟩
  have hco : decide (s.outLen > 0) = true → 0 < s.outInit.length ∧ s.outInit.length = s.outLen := by
    intro h
    have := of_decide_eq_true h
    exact ⟨by omega, ho⟩
  have mid : ∀ (b : Str → Bytes) (t : CTable) (nd : Option CNodeData), CMem.Fits s.items ⟨b, t, nd⟩ →
      cRun s.items ((if s.inLen > 0 then .copyIn :: (if s.flags then [.clearIn] else []) else []) ++
        ((if s.outLen > 0 then [.copyOut, .clearOut] else []) ++
          [.create name (decide (s.inLen > 0)) s.flags (decide (s.outLen > 0))])) ⟨b, t, nd⟩ =
      some ⟨initMem s b, t, some (s.nodeData name (decide (s.inLen > 0)) (decide (s.outLen > 0)) none)⟩ := by
    intro b t nd hb
    rw [cRun_append, run_in s hi _ hb, Option.bind_some, cRun_append, run_out s ho _ (fits_in s hi _ hb), Option.bind_some]
    show (cExec s.items _ (lexC (CInitStmt.create _ _ _ _).text)).bind _ = _
    rw [exec_create s _ name hn _ _ hci hco, Option.bind_some]
    show some _ = _
    simp only [hbytes]
  have e : initBody name s.inLen s.outLen s.flags handler =
      ((if handler.isSome then [.declareTable] else []) ++
        (((if s.inLen > 0 then .copyIn :: (if s.flags then [.clearIn] else []) else []) ++
        ((if s.outLen > 0 then [.copyOut, .clearOut] else []) ++
          [.create name (decide (s.inLen > 0)) s.flags (decide (s.outLen > 0))])) ++
        (match handler with
        | some f => [.clearTable, .assign f, .install]
        | none => []))) ++ [.done] := by
    unfold initBody
    simp only [List.append_assoc]
    cases handler <;> rfl
  rw [e, cCall_run]
  cases handler with
  | none =>
    show ((cRun s.items (_ ++ []) m)).map _ = _
    rw [List.append_nil, mid m.bytes m.table m.node hm]
    rfl
  | some f =>
    have d : cRun s.items [.declareTable] m = some { m with table := .garbage } := by
      show (cExec s.items m (lexC (CInitStmt.declareTable).text)).bind _ = _
      rw [exec_declare]
      rfl
    rw [cRun_append]
    show ((cRun s.items [.declareTable] m).bind _).map _ = _
    rw [d, Option.bind_some, cRun_append, mid m.bytes .garbage m.node hm, Option.bind_some]
    show ((cExec s.items _ (lexC (CInitStmt.clearTable).text)).bind _).map _ = _
    rw [exec_clearTable _ _ (fun h => (by cases h)), Option.bind_some]
    show ((cExec s.items _ (lexC (CInitStmt.assign f).text)).bind _).map _ = _
    rw [exec_assign _ _ f (hh f rfl) rfl, Option.bind_some]
    show ((cExec s.items _ (lexC (CInitStmt.install).text)).bind _).map _ = _
    rw [exec_install]
    rfl

/-! ### The theorems -/

theorem items_functions (s : GenSource) : s.items.filterMap CItem.function = s.defs.map fun d => (d.proto, d.body.lines) := by
  have h1 : (s.defs.map fun d => CItem.func d.proto d.body.lines).filterMap CItem.function = s.defs.map fun d => (d.proto, d.body.lines) := by
    rw [List.filterMap_map]
    show s.defs.filterMap (fun d => some (d.proto, d.body.lines)) = _
    rw [← List.filterMap_eq_map]
    rfl
  have h2 : (s.macros.elim [] fun m => m.1.map (fun x => CItem.define ("APX_RX_LEN_".toList ++ macroName x.1) x.2) ++
      m.2.map fun x => CItem.define ("APX_RX_OFFSET_".toList ++ macroName x.1) x.2).filterMap CItem.function = [] := by
    rw [List.filterMap_eq_nil_iff]
    intro x hx
    cases hmac : s.macros with
    | none =>
      rw [hmac] at hx
      cases hx
    | some m =>
      rw [hmac] at hx
      rcases List.mem_append.1 hx with hx | hx <;> (obtain ⟨y, -, rfl⟩ := List.mem_map.1 hx; rfl)
  have h3 : ∀ (a b c : Str) (fl : Bool) (d : Bytes), (bufferItems a b c fl d).filterMap CItem.function = [] := by
    intro a b c fl d
    unfold bufferItems
    rw [List.filterMap_eq_nil_iff]
    intro x hx
    split at hx
    · rcases List.mem_append.1 hx with hx | hx
      · simp only [List.mem_cons, List.not_mem_nil, or_false] at hx
        rcases hx with rfl | rfl <;> rfl
      · split at hx
        · rw [List.mem_singleton.1 hx]
          rfl
        · cases hx
    · cases hx
  unfold GenSource.items
  rw [List.filterMap_append, List.filterMap_append, List.filterMap_append, List.filterMap_append, List.filterMap_append, h1, h2, h3, h3]
  rfl

/-- C105: the text of the source file, read by the rules of C, is a file with exactly the functions that are meant, in
order, each with its head and its lines; the definition and the macros with the lengths have the values of the node. -/
theorem C105_file_partial (n : Node) (g : Generated) (hg : generate n = .ok g) (old : Option Str) (o : GenOptions) (f : GenFiles)
    (hf : genFiles old o g = .ok f) (hn : GenNames old o g) :
    ∃ u, readSource f.source.text = some u ∧
      u.filterMap CItem.function = f.source.defs.map (fun d => (d.proto, d.body.lines)) ∧
      (∃ lit len, emitDefinition g = .ok (lit, len) ∧ .literal "m_apxDefinitionData".toList lit ∈ u ∧
        macroOf u "APX_DEFINITON_LEN".toList = some len) ∧
      macroOf u "APX_IN_PORT_DATA_LEN".toList = some g.inLen ∧ macroOf u "APX_OUT_PORT_DATA_LEN".toList = some g.outLen := by
  obtain ⟨s1, s2, s3, s4, s5, s6⟩ := genFiles_source hf
  obtain ⟨m1, m2, m3⟩ := items_macros f.source
  exact ⟨f.source.items, readSource_text _ (source_names n g hg old o f hf hn), items_functions _,
    ⟨_, _, s6, literal_item _, m1⟩, by rw [m2, s1], by rw [m3, s2]⟩

/-- C105: whatever the arrays contain, a call of the function with the text of `ApxNode_Init_*` copies the initial data,
clears the flags, changes no other array, and tells `m_nodeData` the name of the node, the definition with its length,
the arrays with their lengths and, if there are callbacks, the function to be told of received data. -/
theorem C105_init_partial (n : Node) (g : Generated) (hg : generate n = .ok g) (old : Option Str) (o : GenOptions) (f : GenFiles)
    (hf : genFiles old o g = .ok f) (hn : GenNames old o g) :
    ∃ u lines, readSource f.source.text = some u ∧
      .func ⟨"ApxNode_Init_".toList ++ o.nameFor g.node, ⟨"apx_nodeData_t".toList, true⟩, []⟩ lines ∈ u ∧
      ∀ m : CMem, m.Fits u → ∃ m', cCall u lines m = some m' ∧
        (0 < g.inLen → m'.bytes "m_inPortdata".toList = g.inInit ∧
          (o.flags = true → m'.bytes "m_inPortSyncedFlags".toList = List.replicate g.inLen 0)) ∧
        (0 < g.outLen → m'.bytes "m_outPortdata".toList = g.outInit ∧
          m'.bytes "m_outPortDirtyFlags".toList = List.replicate g.outLen 0) ∧
        (∀ a, arraySize u a = none → m'.bytes a = m.bytes a) ∧
        ∃ d, m'.node = some d ∧ d.name = g.node.name ∧
          (∃ lit, emitDefinition g = .ok (lit, d.defLen) ∧ .literal d.definition lit ∈ u) ∧
          d.inData = (if 0 < g.inLen then
            some ⟨"m_inPortdata".toList, if o.flags then some "m_inPortSyncedFlags".toList else none, g.inLen⟩ else none) ∧
          d.outData = (if 0 < g.outLen then some ⟨"m_outPortdata".toList, some "m_outPortDirtyFlags".toList, g.outLen⟩ else none) ∧
          d.handler = if o.callbacks.isSome then some (notifyName g.node.name) else none := by
  obtain ⟨s1, s2, s3, s4, s5, s6⟩ := genFiles_source hf
  obtain ⟨l1, l2⟩ := C53_init_length n g hg
  obtain ⟨rs, ps, cbs, c, rd, wd, k1, k2, k3, k4, k5, k6, k7, k8, k9, k10, k11⟩ := genFiles_parts hf
  have hc := (callbackCode_eq k4).2
  have hi : f.source.inInit.length = f.source.inLen := by rw [s3, s1]; exact l1
  have ho : f.source.outInit.length = f.source.outLen := by rw [s4, s2]; exact l2
  refine ⟨f.source.items, (CBody.init (initBody g.node.name g.inLen g.outLen o.flags c.handler)).lines,
    readSource_text _ (source_names n g hg old o f hf hn), ?_, ?_⟩
  · unfold GenSource.items
    refine List.mem_append.2 (.inr (List.mem_map.2 ⟨⟨initProto (o.nameFor g.node),
      .init (initBody g.node.name g.inLen g.outLen o.flags c.handler)⟩, ?_, rfl⟩))
    rw [k10]
    simp
  · intro m hm
    have r := call_init f.source g.node.name hn.node.1 c.handler (by
      intro x hx
      rw [hc] at hx
      split at hx
      · cases hx
        exact (notify_ident hn.node).1
      · cases hx) hi ho m hm
    rw [s1, s2, s5] at r
    refine ⟨_, r, ?_, ?_, ?_, _, rfl, rfl, ⟨_, s6, literal_item _⟩, ?_, ?_, hc⟩
    · intro hpos
      have hpos' : 0 < f.source.inLen := by rw [s1]; exact hpos
      constructor
      · show (if _ then _ else _) = _
        rw [if_pos ⟨hpos', rfl⟩, s3]
      · intro hfl
        have ne : "m_inPortSyncedFlags".toList ≠ "m_inPortdata".toList := by decide +kernel
        show (if _ then _ else _) = _
        rw [if_neg (fun h => ne h.2), if_pos ⟨hpos', by rw [s5]; exact hfl, rfl⟩, s1]
    · intro hpos
      have hpos' : 0 < f.source.outLen := by rw [s2]; exact hpos
      have n1 : "m_outPortdata".toList ≠ "m_inPortdata".toList := by decide +kernel
      have n2 : "m_outPortDirtyFlags".toList ≠ "m_inPortdata".toList := by decide +kernel
      have n5 : "m_outPortdata".toList ≠ "m_inPortSyncedFlags".toList := by decide +kernel
      have n6 : "m_outPortDirtyFlags".toList ≠ "m_inPortSyncedFlags".toList := by decide +kernel
      have n7 : "m_outPortDirtyFlags".toList ≠ "m_outPortdata".toList := by decide +kernel
      constructor
      · show (if _ then _ else _) = _
        rw [if_neg (fun h => n1 h.2), if_neg (fun h => n5 h.2.2), if_pos ⟨hpos', rfl⟩, s4]
      · show (if _ then _ else _) = _
        rw [if_neg (fun h => n2 h.2), if_neg (fun h => n6 h.2.2), if_neg (fun h => n7 h.2), if_pos ⟨hpos', rfl⟩, s2]
    · intro a ha
      show (if _ then _ else _) = _
      split
      · rename_i h
        rw [h.2, (items_in f.source (by omega) hi).1] at ha
        cases ha
      · split
        · rename_i h
          rw [h.2.2, (items_in f.source (by omega) hi).2.2 h.2.1] at ha
          cases ha
        · split
          · rename_i h
            rw [h.2, (items_out f.source (by omega) ho).1] at ha
            cases ha
          · split
            · rename_i h
              rw [h.2, (items_out f.source (by omega) ho).2.2] at ha
              cases ha
            · rfl
    · show (if _ then _ else _) = _
      simp only [s1, s5, gt_iff_lt, decide_eq_true_eq]
    · show (if _ then _ else _) = _
      simp only [s2, gt_iff_lt, decide_eq_true_eq]

theorem connected_lines : ∀ hasIn hasOut inOpen outOpen : Bool, cCondition inOpen outOpen (CBody.connected hasIn hasOut).lines =
    some ((hasIn || hasOut) && (!hasIn || inOpen) && (!hasOut || outOpen)) := by decide +kernel

/-- C105: the function with the text of `ApxNode_IsConnected_*` tells whether the files of all directions with data are
open, and `false` without data; the one with the text of `ApxNode_GetNodeData_*` changes nothing. -/
theorem C105_connected_partial (n : Node) (g : Generated) (hg : generate n = .ok g) (old : Option Str) (o : GenOptions) (f : GenFiles)
    (hf : genFiles old o g = .ok f) (hn : GenNames old o g) :
    ∃ u lines lines', readSource f.source.text = some u ∧
      .func ⟨"ApxNode_IsConnected_".toList ++ o.nameFor g.node, ⟨"bool".toList, false⟩, []⟩ lines ∈ u ∧
      .func ⟨"ApxNode_GetNodeData_".toList ++ o.nameFor g.node, ⟨"apx_nodeData_t".toList, true⟩, []⟩ lines' ∈ u ∧
      (∀ inOpen outOpen, ∃ b, cCondition inOpen outOpen lines = some b ∧ (b = true ↔ (0 < g.inLen ∨ 0 < g.outLen) ∧
        (0 < g.inLen → inOpen = true) ∧ (0 < g.outLen → outOpen = true))) ∧
      ∀ m : CMem, cCall u lines' m = some { m with table := .missing } := by
  obtain ⟨rs, ps, cbs, c, rd, wd, k1, k2, k3, k4, k5, k6, k7, k8, k9, k10, k11⟩ := genFiles_parts hf
  refine ⟨f.source.items, (CBody.connected (decide (g.inLen > 0)) (decide (g.outLen > 0))).lines, (CBody.nodeData).lines,
    readSource_text _ (source_names n g hg old o f hf hn), ?_, ?_, ?_, ?_⟩
  · unfold GenSource.items
    refine List.mem_append.2 (.inr (List.mem_map.2 ⟨⟨connectedProto (o.nameFor g.node),
      .connected (decide (g.inLen > 0)) (decide (g.outLen > 0))⟩, ?_, rfl⟩))
    rw [k10]
    simp
  · unfold GenSource.items
    refine List.mem_append.2 (.inr (List.mem_map.2 ⟨⟨nodeDataProto (o.nameFor g.node), .nodeData⟩, ?_, rfl⟩))
    rw [k10]
    simp
  · intro inOpen outOpen
    refine ⟨_, connected_lines _ _ _ _, ?_⟩
    by_cases h1 : 0 < g.inLen <;> by_cases h2 : 0 < g.outLen <;> simp [h1, h2]
  · intro m
    show (if ([] : List Str) = [] then _ else _) = _
    rw [if_pos rfl, lexC_indent, if_pos (by decide +kernel)]

end Apx
