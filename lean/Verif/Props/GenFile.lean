import Verif.Spec.GenFile
import Verif.Props.GenCode
import Verif.Props.GenText
import Verif.Model.GenInit

/-! C88: the generated files fit together; C89: the function that initializes the node. -/

namespace Apx

/-! ### Names -/

theorem take_of_append_eq {a b x y : Str} (k : Nat) (h : a ++ x = b ++ y) (ha : k ≤ a.length) (hb : k ≤ b.length) :
    a.take k = b.take k := by
  have := congrArg (List.take k) h
  rwa [List.take_append_of_le_length ha, List.take_append_of_le_length hb] at this

/-- Two prefixes that differ in their first ten characters. -/
theorem prefix_ne {a b x y : Str} (ha : 10 ≤ a.length) (hb : 10 ≤ b.length) (h : a.take 10 ≠ b.take 10) : a ++ x ≠ b ++ y :=
  fun e => h (take_of_append_eq 10 e ha hb)

/-- A name followed by `s` is not the name preceded by `a`, unless `s` begins like a rotation of `a`. -/
theorem rotation_ne (a s t : Str) (ha : 2 ≤ a.length) (hs : 2 ≤ s.length)
    (h : ∀ k < a.length, s.take 2 ≠ (a.drop k ++ a.take k).take 2) :
    ∀ (n : Nat) (name : Str), name.length = n → name ++ s ≠ a ++ (name ++ t) := by
  intro n
  induction n using Nat.strongRecOn with
  | _ n ih =>
    intro name hn e
    by_cases hk : name.length < a.length
    · have h1 : a = name ++ a.drop name.length := by
        have := congrArg (List.take name.length) e
        rw [List.take_left, List.take_append_of_le_length (Nat.le_of_lt hk)] at this
        conv => lhs; rw [← List.take_append_drop name.length a]
        rw [← this]
      have h2 : a.take name.length = name := by
        conv => lhs; rw [h1]
        exact List.take_left
      apply h name.length hk
      have h3 : s = a.drop name.length ++ (name ++ t) := by
        conv at e => rhs; rw [h1]
        rw [List.append_assoc] at e
        exact List.append_cancel_left e
      have h4 : s = (a.drop name.length ++ a.take name.length) ++ t := by
        rw [h2, List.append_assoc]; exact h3
      rw [h4, List.take_append_of_le_length]
      simp only [List.length_append, List.length_drop, List.length_take]
      omega
    · have hk : a.length ≤ name.length := Nat.le_of_not_lt hk
      have h1 : name = a ++ name.drop a.length := by
        have := congrArg (List.take a.length) e
        rw [List.take_left, List.take_append_of_le_length hk] at this
        conv => lhs; rw [← List.take_append_drop a.length name]
        rw [this]
      have h2 : name.drop a.length ++ s = name ++ t := by
        conv at e => lhs; rw [h1]
        rw [List.append_assoc] at e
        exact List.append_cancel_left e
      refine ih (name.drop a.length).length ?_ _ rfl ?_
      · simp only [List.length_drop]; omega
      · rw [h2]
        conv => lhs; rw [h1]
        rw [List.append_assoc]

theorem notify_ne_read (name port : Str) :
    notifyName name ≠ "ApxNode_Read_".toList ++ name ++ ('_' :: port) := by
  rw [List.append_assoc]
  exact rotation_ne _ _ _ (by decide) (by decide) (by decide) _ name rfl

theorem notify_ne_write (name port : Str) :
    notifyName name ≠ "ApxNode_Write_".toList ++ name ++ ('_' :: port) := by
  rw [List.append_assoc]
  exact rotation_ne _ _ _ (by decide) (by decide) (by decide) _ name rfl

/-! ### Prototypes and definitions -/

theorem protos_names {f : Port → Py CProto} : ∀ {ports : List Port} {l : List (Str × CProto)},
    protos f ports = .ok l → l.map Prod.fst = ports.map Port.name := by
  intro ports
  induction ports with
  | nil => intro l h; simp only [protos, Except.ok.injEq] at h; subst h; rfl
  | cons p ps ih =>
    intro l h
    simp only [protos, bind_ok_iff, Except.ok.injEq] at h
    obtain ⟨c, _, r, h2, rfl⟩ := h
    simp [ih h2]

theorem protos_mem {f : Port → Py CProto} : ∀ {ports : List Port} {l : List (Str × CProto)},
    protos f ports = .ok l → (∀ p ∈ ports, ∃ c, f p = .ok c ∧ (p.name, c) ∈ l) ∧
      ∀ x ∈ l, ∃ p ∈ ports, x.1 = p.name ∧ f p = .ok x.2 := by
  intro ports
  induction ports with
  | nil => intro l h; simp only [protos, Except.ok.injEq] at h; subst h; simp
  | cons p ps ih =>
    intro l h
    simp only [protos, bind_ok_iff, Except.ok.injEq] at h
    obtain ⟨c, h1, r, h2, rfl⟩ := h
    obtain ⟨i1, i2⟩ := ih h2
    constructor
    · intro q hq
      rcases List.mem_cons.mp hq with rfl | hq
      · exact ⟨c, h1, List.mem_cons_self⟩
      · obtain ⟨d, e1, e2⟩ := i1 q hq
        exact ⟨d, e1, List.mem_cons_of_mem _ e2⟩
    · intro x hx
      rcases List.mem_cons.mp hx with rfl | hx
      · exact ⟨p, List.mem_cons_self, rfl, h1⟩
      · obtain ⟨q, e1, e2⟩ := i2 x hx
        exact ⟨q, List.mem_cons_of_mem _ e1, e2⟩

theorem find_named {α : Type} (name : α → Str) : ∀ (l : List α) (x : α), (l.map name).Nodup → x ∈ l →
    l.find? (fun y => name y = name x) = some x := by
  intro l
  induction l with
  | nil => simp
  | cons y l ih =>
    intro x hn hx
    simp only [List.map_cons, List.nodup_cons] at hn
    rcases List.mem_cons.mp hx with rfl | hx
    · simp
    · have : name y ≠ name x := fun e => hn.1 (e ▸ List.mem_map.mpr ⟨x, hx, rfl⟩)
      rw [List.find?_cons_of_neg (by simpa using this)]
      exact ih x hn.2 hx

theorem protoNamed_unique {l : List (Str × CProto)} {x : Str × CProto} (hn : (l.map Prod.fst).Nodup) (hx : x ∈ l) :
    protoNamed l x.1 = .ok x.2 := by
  unfold protoNamed
  rw [find_named Prod.fst l.reverse x (by rw [List.map_reverse]; exact (List.reverse_perm _).nodup_iff.mpr hn) (List.mem_reverse.mpr hx)]

theorem portDefs_protos {op : COp} {f : Port → Py CProto} {code : Port → Py (CFunc × Nat)} {l : List (Str × CProto)}
    (hn : (l.map Prod.fst).Nodup) : ∀ {ports : List Port} {l' : List (Str × CProto)} {d : List CDef},
    protos f ports = .ok l' → (∀ x ∈ l', x ∈ l) → portDefs op l code ports = .ok d →
      d.map CDef.proto = l'.map Prod.snd ∧ ∀ e ∈ d, e.body.handlers = [] ∧ e.body.calls = [] := by
  intro ports
  induction ports with
  | nil =>
    intro l' d h _ h2
    simp only [protos, portDefs, Except.ok.injEq] at h h2
    subst h; subst h2; simp
  | cons p ps ih =>
    intro l' d h hl h2
    simp only [protos, bind_ok_iff, Except.ok.injEq] at h
    obtain ⟨c, _, r, h3, rfl⟩ := h
    simp only [portDefs, bind_ok_iff, Except.ok.injEq] at h2
    obtain ⟨c', k1, g, _, r', k2, rfl⟩ := h2
    obtain ⟨i1, i2⟩ := ih h3 (fun x hx => hl x (List.mem_cons_of_mem _ hx)) k2
    have := protoNamed_unique hn (hl _ List.mem_cons_self)
    simp only at this
    rw [this] at k1
    cases k1
    refine ⟨by simp [i1], ?_⟩
    intro e he
    rcases List.mem_cons.mp he with rfl | he
    · exact ⟨rfl, rfl⟩
    · exact i2 e he

/-! ### Callbacks -/

theorem mkCbPorts_mem {cb : Str → Option Str} : ∀ {ss : List Signal} {l : List CbPort}, mkCbPorts cb ss = .ok l →
    l.map (fun c => c.entry.name) = ss.map Signal.name ∧ ∀ c ∈ l, ∃ s ∈ ss, mkCbPort cb s = .ok c := by
  intro ss
  induction ss with
  | nil => intro l h; simp only [mkCbPorts, Except.ok.injEq] at h; subst h; simp
  | cons s ss ih =>
    intro l h
    simp only [mkCbPorts, bind_ok_iff, Except.ok.injEq] at h
    obtain ⟨c, h1, r, h2, rfl⟩ := h
    obtain ⟨i1, i2⟩ := ih h2
    constructor
    · have : c.entry.name = s.name := by
        simp only [mkCbPort, bind_ok_iff, Except.ok.injEq] at h1
        obtain ⟨_, _, _, _, _, _, rfl⟩ := h1
        rfl
      simp [this, i1]
    · intro x hx
      rcases List.mem_cons.mp hx with rfl | hx
      · exact ⟨s, List.mem_cons_self, h1⟩
      · obtain ⟨q, e1, e2⟩ := i2 x hx
        exact ⟨q, List.mem_cons_of_mem _ e1, e2⟩

theorem genSignals_port (side : Side) (types : List NamedType) (ports : List Port) :
    ∀ (off : Nat) (ss : List Signal), genSignals side types off ports = .ok ss →
      ∀ s ∈ ss, ∃ p ∈ ports, s.name = p.name ∧ s.elem = p.elem := by
  induction ports with
  | nil => intro off ss h; simp only [genSignals, Except.ok.injEq] at h; subst h; simp
  | cons p ports ih =>
    intro off ss h
    have hall := (genSignals_each side types [p] off)
    simp only [genSignals, bind_ok_iff, Except.ok.injEq] at h
    obtain ⟨s, h1, ss', h2, rfl⟩ := h
    intro x hx
    rcases List.mem_cons.mp hx with rfl | hx
    · have := (hall [x] (by simp [genSignals, h1, ok_bind])).2 p List.mem_cons_self
      obtain ⟨s', m1, m2, _, _, m5, _⟩ := this
      rcases List.mem_singleton.mp m1 with rfl
      exact ⟨p, List.mem_cons_self, m2, m5.symm⟩
    · obtain ⟨q, e1, e2⟩ := ih _ _ h2 x hx
      exact ⟨q, List.mem_cons_of_mem _ e1, e2⟩

theorem switchItems_calls (name : Str) (isCase : CbEntry → Bool) (last : Nat) : ∀ (l : List CbPort) (w : Bool),
    ∀ x ∈ ((switchItems name isCase last w l).map CSwitchItem.calls).flatten, ∃ c ∈ l, x ∈ c.calls name := by
  intro l
  induction l with
  | nil => intro w x hx; simp [switchItems] at hx
  | cons c l ih =>
    intro w x hx
    simp only [switchItems, List.map_append, List.flatten_append, List.mem_append] at hx
    rcases hx with (hx | hx) | hx
    · split at hx <;> simp [CSwitchItem.calls] at hx
    · split at hx
      · simp only [List.map_cons, List.map_nil, CSwitchItem.calls, List.flatten_cons, List.flatten_nil, List.append_nil] at hx
        exact ⟨c, List.mem_cons_self, hx⟩
      · simp at hx
    · obtain ⟨d, e1, e2⟩ := ih _ x hx
      exact ⟨d, List.mem_cons_of_mem _ e1, e2⟩

theorem mkCbPorts_of {cb : Str → Option Str} {ss : List Signal} {l : List CbPort} (h : mkCbPorts cb ss = .ok l) :
    ∀ s ∈ ss, ∃ c ∈ l, mkCbPort cb s = .ok c := by
  induction ss generalizing l with
  | nil => simp
  | cons s ss ih =>
    simp only [mkCbPorts, bind_ok_iff, Except.ok.injEq] at h
    obtain ⟨c, h1, r, h2, rfl⟩ := h
    intro x hx
    rcases List.mem_cons.mp hx with rfl | hx
    · exact ⟨c, List.mem_cons_self, h1⟩
    · obtain ⟨c', e1, e2⟩ := ih h2 x hx
      exact ⟨c', List.mem_cons_of_mem _ e1, e2⟩

/-- The names of the members of the union. -/
theorem cbMembers_names (l : List CbPort) : (l.filterMap CbPort.member).map CMember.name =
    (l.filter fun c => c.entry.callback.isSome).map fun c => c.entry.name := by
  induction l with
  | nil => rfl
  | cons x l ih =>
    simp only [List.filterMap_cons, CbPort.member, List.filter_cons]
    by_cases hx : x.entry.callback.isSome
    · simp only [hx, if_true, List.map_cons, ← ih]
    · simp only [hx]
      exact ih

/-- The argument of a call made for a port. -/
theorem argType_of (l : List CbPort) (hn : (l.map fun c => c.entry.name).Nodup) (c : CbPort) (hc : c ∈ l)
    (hcb : c.entry.callback.isSome) (f : Str) (ref : Bool) :
    CDataCall.argType (cbMembers l) ⟨f, ref, c.entry.name, c.arrayLen.isSome⟩ = some ⟨c.typename, ref⟩ := by
  have hperm : (cbMembers l).Perm (l.filterMap CbPort.member) := sortedByName_perm _ _
  have hnd : ((cbMembers l).map CMember.name).Nodup := by
    rw [(hperm.map CMember.name).nodup_iff, cbMembers_names]
    exact hn.sublist (List.Sublist.map _ List.filter_sublist)
  have hmem : (⟨c.entry.name, c.typename, c.arrayLen⟩ : CMember) ∈ cbMembers l := by
    rw [hperm.mem_iff, List.mem_filterMap]
    exact ⟨c, hc, by simp [CbPort.member, hcb]⟩
  have := find_named CMember.name _ _ hnd hmem
  simp only at this
  unfold CDataCall.argType
  simp only
  rw [this]
  simp

/-! ### The names of all functions -/

theorem readProto_eq {name : Str} {p : Port} {c : CProto} (h : readProto name p = .ok c) :
    ∃ t, p.elem.ctypename = .ok t ∧
      c = ⟨"ApxNode_Read_".toList ++ name ++ ('_' :: p.name), ⟨"Std_ReturnType".toList, false⟩, [⟨"val".toList, ⟨t, true⟩⟩]⟩ := by
  simp only [readProto, bind_ok_iff, Except.ok.injEq] at h
  obtain ⟨t, h1, rfl⟩ := h
  exact ⟨t, h1, rfl⟩

theorem writeProto_name {name : Str} {p : Port} {c : CProto} (h : writeProto name p = .ok c) :
    c.name = "ApxNode_Write_".toList ++ name ++ ('_' :: p.name) := by
  simp only [writeProto, bind_ok_iff, Except.ok.injEq] at h
  obtain ⟨_, _, t, _, rfl⟩ := h
  rfl

/-- The names of the functions of the ports. -/
theorem protos_funcNames {f : Port → Py CProto} {pre : Str} (hf : ∀ p c, f p = .ok c → c.name = pre ++ ('_' :: p.name)) :
    ∀ {ports : List Port} {l : List (Str × CProto)}, protos f ports = .ok l →
      (l.map Prod.snd).map CProto.name = ports.map fun p => pre ++ ('_' :: p.name) := by
  intro ports
  induction ports with
  | nil => intro l h; simp only [protos, Except.ok.injEq] at h; subst h; rfl
  | cons p ps ih =>
    intro l h
    simp only [protos, bind_ok_iff, Except.ok.injEq] at h
    obtain ⟨c, h1, r, h2, rfl⟩ := h
    simp [← ih h2, hf p c h1]

theorem funcNames_nodup (pre : Str) (ports : List Port) (h : (ports.map Port.name).Nodup) :
    (ports.map fun p => pre ++ ('_' :: p.name)).Nodup := by
  induction ports with
  | nil => simp
  | cons p ps ih =>
    simp only [List.map_cons, List.nodup_cons, List.mem_map, not_exists, not_and] at h ⊢
    refine ⟨fun q hq e => h.1 q hq ?_, ih h.2⟩
    have := List.append_cancel_left e
    exact (List.cons.inj this).2

/-- No two functions of the header have the same name. -/
theorem header_nodup (name : Str) (rp pp : List Port) (hr : (rp.map Port.name).Nodup) (hp : (pp.map Port.name).Nodup)
    (nt : List Str) (hnt : nt = [] ∨ nt = [notifyName name]) :
    ([(initProto name).name, (nodeDataProto name).name, (connectedProto name).name] ++
      ((rp.map fun p => ("ApxNode_Read_".toList ++ name) ++ ('_' :: p.name)) ++
        (pp.map fun p => ("ApxNode_Write_".toList ++ name) ++ ('_' :: p.name))) ++ nt).Nodup := by
  have ir (x : Str) : (initProto name).name ≠ ("ApxNode_Read_".toList ++ name) ++ x := by
    rw [List.append_assoc]; exact prefix_ne (by decide) (by decide) (by decide)
  have iw (x : Str) : (initProto name).name ≠ ("ApxNode_Write_".toList ++ name) ++ x := by
    rw [List.append_assoc]; exact prefix_ne (by decide) (by decide) (by decide)
  have nr (x : Str) : (nodeDataProto name).name ≠ ("ApxNode_Read_".toList ++ name) ++ x := by
    rw [List.append_assoc]; exact prefix_ne (by decide) (by decide) (by decide)
  have nw (x : Str) : (nodeDataProto name).name ≠ ("ApxNode_Write_".toList ++ name) ++ x := by
    rw [List.append_assoc]; exact prefix_ne (by decide) (by decide) (by decide)
  have cr (x : Str) : (connectedProto name).name ≠ ("ApxNode_Read_".toList ++ name) ++ x := by
    rw [List.append_assoc]; exact prefix_ne (by decide) (by decide) (by decide)
  have cw (x : Str) : (connectedProto name).name ≠ ("ApxNode_Write_".toList ++ name) ++ x := by
    rw [List.append_assoc]; exact prefix_ne (by decide) (by decide) (by decide)
  have rw' (x y : Str) : ("ApxNode_Read_".toList ++ name) ++ x ≠ ("ApxNode_Write_".toList ++ name) ++ y := by
    rw [List.append_assoc, List.append_assoc]; exact prefix_ne (by decide) (by decide) (by decide)
  have e1 : (initProto name).name ≠ (nodeDataProto name).name := prefix_ne (by decide) (by decide) (by decide)
  have e2 : (initProto name).name ≠ (connectedProto name).name := prefix_ne (by decide) (by decide) (by decide)
  have e3 : (nodeDataProto name).name ≠ (connectedProto name).name := prefix_ne (by decide) (by decide) (by decide)
  have l0 : (notifyName name).length = name.length + 18 := by simp [notifyName]
  have l1 : (initProto name).name.length = name.length + 13 := by
    show ("ApxNode_Init_".toList ++ name).length = _
    rw [List.length_append, show "ApxNode_Init_".toList.length = 13 by decide, Nat.add_comm]
  have l2 : (nodeDataProto name).name.length = name.length + 20 := by
    show ("ApxNode_GetNodeData_".toList ++ name).length = _
    rw [List.length_append, show "ApxNode_GetNodeData_".toList.length = 20 by decide, Nat.add_comm]
  have l3 : (connectedProto name).name.length = name.length + 20 := by
    show ("ApxNode_IsConnected_".toList ++ name).length = _
    rw [List.length_append, show "ApxNode_IsConnected_".toList.length = 20 by decide, Nat.add_comm]
  have hports : ((rp.map fun p => ("ApxNode_Read_".toList ++ name) ++ ('_' :: p.name)) ++
        (pp.map fun p => ("ApxNode_Write_".toList ++ name) ++ ('_' :: p.name))).Nodup := by
    rw [List.nodup_append]
    refine ⟨funcNames_nodup _ _ hr, funcNames_nodup _ _ hp, ?_⟩
    intro a ha b hb
    obtain ⟨p, _, rfl⟩ := List.mem_map.mp ha
    obtain ⟨q, _, rfl⟩ := List.mem_map.mp hb
    exact rw' _ _
  have hnode : [(initProto name).name, (nodeDataProto name).name, (connectedProto name).name].Nodup := by
    simp [e1, e2, e3]
  have hfirst : ([(initProto name).name, (nodeDataProto name).name, (connectedProto name).name] ++
      ((rp.map fun p => ("ApxNode_Read_".toList ++ name) ++ ('_' :: p.name)) ++
        (pp.map fun p => ("ApxNode_Write_".toList ++ name) ++ ('_' :: p.name)))).Nodup := by
    rw [List.nodup_append]
    refine ⟨hnode, hports, ?_⟩
    intro a ha b hb
    rcases List.mem_append.mp hb with hb | hb <;> obtain ⟨q, _, rfl⟩ := List.mem_map.mp hb <;>
      simp only [List.mem_cons, List.not_mem_nil, or_false] at ha <;> rcases ha with rfl | rfl | rfl
    · exact ir _
    · exact nr _
    · exact cr _
    · exact iw _
    · exact nw _
    · exact cw _
  rcases hnt with rfl | rfl
  · rw [List.append_nil]; exact hfirst
  · rw [List.nodup_append]
    refine ⟨hfirst, by simp, ?_⟩
    intro a ha b hb
    rw [List.mem_singleton.mp hb]
    rcases List.mem_append.mp ha with ha | ha
    · intro e
      have := congrArg List.length e
      simp only [List.mem_cons, List.not_mem_nil, or_false] at ha
      rcases ha with rfl | rfl | rfl <;> omega
    · rcases List.mem_append.mp ha with ha | ha <;> obtain ⟨q, _, rfl⟩ := List.mem_map.mp ha
      · exact (notify_ne_read name q.name).symm
      · exact (notify_ne_write name q.name).symm

/-! ### The theorem -/

/-- What the callback code of a generator without earlier callbacks is. -/
theorem callbackCode_eq {old : Option Str} {g : Generated} {name : Option Str} {callbacks : Option (Str → Option Str)}
    {c : CallbackCode} (h : ((⟨[], [], [], old⟩ : GenState).generate g name callbacks).2 = .ok c) :
    c.notify = notifyAfter g.inLen (name.getD g.node.name) old ∧
      c.handler = (if callbacks.isSome then some (notifyName g.node.name) else none) := by
  unfold GenState.generate at h
  cases callbacks with
  | none =>
    simp only [Except.ok.injEq] at h
    subst h
    exact ⟨rfl, rfl⟩
  | some cb =>
    simp only at h
    split at h
    · simp at h
    · simp only [Except.ok.injEq] at h
      subst h
      exact ⟨rfl, rfl⟩

theorem initBody_handlers (nodeName : Str) (inLen outLen : Nat) (flags : Bool) (handler : Option Str) :
    (CBody.init (initBody nodeName inLen outLen flags handler)).handlers = handler.toList := by
  unfold initBody CBody.handlers
  cases handler <;> by_cases h1 : inLen > 0 <;> by_cases h2 : outLen > 0 <;> cases flags <;> simp [h1, h2]

/-- The parts of a successful generation. -/
theorem genFiles_parts {old : Option Str} {o : GenOptions} {g : Generated} {f : GenFiles} (h : genFiles old o g = .ok f) :
    ∃ rs ps cbs c rd wd, protos (readProto (o.nameFor g.node)) g.node.requires = .ok rs ∧
      protos (writeProto (o.nameFor g.node)) g.node.provides = .ok ps ∧ cbPortsOf o g = .ok cbs ∧
      ((⟨[], [], [], old⟩ : GenState).generate g o.name o.callbacks).2 = .ok c ∧
      portDefs .unpack rs (readFunc g o.suffix) g.node.requires = .ok rd ∧
      portDefs .pack ps (writeFunc g o.suffix o.direct) g.node.provides = .ok wd ∧
      f.headerName = prefixedName (o.nameFor g.node) ++ ".h".toList ∧
      f.header = mkHeader o g (rs.map Prod.snd ++ ps.map Prod.snd) ∧
      f.source.includes = [prefixedName (o.nameFor g.node) ++ ".h".toList] ++
        (if o.callbacks.isSome then [prefixedName (o.nameFor g.node) ++ "_Cbk.h".toList] else []) ++ ["pack.h".toList] ∧
      f.source.defs = [⟨initProto (o.nameFor g.node), .init (initBody g.node.name g.inLen g.outLen o.flags c.handler)⟩,
          ⟨nodeDataProto (o.nameFor g.node), .nodeData⟩,
          ⟨connectedProto (o.nameFor g.node), .connected (decide (g.inLen > 0)) (decide (g.outLen > 0))⟩] ++
        rd ++ wd ++ notifyDefs (notifyBody (o.nameFor g.node) o.callbacks.isSome c cbs) c.notify ∧
      f.callbacks = if o.callbacks.isSome then
          some (prefixedName (o.nameFor g.node) ++ "_Cbk.h".toList, mkCbHeader (o.nameFor g.node) cbs) else none := by
  unfold genFiles at h
  simp only [bind_ok_iff, Except.ok.injEq] at h
  obtain ⟨rs, h1, ps, h2, cbs, h3, c, h4, d, h5, rd, h6, wd, h7, rfl⟩ := h
  exact ⟨rs, ps, cbs, c, rd, wd, h1, h2, h3, h4, h6, h7, rfl, rfl, rfl, rfl, rfl⟩

/-- The names of the callbacks that are declared. -/
theorem cbHeader_names (name : Str) (l : List CbPort) :
    ((mkCbHeader name l).protos.map CProto.name).Perm (l.filterMap fun c => c.entry.callback) := by
  unfold mkCbHeader
  simp only
  have h1 : ∀ l : List CbPort, (l.filterMap CbPort.proto).map CProto.name = l.filterMap fun c => c.entry.callback := by
    intro l
    rw [List.map_filterMap]
    congr 1
    funext c
    unfold CbPort.proto
    cases c.entry.callback <;> rfl
  rw [h1]
  exact (sortedByKey_perm _ l).filterMap _

/-- Every entry has the callback given for the name of its port. -/
theorem mkCbPorts_callbacks {cb : Str → Option Str} {ss : List Signal} {l : List CbPort} (h : mkCbPorts cb ss = .ok l) :
    (l.filterMap fun c => c.entry.callback) = (ss.map Signal.name).filterMap cb := by
  induction ss generalizing l with
  | nil => simp only [mkCbPorts, Except.ok.injEq] at h; subst h; rfl
  | cons s ss ih =>
    simp only [mkCbPorts, bind_ok_iff, Except.ok.injEq] at h
    obtain ⟨c, h1, r, h2, rfl⟩ := h
    have : c.entry.callback = cb s.name := by
      simp only [mkCbPort, bind_ok_iff, Except.ok.injEq] at h1
      obtain ⟨_, _, _, _, _, _, rfl⟩ := h1
      rfl
    simp only [List.filterMap_cons, List.map_cons, this, ih h2]

/-- What is asked of a dictionary of callbacks: the code is generated under the name of the node, which has bytes to
receive, and the functions are different from each other and from the generated ones. -/
structure CallbacksApart (o : GenOptions) (g : Generated) (f : GenFiles) (cb : Str → Option Str) : Prop where
  own : o.nameFor g.node = g.node.name
  bytes : 0 < g.inLen
  distinct : ((g.node.requires.map Port.name).filterMap cb).Nodup
  other : ∀ p ∈ g.node.requires, ∀ x, cb p.name = some x → x ∉ f.header.protos.map CProto.name

/-- C88: the files generated by a new generator for a node with distinct names of require ports and distinct names of
provide ports fit together: the source includes the headers and defines exactly the functions declared in its header,
with the same types and each once; the handler it installs and the functions it calls are declared, and the arguments of
these calls have the declared types. -/
theorem C88_fit_partial (n : Node) (g : Generated) (hg : generate n = .ok g) (o : GenOptions) (f : GenFiles)
    (hf : genFiles none o g = .ok f) (hr : (g.node.requires.map Port.name).Nodup)
    (hp : (g.node.provides.map Port.name).Nodup)
    (hcb : ∀ cb, o.callbacks = some cb → CallbacksApart o g f cb) : f.Fit := by
  obtain ⟨rs, ps, cbs, c, rd, wd, k1, k2, k3, k4, k5, k6, k7, k8, k9, k10, k11⟩ := genFiles_parts hf
  obtain ⟨c1, c2⟩ := callbackCode_eq k4
  have hrs : (rs.map Prod.fst).Nodup := by rw [protos_names k1]; exact hr
  have hps : (ps.map Prod.fst).Nodup := by rw [protos_names k2]; exact hp
  obtain ⟨d1, d2⟩ := portDefs_protos hrs k1 (fun _ h => h) k5
  obtain ⟨d3, d4⟩ := portDefs_protos hps k2 (fun _ h => h) k6
  have hname : o.name.getD g.node.name = o.nameFor g.node := rfl
  rw [hname] at c1
  have hnotify : (notifyDefs (notifyBody (o.nameFor g.node) o.callbacks.isSome c cbs) c.notify).map CDef.proto =
      (if g.inLen > 0 then [notifyProto (notifyName (o.nameFor g.node))] else []) := by
    rw [c1]
    unfold notifyAfter notifyDefs
    by_cases h : g.inLen > 0 <;> simp [h]
  have hheader : f.header.protos = [initProto (o.nameFor g.node), nodeDataProto (o.nameFor g.node),
      connectedProto (o.nameFor g.node)] ++ (rs.map Prod.snd ++ ps.map Prod.snd) ++
      (if g.inLen > 0 then [notifyProto (notifyName (o.nameFor g.node))] else []) := by
    rw [k8]; rfl
  -- the signals are those of the require ports
  have hsig : g.require.map Signal.name = g.node.requires.map Port.name ∧
      ∀ s ∈ g.require, ∃ p ∈ g.node.requires, s.name = p.name ∧ s.elem = p.elem := by
    obtain ⟨n', h1, h2⟩ := bind_ok_iff.mp hg
    obtain ⟨rs', h3, h2⟩ := bind_ok_iff.mp h2
    obtain ⟨ps', h4, h2⟩ := bind_ok_iff.mp h2
    obtain ⟨ib, h5, h2⟩ := bind_ok_iff.mp h2
    obtain ⟨ob, h6, h2⟩ := bind_ok_iff.mp h2
    simp only [Except.ok.injEq] at h2
    rw [← h2]
    exact ⟨(genSignals_each _ _ _ _ _ h3).1, genSignals_port _ _ _ _ _ h3⟩
  have hnd : (f.header.protos.map CProto.name).Nodup := by
    rw [hheader]
    simp only [List.map_append]
    rw [protos_funcNames (pre := "ApxNode_Read_".toList ++ o.nameFor g.node) (fun p c h => by
        obtain ⟨t, _, rfl⟩ := readProto_eq h; rfl) k1,
      protos_funcNames (pre := "ApxNode_Write_".toList ++ o.nameFor g.node) (fun p c h => writeProto_name h) k2]
    refine header_nodup _ _ _ hr hp _ ?_
    by_cases h : g.inLen > 0
    · right; simp [h, notifyProto]
    · left; simp [h]
  refine ⟨?_, ?_, ?_, ?_, ?_⟩
  · rw [k7, k9, k11]
    refine ⟨by simp, ?_⟩
    intro x hx
    by_cases h : o.callbacks.isSome
    · simp only [h, if_true, Option.some.injEq] at hx
      subst hx
      simp [h]
    · simp [h] at hx
  · rw [hheader, k10]
    simp only [List.map_append, d1, d3, hnotify, List.append_assoc]
    rfl
  · unfold GenFiles.declared GenFiles.cbProtos
    rw [k11]
    cases hcbs : o.callbacks with
    | none => simpa using hnd
    | some cb =>
      have H := hcb cb hcbs
      have k3' : mkCbPorts cb g.require = .ok cbs := by simpa [cbPortsOf, hcbs] using k3
      have hperm := cbHeader_names (o.nameFor g.node) cbs
      rw [mkCbPorts_callbacks k3', hsig.1] at hperm
      simp only [Option.isSome_some, if_true, Option.elim_some, List.map_append]
      rw [List.nodup_append]
      refine ⟨hnd, hperm.nodup_iff.mpr H.distinct, ?_⟩
      intro a ha b hb e
      subst e
      rw [hperm.mem_iff, List.mem_filterMap] at hb
      obtain ⟨x, hx, hxa⟩ := hb
      obtain ⟨p, hp', rfl⟩ := List.mem_map.mp hx
      exact H.other p hp' a hxa ha
  · intro d hd x hx
    rw [k10] at hd
    simp only [List.mem_append, List.mem_cons, List.not_mem_nil, or_false] at hd
    rcases hd with (((rfl | rfl | rfl) | hd) | hd) | hd
    · rw [initBody_handlers, c2] at hx
      cases hcbs : o.callbacks with
      | none => simp [hcbs] at hx
      | some cb =>
        have H := hcb cb hcbs
        simp only [hcbs, Option.isSome_some, if_true, Option.toList_some, List.mem_singleton] at hx
        subst hx
        refine ⟨notifyProto (notifyName (o.nameFor g.node)), ?_, ?_, rfl⟩
        · rw [hheader]; simp [H.bytes]
        · rw [H.own]; rfl
    · simp [CBody.handlers] at hx
    · simp [CBody.handlers] at hx
    · rw [(d2 d hd).1] at hx; simp at hx
    · rw [(d4 d hd).1] at hx; simp at hx
    · unfold notifyDefs at hd
      split at hd
      · simp at hd
      · rw [List.mem_singleton.mp hd] at hx
        unfold notifyBody at hx
        split at hx <;> simp [CBody.handlers] at hx
  · intro d hd x hx
    rw [k10] at hd
    simp only [List.mem_append, List.mem_cons, List.not_mem_nil, or_false] at hd
    rcases hd with (((rfl | rfl | rfl) | hd) | hd) | hd
    · simp [CBody.calls] at hx
    · simp [CBody.calls] at hx
    · simp [CBody.calls] at hx
    · rw [(d2 d hd).2] at hx; simp at hx
    · rw [(d4 d hd).2] at hx; simp at hx
    · unfold notifyDefs at hd
      split at hd
      · simp at hd
      rw [List.mem_singleton.mp hd] at hx
      unfold notifyBody at hx
      cases hcbs : o.callbacks with
      | none => simp [hcbs, CBody.calls] at hx
      | some cb =>
        have H := hcb cb hcbs
        have k3' : mkCbPorts cb g.require = .ok cbs := by simpa [cbPortsOf, hcbs] using k3
        simp only [hcbs, Option.isSome_some, if_true, CBody.calls, List.mem_map] at hx
        obtain ⟨call, hcall, rfl⟩ := hx
        obtain ⟨cp, hcp, hin⟩ := switchItems_calls _ _ _ _ _ _ hcall
        rw [(sortedByKey_perm _ cbs).mem_iff] at hcp
        obtain ⟨m1, m2⟩ := mkCbPorts_mem k3'
        obtain ⟨s, hs, hcs⟩ := m2 cp hcp
        have hcbn : (cbs.map fun c => c.entry.name).Nodup := by rw [m1, hsig.1]; exact hr
        unfold CbPort.calls at hin
        cases hcallback : cp.entry.callback with
        | none => simp [hcallback] at hin
        | some fn =>
          have hsome : cp.entry.callback.isSome := by simp [hcallback]
          simp only [hcallback, List.mem_cons, List.not_mem_nil, or_false] at hin
          rcases hin with rfl | rfl
          · obtain ⟨p, hp1, hp2, hp3⟩ := hsig.2 s hs
            obtain ⟨q, hq1, hq2⟩ := (protos_mem k1).1 p hp1
            obtain ⟨t, ht, rfl⟩ := readProto_eq hq1
            have hcp2 : cp.entry.name = p.name ∧ cp.typename = t := by
              simp only [mkCbPort, bind_ok_iff, Except.ok.injEq] at hcs
              obtain ⟨t', ht', _, _, _, _, rfl⟩ := hcs
              rw [hp3, ht] at ht'
              exact ⟨hp2, (Except.ok.inj ht').symm⟩
            refine ⟨⟨"ApxNode_Read_".toList ++ o.nameFor g.node ++ ('_' :: p.name), ⟨"Std_ReturnType".toList, false⟩,
              [⟨"val".toList, ⟨t, true⟩⟩]⟩, ?_, ?_, _, argType_of cbs hcbn cp hcp hsome _ _, ?_⟩
            · unfold GenFiles.declared
              rw [hheader]
              refine List.mem_append_left _ (List.mem_append_left _ (List.mem_append_right _ (List.mem_append_left _ ?_)))
              exact List.mem_map.mpr ⟨_, hq2, rfl⟩
            · rw [hcp2.1]
            · rw [hcp2.2]; rfl
          · refine ⟨⟨fn, ⟨"void".toList, false⟩, [⟨"value".toList, ⟨cp.typename, cp.complex⟩⟩]⟩, ?_, rfl, _,
              argType_of cbs hcbn cp hcp hsome _ _, rfl⟩
            unfold GenFiles.declared GenFiles.cbProtos
            rw [k11]
            simp only [hcbs, Option.isSome_some, if_true, Option.elim_some]
            refine List.mem_append_right _ ?_
            unfold mkCbHeader
            simp only
            rw [List.mem_filterMap]
            exact ⟨cp, (sortedByKey_perm _ cbs).mem_iff.mpr hcp, by simp [CbPort.proto, hcallback]⟩

/-- C88: the union into which the emitted code reads received data has one member for each require port with a
callback and no other; the member has the C type of the port and, if the port is an array, as many items. -/
theorem C88_union (n : Node) (g : Generated) (hg : generate n = .ok g) (o : GenOptions) (cb : Str → Option Str)
    (hcb : o.callbacks = some cb) (f : GenFiles) (hf : genFiles none o g = .ok f)
    (hr : (g.node.requires.map Port.name).Nodup) (d : CDef) (hd : d ∈ f.source.defs) (ms : List CMember) (first : Option Str)
    (items : List CSwitchItem) (hb : d.body = .dispatch ms first items) :
    (ms.map CMember.name).Nodup ∧
    ∀ m : CMember, m ∈ ms ↔ ∃ p ∈ g.node.requires, (cb p.name).isSome ∧ m.name = p.name ∧
      p.elem.ctypename = .ok m.typename ∧ ∃ de, p.elem.resolveDataElement = .ok de ∧ m.arrayLen = de.arrayLen := by
  obtain ⟨rs, ps, cbs, c, rd, wd, k1, k2, k3, k4, k5, k6, k7, k8, k9, k10, k11⟩ := genFiles_parts hf
  have k3' : mkCbPorts cb g.require = .ok cbs := by simpa [cbPortsOf, hcb] using k3
  have hms : ms = cbMembers cbs := by
    rw [k10] at hd
    simp only [List.mem_append, List.mem_cons, List.not_mem_nil, or_false] at hd
    have hcode : ∀ op ps' fn ports l, portDefs op ps' fn ports = .ok l → d ∈ l → ∃ op' f', d.body = .code op' f' := by
      intro op ps' fn ports
      induction ports with
      | nil => intro l h hm; simp only [portDefs, Except.ok.injEq] at h; subst h; simp at hm
      | cons q ports ih =>
        intro l h hm
        unfold portDefs at h
        simp only [bind_ok_iff, Except.ok.injEq] at h
        obtain ⟨_, _, _, _, r, h2, rfl⟩ := h
        rcases List.mem_cons.mp hm with rfl | hm
        · exact ⟨_, _, rfl⟩
        · exact ih r h2 hm
    rcases hd with (((rfl | rfl | rfl) | hd) | hd) | hd
    · cases hb
    · cases hb
    · cases hb
    · obtain ⟨_, _, h⟩ := hcode _ _ _ _ _ k5 hd; rw [h] at hb; cases hb
    · obtain ⟨_, _, h⟩ := hcode _ _ _ _ _ k6 hd; rw [h] at hb; cases hb
    · unfold notifyDefs at hd
      split at hd
      · simp at hd
      · rw [List.mem_singleton.mp hd] at hb
        simp only [notifyBody, hcb, Option.isSome_some, if_true, CBody.dispatch.injEq] at hb
        exact hb.1.symm
  have hsig : g.require.map Signal.name = g.node.requires.map Port.name ∧
      (∀ s ∈ g.require, ∃ p ∈ g.node.requires, s.name = p.name ∧ s.elem = p.elem) ∧
      ∀ p ∈ g.node.requires, ∃ s ∈ g.require, s.name = p.name ∧ p.elem = s.elem := by
    obtain ⟨n', h1, h2⟩ := bind_ok_iff.mp hg
    obtain ⟨rs', h3, h2⟩ := bind_ok_iff.mp h2
    obtain ⟨ps', h4, h2⟩ := bind_ok_iff.mp h2
    obtain ⟨ib, h5, h2⟩ := bind_ok_iff.mp h2
    obtain ⟨ob, h6, h2⟩ := bind_ok_iff.mp h2
    simp only [Except.ok.injEq] at h2
    rw [← h2]
    refine ⟨(genSignals_each _ _ _ _ _ h3).1, genSignals_port _ _ _ _ _ h3, ?_⟩
    intro p hp
    obtain ⟨s, m1, m2, -, -, m5, -⟩ := (genSignals_each _ _ _ _ _ h3).2 p hp
    exact ⟨s, m1, m2, m5⟩
  obtain ⟨m1, m2⟩ := mkCbPorts_mem k3'
  subst hms
  have hperm : (cbMembers cbs).Perm (cbs.filterMap CbPort.member) := sortedByName_perm _ _
  constructor
  · rw [(hperm.map CMember.name).nodup_iff, cbMembers_names]
    refine List.Nodup.sublist (List.Sublist.map _ List.filter_sublist) ?_
    rw [m1, hsig.1]
    exact hr
  · intro m
    rw [hperm.mem_iff, List.mem_filterMap]
    constructor
    · rintro ⟨x, hx, hxm⟩
      obtain ⟨s, hs, hcs⟩ := m2 x hx
      obtain ⟨p, hp1, hp2, hp3⟩ := hsig.2.1 s hs
      simp only [mkCbPort, bind_ok_iff, Except.ok.injEq] at hcs
      obtain ⟨t, ht, de, hde, cx, -, rfl⟩ := hcs
      unfold CbPort.member at hxm
      split at hxm
      · rename_i hsome
        cases hxm
        refine ⟨p, hp1, ?_, hp2, by rw [← hp3]; exact ht, de, by rw [← hp3]; exact hde, rfl⟩
        rw [← hp2]
        exact hsome
      · cases hxm
    · rintro ⟨p, hp, hsome, hname, hty, de, hde, hal⟩
      obtain ⟨s, hs, hs1, hs2⟩ := hsig.2.2 p hp
      obtain ⟨x, hx, hcs⟩ := mkCbPorts_of k3' s hs
      refine ⟨x, hx, ?_⟩
      simp only [mkCbPort, bind_ok_iff, Except.ok.injEq] at hcs
      obtain ⟨t, ht, de', hde', cx, -, rfl⟩ := hcs
      rw [← hs2, hty] at ht
      rw [← hs2, hde] at hde'
      cases ht
      cases hde'
      obtain ⟨mn, mt, ma⟩ := m
      simp only at hname hal
      subst hname hal
      simp only [CbPort.member, mkEntry, hs1, hsome, if_true]

section Examples

/-- A node with a record type, an array, a text and numbers. -/
def gfNode : Node := (Node.new ['N']).run
  [.addType ['A'] ['{', '"', 'x', '"', 'C', '"', 'y', '"', 'S', '}'] none,
   .addPort .require ['Q'] ['S', '[', '2', ']'] (some ['=', '{', '3', ',', '4', '}']),
   .addPort .require ['R'] ['T', '[', '"', 'A', '"', ']'] (some ['=', '{', '1', ',', '5', '1', '3', '}']), .addPort .require ['U'] ['C'] none,
   .addPort .provide ['P'] ['S'] (some ['=', '2', '5', '8']), .addPort .provide ['Q'] ['a', '[', '4', ']'] (some ['=', '"', '"'])]

/-- Callbacks for all ports but `U`. -/
def gfCb (s : Str) : Option Str := if s = ['U'] then none else some ('o' :: 'n' :: s)

/-- A condition on generated files. -/
def gfCheck (r : Py GenFiles) (c : GenFiles → Bool) : Bool :=
  match r with
  | .ok f => c f
  | .error _ => false

/-- Hypotheses of C88. -/
example : (match generate gfNode with
    | .ok g => gfCheck (genFiles none { callbacks := some gfCb } g) fun f =>
        decide ((g.node.requires.map Port.name).Nodup ∧ (g.node.provides.map Port.name).Nodup ∧
          (({ callbacks := some gfCb } : GenOptions).nameFor g.node = g.node.name) ∧ 0 < g.inLen ∧
          ((g.node.requires.map Port.name).filterMap gfCb).Nodup ∧
          (∀ p ∈ g.node.requires, ∀ x ∈ (gfCb p.name).toList, x ∉ f.header.protos.map CProto.name) ∧
          f.source.defs.length = 9 ∧
          (f.source.defs.map fun d => d.body.calls.map Prod.snd).flatten =
            [some ⟨"uint16".toList, true⟩, some ⟨"uint16".toList, true⟩, some ⟨['A'], true⟩, some ⟨['A'], true⟩])
    | .error _ => false) = true := by decide +kernel

/-- The union for this node. -/
example : (match generate gfNode with
    | .ok g => gfCheck (genFiles none { callbacks := some gfCb } g) fun f =>
        f.source.defs.any fun d => match d.body with
          | .dispatch ms _ _ => decide (ms = [⟨['Q'], "uint16".toList, some 2⟩, ⟨['R'], ['A'], none⟩])
          | _ => false
    | .error _ => false) = true := by decide +kernel

end Examples

theorem gfCheck_ok {r : Py GenFiles} {c : GenFiles → Bool} (h : gfCheck r c = true) : ∃ f, r = .ok f ∧ c f = true := by
  unfold gfCheck at h
  cases r with
  | ok f => exact ⟨f, rfl, h⟩
  | error x => simp at h

/-- C88 is violated for nodes with two ports of one name: the source defines a function twice. -/
example : ∃ f, generateFiles {} geTwice = .ok f ∧ ¬ f.Fit := by
  obtain ⟨f, h1, h2⟩ := gfCheck_ok (r := generateFiles {} geTwice)
    (c := fun f => decide (¬ (f.header.protos.map CProto.name).Nodup)) (by decide +kernel)
  refine ⟨f, h1, fun hf => of_decide_eq_true h2 ?_⟩
  have := hf.once
  unfold GenFiles.declared at this
  rw [List.map_append, List.nodup_append] at this
  exact this.1

/-- C88 is violated if the code with callbacks is given another name than the node: the handler that is installed is
not declared. -/
example : ∃ f, generateFiles { name := some ['M'], callbacks := some gfCb } gfNode = .ok f ∧ ¬ f.Fit := by
  obtain ⟨f, h1, h2⟩ := gfCheck_ok (r := generateFiles { name := some ['M'], callbacks := some gfCb } gfNode)
    (c := fun f => decide (∃ d ∈ f.source.defs, ∃ h ∈ d.body.handlers, h ∉ f.header.protos.map CProto.name)) (by decide +kernel)
  obtain ⟨d, hd, h, hh, hn⟩ := of_decide_eq_true h2
  refine ⟨f, h1, fun hf => hn ?_⟩
  obtain ⟨p, hp, e, _⟩ := hf.handlers d hd h hh
  exact List.mem_map.mpr ⟨p, hp, e⟩

/-- C88 is violated for a generator used before: the source of a node without require ports defines the function of the
earlier node, which its header does not declare. -/
example : ∃ g f, generate geTwice = .ok g ∧ genFiles (some (notifyName ['M'])) {} g = .ok f ∧ ¬ f.Fit := by
  have h : (match generate geTwice with
    | .ok g => gfCheck (genFiles (some (notifyName ['M'])) {} g) fun f =>
        decide (f.source.defs.map CDef.proto ≠ f.header.protos)
    | .error _ => false) = true := by decide +kernel
  cases hg : generate geTwice with
  | error x => rw [hg] at h; simp at h
  | ok g =>
    rw [hg] at h
    obtain ⟨f, h1, h2⟩ := gfCheck_ok h
    exact ⟨g, f, rfl, h1, fun hf => of_decide_eq_true h2 hf.defined⟩

/-! ### C89 -/

theorem memcpyBytes_all {dst src : Bytes} {n : Nat} (h1 : dst.length = n) (h2 : src.length = n) :
    memcpyBytes dst src n = some src := by
  unfold memcpyBytes
  rw [if_pos ⟨by omega, by omega⟩, List.drop_of_length_le (by omega), List.take_of_length_le (by omega), List.append_nil]

/-- The arrays of the source file have their declared lengths. -/
structure CStatics.Sized (m : CStatics) (s : GenSource) : Prop where
  inBuf : m.inBuf.length = s.inLen
  inFlags : m.inFlags.length = s.inLen
  outBuf : m.outBuf.length = s.outLen
  outFlags : m.outFlags.length = s.outLen

theorem memsetZero_length (b : Bytes) : memsetZero b = List.replicate b.length 0 := by
  unfold memsetZero
  induction b with
  | nil => rfl
  | cons x b ih => simp [ih, List.replicate_succ]

theorem runInit_append (s : GenSource) (a b : List CInitStmt) (m : CStatics) :
    runInit s (a ++ b) m = (runInit s a m).bind (runInit s b) := by
  induction a generalizing m with
  | nil => rfl
  | cons c a ih =>
    simp only [List.cons_append, runInit]
    cases c.exec s m with
    | none => rfl
    | some m' => simpa using ih m'

/-- What the function that initializes the node does. -/
theorem runInit_body (s : GenSource) (nodeName : Str) (handler : Option Str) (m : CStatics) (hm : m.Sized s)
    (hi : s.inInit.length = s.inLen) (ho : s.outInit.length = s.outLen) :
    ∃ m', runInit s (initBody nodeName s.inLen s.outLen s.flags handler) m = some m' ∧
      m'.inBuf = s.inInit ∧ m'.outBuf = s.outInit ∧ m'.outFlags = List.replicate s.outLen 0 ∧
      (s.flags = true → m'.inFlags = List.replicate s.inLen 0) ∧
      m'.node = some ⟨nodeName, s.literal, s.defLen, if 0 < s.inLen then some (s.inLen, s.flags) else none,
        if 0 < s.outLen then some s.outLen else none, handler⟩ := by
  obtain ⟨ib, ifl, ob, ofl, tb, nd⟩ := m
  obtain ⟨a1, a2, a3, a4⟩ := hm
  simp only at a1 a2 a3 a4
  have m1 : memcpyBytes ib s.inInit s.inLen = some s.inInit := memcpyBytes_all a1 hi
  have m2 : memcpyBytes ob s.outInit s.outLen = some s.outInit := memcpyBytes_all a3 ho
  have nil_of {b : Bytes} {k : Nat} (h : b.length = k) (hk : ¬ 0 < k) : b = [] := List.eq_nil_of_length_eq_zero (by omega)
  have z1 := memsetZero_length ifl
  have z2 := memsetZero_length ofl
  rw [a2] at z1
  rw [a4] at z2
  unfold initBody
  by_cases h1 : 0 < s.inLen <;> by_cases h2 : 0 < s.outLen <;> cases hfl : s.flags <;> cases handler <;>
    simp [h1, h2, hfl, runInit, CInitStmt.exec, m1, m2, z1, z2, createObj, CTable.assign, CStatics.install] <;>
    (first
      | exact ⟨(nil_of a1 h1).trans (nil_of hi h1).symm, (nil_of a3 h2).trans (nil_of ho h2).symm,
          by rw [nil_of a4 h2, Nat.eq_zero_of_not_pos h2]; rfl, by rw [nil_of a2 h1, Nat.eq_zero_of_not_pos h1]; rfl⟩
      | exact ⟨(nil_of a1 h1).trans (nil_of hi h1).symm, (nil_of a3 h2).trans (nil_of ho h2).symm,
          by rw [nil_of a4 h2, Nat.eq_zero_of_not_pos h2]; rfl⟩
      | exact ⟨(nil_of a1 h1).trans (nil_of hi h1).symm, by rw [nil_of a2 h1, Nat.eq_zero_of_not_pos h1]; rfl⟩
      | exact ⟨(nil_of a3 h2).trans (nil_of ho h2).symm, by rw [nil_of a4 h2, Nat.eq_zero_of_not_pos h2]; rfl⟩
      | exact (nil_of a1 h1).trans (nil_of hi h1).symm
      | skip)

theorem genFiles_source {old : Option Str} {o : GenOptions} {g : Generated} {f : GenFiles} (h : genFiles old o g = .ok f) :
    f.source.inLen = g.inLen ∧ f.source.outLen = g.outLen ∧ f.source.inInit = g.inInit ∧ f.source.outInit = g.outInit ∧
      f.source.flags = o.flags ∧ emitDefinition g = .ok (f.source.literal, f.source.defLen) := by
  unfold genFiles at h
  simp only [bind_ok_iff, Except.ok.injEq] at h
  obtain ⟨rs, h1, ps, h2, cbs, h3, c, h4, d, h5, rd, h6, wd, h7, rfl⟩ := h
  exact ⟨rfl, rfl, rfl, rfl, rfl, h5⟩

/-- C89: whatever was in memory before, a call of the generated function that initializes the node leaves the initial
data in the buffers and no port marked; the node object has the name of the node, the emitted definition and, for each
direction with data, the length of its buffer, and its handler is there exactly if callbacks were given. -/
theorem C89_init (n : Node) (g : Generated) (hg : generate n = .ok g) (old : Option Str) (o : GenOptions) (f : GenFiles)
    (hf : genFiles old o g = .ok f) :
    ∃ stmts, (⟨initProto (o.nameFor g.node), .init stmts⟩ : CDef) ∈ f.source.defs ∧
      ∀ m : CStatics, m.Sized f.source → ∃ m' obj, runInit f.source stmts m = some m' ∧ m'.node = some obj ∧
        m'.inBuf = g.inInit ∧ m'.outBuf = g.outInit ∧ (∀ b ∈ m'.outFlags, b = 0) ∧ (o.flags = true → ∀ b ∈ m'.inFlags, b = 0) ∧
        obj.name = g.node.name ∧ emitDefinition g = .ok (obj.literal, obj.defLen) ∧
        obj.inData = (if 0 < g.inLen then some (g.inLen, o.flags) else none) ∧
        obj.outData = (if 0 < g.outLen then some g.outLen else none) ∧ obj.handler.isSome = o.callbacks.isSome := by
  obtain ⟨rs, ps, cbs, c, rd, wd, k1, k2, k3, k4, k5, k6, k7, k8, k9, k10, k11⟩ := genFiles_parts hf
  obtain ⟨s1, s2, s3, s4, s5, s6⟩ := genFiles_source hf
  obtain ⟨l1, l2⟩ := C53_init_length n g hg
  refine ⟨initBody g.node.name g.inLen g.outLen o.flags c.handler, by rw [k10]; simp, ?_⟩
  intro m hm
  obtain ⟨m', r1, r2, r3, r4, r5, r6⟩ := runInit_body f.source g.node.name c.handler m hm (by rw [s3, s1]; exact l1)
    (by rw [s4, s2]; exact l2)
  rw [s1, s2, s5] at r1
  refine ⟨m', _, r1, r6, by rw [r2, s3], by rw [r3, s4], ?_, ?_, rfl, s6, by simp only [s1, s5], by simp only [s2], ?_⟩
  · rw [r4]; intro b hb; exact List.eq_of_mem_replicate hb
  · intro hfl b hb
    rw [r5 (by rw [s5]; exact hfl)] at hb
    exact List.eq_of_mem_replicate hb
  · simp only
    rw [(callbackCode_eq k4).2]
    by_cases h : o.callbacks.isSome <;> simp [h]

/-- There is a file exactly if there is data. -/
theorem fileOf_len {s : PortLayout} {f : Option FileData} (h : createPortFile s = .ok f) :
    (∀ fl : Bool, (if 0 < (fileBytes f).length then some ((fileBytes f).length, fl) else none).map Prod.fst =
      f.map fun _ => (fileBytes f).length) ∧
    (if 0 < (fileBytes f).length then some (fileBytes f).length else none) = f.map fun _ => (fileBytes f).length := by
  obtain ⟨h1, h2, h3⟩ := createPortFile_ok h
  have hl : (fileBytes f).length = s.offset := by rw [h1, h2]
  rw [hl]
  cases f with
  | none =>
    have : s.offset = 0 := h3.mp rfl
    simp [this]
  | some x =>
    have : 0 < s.offset := Nat.pos_of_ne_zero fun e => by simpa using h3.mpr e
    simp [this]

/-- C89: after that call the C node is what the node data of the Python client is for the same node: the same initial
data in both directions and the same definition (followed by an empty line). This needs distinct port names in each
direction and a definition without backslashes and carriage returns. -/
theorem C89_as_runtime_partial (n : Node) (g : Generated) (hg : generate n = .ok g) (old : Option Str) (o : GenOptions)
    (f : GenFiles) (hf : genFiles old o g = .ok f) (nd : NodeData) (hnd : g.node.nodeData = .ok nd)
    (hr : (g.node.requires.map Port.name).Nodup) (hp : (g.node.provides.map Port.name).Nodup)
    (text : Str) (ht : g.node.definitionText false = .ok text) (h1 : '\\' ∉ text) (h2 : '\r' ∉ text) :
    ∃ stmts, (⟨initProto (o.nameFor g.node), .init stmts⟩ : CDef) ∈ f.source.defs ∧
      ∀ m : CStatics, m.Sized f.source → ∃ m' obj, runInit f.source stmts m = some m' ∧ m'.node = some obj ∧
        m'.inBuf = fileBytes nd.inFile ∧ m'.outBuf = fileBytes nd.outFile ∧
        obj.name = g.node.name ∧ cLiterals false obj.literal = some (text ++ ['\n']) ∧ obj.defLen = text.length + 1 ∧
        obj.inData.map Prod.fst = nd.inFile.map (fun _ => (fileBytes nd.inFile).length) ∧
        obj.outData = nd.outFile.map (fun _ => (fileBytes nd.outFile).length) := by
  obtain ⟨stmts, k1, k2⟩ := C89_init n g hg old o f hf
  have hb := hnd
  unfold Node.nodeData at hb
  rw [bind_ok_iff] at hb
  obtain ⟨_, -, hb⟩ := hb
  obtain ⟨_, _, _, _, e2, _, e4, -⟩ := build_inv hb
  obtain ⟨-, -, -, c4, c5, c6, c7⟩ := C53_layout_partial n g hg nd hnd
  obtain ⟨lit, d1, d2⟩ := C68_literal_partial g text ht h1 h2
  refine ⟨stmts, k1, fun m hm => ?_⟩
  obtain ⟨m', obj, r1, r2, r3, r4, -, -, r5, r6, r7, r8, -⟩ := k2 m hm
  rw [d1] at r6
  simp only [Except.ok.injEq, Prod.mk.injEq] at r6
  refine ⟨m', obj, r1, r2, r3.trans (c6 hr), r4.trans (c7 hp), r5, by rw [← r6.1]; exact d2, by rw [← r6.2]; simp, ?_, ?_⟩
  · rw [r7, c4]
    exact (fileOf_len e2).1 _
  · rw [r8, c5]
    exact (fileOf_len e4).2

/-- C89: the generated function that tells whether the node is connected returns true exactly if there is data in some
direction and the file of every direction with data is open. -/
theorem C89_connected (old : Option Str) (o : GenOptions) (g : Generated) (f : GenFiles) (hf : genFiles old o g = .ok f) :
    ∃ i u, (⟨connectedProto (o.nameFor g.node), .connected i u⟩ : CDef) ∈ f.source.defs ∧ ∀ inOpen outOpen,
      (connectedValue i u inOpen outOpen = true ↔
        (0 < g.inLen ∨ 0 < g.outLen) ∧ (0 < g.inLen → inOpen = true) ∧ (0 < g.outLen → outOpen = true)) := by
  obtain ⟨rs, ps, cbs, c, rd, wd, k1, k2, k3, k4, k5, k6, k7, k8, k9, k10, k11⟩ := genFiles_parts hf
  refine ⟨decide (g.inLen > 0), decide (g.outLen > 0), by rw [k10]; simp, ?_⟩
  intro a b
  by_cases h1 : 0 < g.inLen <;> by_cases h2 : 0 < g.outLen <;> simp [connectedValue, h1, h2]

section Examples

/-- A call of the function that initializes the node, with arrays full of 7. -/
def gfInit (o : GenOptions) (n : Node) : Py (Option CStatics) := do
  let f ← generateFiles o n
  match f.source.defs.head?.map CDef.body with
  | some (.init l) => .ok (runInit f.source l ⟨List.replicate f.source.inLen 7, List.replicate f.source.inLen 7,
      List.replicate f.source.outLen 7, List.replicate f.source.outLen 7, .missing, none⟩)
  | _ => .error .runtimeError

example : gfInit { callbacks := some gfCb } gfNode = .ok (some ⟨[3, 0, 4, 0, 1, 1, 2, 0], List.replicate 8 0, [2, 1, 0, 0, 0, 0],
    List.replicate 6 0, .missing, some ⟨['N'], definitionLiteral (String.toList
      "APX/1.2\nN\"N\"\nT\"A\"{\"x\"C\"y\"S}\nP\"P\"S:=258\nP\"Q\"a[4]:=\"\"\nR\"Q\"S[2]:={3,4}\nR\"R\"T[0]:={1,513}\nR\"U\"C\n"), 93,
      some (8, true), some 6, some (notifyName ['N'])⟩⟩) := by decide +kernel

/-- Hypotheses of `C89_as_runtime_partial`. -/
example : (match generate gfNode with
    | .ok g => gfCheck (genFiles none {} g) fun _ =>
        (match g.node.nodeData, g.node.definitionText false with
          | .ok nd, .ok text => decide (fileBytes nd.inFile = [3, 0, 4, 0, 1, 1, 2, 0] ∧ '\\' ∉ text ∧ '\r' ∉ text)
          | _, _ => false)
    | .error _ => false) = true := by decide +kernel

end Examples

end Apx
