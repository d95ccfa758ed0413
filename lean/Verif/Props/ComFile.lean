import Verif.Spec.ComFile
import Verif.Props.Com
import Verif.Props.GenFile
import Verif.Props.ImportText

/-! C92: the files of the communication layer. -/

namespace Apx

/-! ### The node of a component -/

theorem mirror_tabled {n m : Node} {name : Option Str} (h : n.tabled.mirror name = .ok m) :
    n.mirror name = .ok { m with types := n.types } := by
  unfold Node.mirror at h ⊢
  simp only [bind_ok_iff] at h
  obtain ⟨r, h1, p, h2, h3⟩ := h
  rw [tabled_ids] at h1 h2
  have e1 : mapPy (Port.mirror n.ids .provide) n.provides = .ok r := h1
  have e2 : mapPy (Port.mirror n.ids .require) n.requires = .ok p := h2
  rw [e1, e2]
  simp only [ok_bind]
  unfold Node.resolveTypes at h3 ⊢
  have hn : ∀ r p : List Port, (⟨name.getD n.tabled.name, false, n.tabled.types, r, p⟩ : Node).named =
      (⟨name.getD n.name, false, n.types, r, p⟩ : Node).named := fun _ _ => tabled_named n
  simp only [hn, bind_ok_iff, Except.ok.injEq] at h3
  obtain ⟨r', a1, p', a2, rfl⟩ := h3
  simp only [a1, a2, ok_bind]
  rfl

/-- The node of a component that can be imported and written: the ports of the imported node, exchanged. -/
theorem comNode_ok {c : Nat → Nat} (hc : Accurate c) {ws : Workspace} {swc : AComponent} (h : Importable ws swc)
    (hl : Legible ws swc none) : ∃ n, Node.fromSwc c ws swc none = .ok n ∧ comNode c ws swc =
      .ok ⟨n.name, false, n.types, n.provides.map fun p => { p with id := none }, n.requires.map fun p => { p with id := none }⟩ := by
  obtain ⟨n, hn⟩ := fromSwc_total hc h none
  have ht := import_text hc h hl hn
  have hm := mirror_eq ht.inv none (fun side p hp => (ht.writable.ports side p hp).2.1)
  refine ⟨n, hn, ?_⟩
  unfold comNode
  rw [hn, ok_bind, mirror_tabled hm]
  rfl

theorem isComplexType_compound {t : AType} {e : Elem} (h : t.RepresentedBy e) (tn : Str) :
    (Elem.refType tn e).isComplexType = .ok t.Compound := by
  cases t with
  | bool =>
    rw [AType.RepresentedBy] at h
    obtain ⟨tc, lo, hi, rfl, _⟩ := h
    rfl
  | int mn mx =>
    rw [AType.RepresentedBy] at h
    obtain ⟨tc, lo, hi, rfl, _⟩ := h
    rfl
  | string n =>
    rw [AType.RepresentedBy] at h
    obtain ⟨len, rfl, _⟩ := h
    rfl
  | record fs =>
    rw [AType.RepresentedBy] at h
    obtain ⟨es, rfl, _⟩ := h
    rfl
  | array => simp [AType.RepresentedBy] at h
  | other => simp [AType.RepresentedBy] at h

/-- The ports of the node for which code is generated. -/
theorem comNode_port {c : Nat → Nat} (hc : Accurate c) {ws : Workspace} {swc : AComponent} (h : Importable ws swc)
    (hl : Legible ws swc none) {m : Node} (hm : comNode c ws swc = .ok m) {g : Generated} (hg : generate m = .ok g) :
    g.node.name = m.name ∧ ∀ side, ∀ p ∈ swc.ports side, ∀ tn t, ws.typeOf p = some (tn, t) →
      ∃ q ∈ g.node.ports side.other, q.name = p.name ∧ q.elem.ctypename = .ok tn ∧ q.elem.isComplexType = .ok t.Compound := by
  obtain ⟨n, hn, hm'⟩ := comNode_ok hc h hl
  rw [hm] at hm'
  cases hm'
  have ht := import_text hc h hl hn
  have hports : ∀ (s : Side), (⟨n.name, false, n.types, n.provides.map fun p => { p with id := none },
      n.requires.map fun p => { p with id := none }⟩ : Node).ports s = (n.ports s.other).map fun p => { p with id := none } := by
    intro s; cases s <;> rfl
  generalize hmm : (⟨n.name, false, n.types, n.provides.map fun p => { p with id := none },
      n.requires.map fun p => { p with id := none }⟩ : Node) = m at *
  have hfin : m.isFinalized = false := by rw [← hmm]
  have hnamed : m.named = n.named := by rw [← hmm]; rfl
  have hinv : ∀ s, ∀ p ∈ m.ports s, PortInv m.named p := by
    intro s p hp
    rw [hports] at hp
    obtain ⟨q, hq, rfl⟩ := List.mem_map.mp hp
    have := ht.inv.ports s.other q (by cases s <;> exact hq)
    rw [tabled_named] at this
    rw [hnamed]
    exact ⟨this.ref, this.raw, this.attr⟩
  have hf : m.finalize true false = .ok (m.finalized true false) := by
    unfold Node.finalize
    rw [if_neg (by simp [hfin]), resolveTypes_id _ m.named]
    · rfl
    · intro side p hp
      rw [sortElements_ports] at hp
      exact hinv side p ((sortedByName_perm _ _).mem_iff.mp hp)
  have hgn : g.node = m.finalized true false := by
    unfold generate at hg
    simp only [bind_ok_iff] at hg
    obtain ⟨n', h1, _, _, _, _, _, _, _, _, h6⟩ := hg
    cases h6
    simp only [Node.finalizeForGenerator, hfin, Bool.false_eq_true, if_false, hf, Except.ok.injEq] at h1
    exact h1.symm
  refine ⟨by rw [hgn, finalized_name], ?_⟩
  intro side p hp tn t htt
  obtain ⟨n2, hn2, _, h5⟩ := C80_import_partial c hc ws swc h none
  rw [hn] at hn2
  cases hn2
  obtain ⟨h6, h7⟩ := h5 side
  obtain ⟨i, hi⟩ := List.getElem?_of_mem hp
  have hlen : (n.ports side).length = (swc.ports side).length := by
    simpa using congrArg List.length h6
  have hil := (List.getElem?_eq_some_iff.mp hi).1
  have hq : (n.ports side)[i]? = some ((n.ports side)[i]'(by omega)) := List.getElem?_eq_getElem _
  obtain ⟨tn', t', e, h8, h9, h10⟩ := h7 i p _ hi hq
  rw [htt] at h8
  cases h8
  have hname : ((n.ports side)[i]'(by omega)).name = p.name := by
    have := congrArg (fun l => l[i]?) h6
    simp only [List.getElem?_map, hi, hq, Option.map_some, Option.some.injEq] at this
    exact this
  generalize hqq : (n.ports side)[i]'(by omega) = q at *
  refine ⟨{ q with id := none }, ?_, hname, ?_, ?_⟩
  · rw [hgn, finalized_ports]
    simp only [if_true]
    refine (sortedByName_perm _ _).mem_iff.mpr ?_
    rw [hports]
    refine List.mem_map.mpr ⟨q, ?_, rfl⟩
    cases side <;> exact List.mem_of_getElem? hq
  · simp only [h9]; rfl
  · simp only [h9]; exact isComplexType_compound h10 tn

/-! ### The variables -/

theorem comVarTypes_kept (l : List ComApi) (vars : List (Str × Str)) (k x : Str) (h : vars.lookup k = some x) :
    (comVarTypes vars l).lookup k = some x := by
  induction l generalizing vars with
  | nil => exact h
  | cons a l ih =>
    apply ih
    split
    · exact h
    · rw [lookup_append, h]; rfl

/-- Every variable has the type of the functions that use it, if these agree. -/
theorem comVarTypes_lookup (l : List ComApi) (vars : List (Str × Str))
    (hv : ∀ a ∈ l, ∀ x, vars.lookup a.func.var = some x → x = a.typename)
    (ha : ∀ a ∈ l, ∀ b ∈ l, a.func.var = b.func.var → a.typename = b.typename) :
    ∀ a ∈ l, (comVarTypes vars l).lookup a.func.var = some a.typename := by
  induction l generalizing vars with
  | nil => simp
  | cons b l ih =>
    intro a hm
    unfold comVarTypes
    by_cases hb : (vars.lookup b.func.var).isSome = true
    · rw [if_pos hb]
      rcases List.mem_cons.mp hm with rfl | hm
      · obtain ⟨x, hx⟩ := Option.isSome_iff_exists.mp hb
        rw [comVarTypes_kept _ _ _ _ hx, hv a (by simp) x hx]
      · exact ih vars (fun a h => hv a (by simp [h])) (fun a h b h' => ha a (by simp [h]) b (by simp [h'])) a hm
    · rw [if_neg hb]
      have h0 : vars.lookup b.func.var = none := Option.not_isSome_iff_eq_none.mp hb
      rcases List.mem_cons.mp hm with rfl | hm
      · apply comVarTypes_kept
        rw [lookup_append, h0]
        simp
      · refine ih _ (fun c hc x hx => ?_) (fun a h b h' => ha a (by simp [h]) b (by simp [h'])) a hm
        rw [lookup_append] at hx
        cases hcv : vars.lookup c.func.var with
        | some y =>
          rw [hcv] at hx
          simp only [Option.some_or, Option.some.injEq] at hx
          rw [← hx]
          exact hv c (by simp [hc]) y hcv
        | none =>
          rw [hcv] at hx
          simp only [Option.none_or, List.lookup_cons] at hx
          by_cases he : (c.func.var == b.func.var) = true
          · rw [he] at hx
            simp only [Option.some.injEq] at hx
            rw [← hx]
            exact ha b (by simp) c (by simp [hc]) (by simpa using (by simpa using he : c.func.var = b.func.var).symm)
          · simp only [Bool.not_eq_true] at he
            rw [he] at hx
            simp at hx

theorem lookup_none_of {vars : List (Str × Str)} {k : Str} : vars.lookup k = none ↔ k ∉ vars.map Prod.fst := by
  induction vars with
  | nil => simp
  | cons x l ih =>
    obtain ⟨a, b⟩ := x
    by_cases h : k = a
    · subst h; simp
    · have : (k == a) = false := by simpa using h
      simp only [List.lookup_cons, this, ih, List.map_cons, List.mem_cons, h, false_or]

/-- No variable is declared twice. -/
theorem comVarTypes_nodup (l : List ComApi) (vars : List (Str × Str)) (h : (vars.map Prod.fst).Nodup) :
    ((comVarTypes vars l).map Prod.fst).Nodup := by
  induction l generalizing vars with
  | nil => exact h
  | cons a l ih =>
    apply ih
    split
    · exact h
    · rename_i hn
      have h0 : vars.lookup a.func.var = none := Option.not_isSome_iff_eq_none.mp hn
      rw [lookup_none_of] at h0
      simp only [List.map_append, List.map_cons, List.map_nil]
      rw [List.nodup_append]
      refine ⟨h, by simp, ?_⟩
      intro x hx y hy
      simp only [List.mem_singleton] at hy
      subst hy
      rintro rfl
      exact h0 hx

/-- In a list with distinct keys the order does not matter. -/
theorem lookup_mem {vars : List (Str × Str)} (hn : (vars.map Prod.fst).Nodup) (k x : Str) :
    vars.lookup k = some x ↔ (k, x) ∈ vars := by
  induction vars with
  | nil => simp
  | cons y l ih =>
    obtain ⟨a, b⟩ := y
    simp only [List.map_cons, List.nodup_cons] at hn
    by_cases h : k = a
    · subst h
      simp only [List.lookup_cons, BEq.rfl, Option.some.injEq, List.mem_cons, Prod.mk.injEq, true_and]
      constructor
      · intro h; exact .inl h.symm
      · rintro (h | h)
        · exact h.symm
        · exact absurd (List.mem_map.mpr ⟨_, h, rfl⟩) hn.1
    · have : (k == a) = false := by simpa using h
      simp only [List.lookup_cons, this, ih hn.2, List.mem_cons, Prod.mk.injEq, h, false_and, false_or]

/-! ### C92 -/

theorem mapPy_total {α β : Type} (f : α → Py β) (l : List α) (h : ∀ a ∈ l, ∃ b, f a = .ok b) :
    ∃ r, mapPy f l = .ok r ∧ ∀ b ∈ r, ∃ a ∈ l, f a = .ok b := by
  induction l with
  | nil => exact ⟨[], rfl, by simp⟩
  | cons x l ih =>
    obtain ⟨y, hy⟩ := h x (by simp)
    obtain ⟨r, h1, h2⟩ := ih (fun a ha => h a (by simp [ha]))
    refine ⟨y :: r, by simp only [mapPy, hy, h1, ok_bind], ?_⟩
    intro b hb
    rcases List.mem_cons.mp hb with rfl | hb
    · exact ⟨x, by simp, hy⟩
    · obtain ⟨a, ha, hab⟩ := h2 b hb
      exact ⟨a, by simp [ha], hab⟩

/-- C92: the files of the communication layer of a component whose functions belong to its ports fit together, and to
the files generated for its node, if the header is generated first and variables are shared only by functions of the
same type. -/
theorem C92_fit_partial (c : Nat → Nat) (hc : Accurate c) (ws : Workspace) (swc : AComponent) (h : Importable ws swc)
    (hl : Legible ws swc none) (send receive : List ComApi)
    (hs : ∀ a ∈ send, a.For ws swc .require AType.Compound) (hr : ∀ a ∈ receive, a.For ws swc .provide fun _ => true)
    (hv : ∀ a ∈ send, ∀ b ∈ send, a.func.var = b.func.var → a.typename = b.typename) :
    ∃ g, ComGen.new c ws swc send receive = .ok g ∧ ∀ (name : Str) (o : GenOptions) (f : GenFiles), o.name = none →
      generateFiles o g.node = .ok f →
      ComFit name (g.generateHeader name).2 (g.generateHeader name).1.generateSource f := by
  obtain ⟨n, _, hm⟩ := comNode_ok hc h hl
  have hm0 := hm
  generalize (⟨n.name, false, n.types, n.provides.map fun p => { p with id := none },
      n.requires.map fun p => { p with id := none }⟩ : Node) = m at hm
  have hsb : ∀ a ∈ send, sendBody m.name a = .ok ⟨a.proto, .send ((a.proto.params.map CParam.name).headD []) a.func.var a.func.complex
      ("ApxNode_Write_".toList ++ m.name ++ ('_' :: a.func.port))⟩ := by
    intro a ha
    obtain ⟨p, _, t, x, _, _, _, hp⟩ := hs a ha
    simp only [sendBody, CProto.firstArg, hp, ok_bind]
    rfl
  have hrb : ∀ a ∈ receive, receiveBody m.name a = .ok ⟨a.proto, .receive ("ApxNode_Read_".toList ++ m.name ++ ('_' :: a.func.port))
      ((a.proto.params.map CParam.name).headD [])⟩ := by
    intro a ha
    obtain ⟨p, _, t, x, _, _, _, hp⟩ := hr a ha
    simp only [receiveBody, CProto.firstArg, hp, ok_bind]
    rfl
  obtain ⟨ds, hds, hmem⟩ : ∃ ds, ComGen.new c ws swc send receive = .ok ⟨m, comVarTypes [] send, ds, none⟩ ∧
      ∀ d ∈ ds, (∃ a ∈ send, sendBody m.name a = .ok d) ∨ ∃ a ∈ receive, receiveBody m.name a = .ok d := by
    obtain ⟨l, h1, h2⟩ := mapPy_total (sendBody m.name) send (fun a ha => ⟨_, hsb a ha⟩)
    obtain ⟨l', h3, h4⟩ := mapPy_total (receiveBody m.name) receive (fun a ha => ⟨_, hrb a ha⟩)
    refine ⟨l ++ l', by simp only [ComGen.new, hm, h1, h3, ok_bind], fun d hd => ?_⟩
    rcases List.mem_append.mp hd with hd | hd
    · exact .inl (h2 d hd)
    · exact .inr (h4 d hd)
  refine ⟨⟨m, comVarTypes [] send, ds, none⟩, hds, ?_⟩
  intro name o f ho hf
  simp only [generateFiles, bind_ok_iff] at hf
  obtain ⟨g, hg, hf⟩ := hf
  obtain ⟨gn, gp⟩ := comNode_port hc h hl hm hg
  obtain ⟨rs, ps, _, _, _, _, k1, k2, _, _, _, _, k7, k8, _, _, _⟩ := genFiles_parts hf
  have hname : o.nameFor g.node = m.name := by simp only [GenOptions.nameFor, ho, gn, Option.getD_none]
  rw [hname] at k1 k2 k7
  have hnd : ((comVarTypes [] send).map Prod.fst).Nodup := comVarTypes_nodup send [] (by simp)
  have hperm : (sortedByName Prod.fst (comVarTypes [] send)).Perm (comVarTypes [] send) := sortedByName_perm _ _
  have hnd' : ((sortedByName Prod.fst (comVarTypes [] send)).map Prod.fst).Nodup := (hperm.map _).nodup_iff.mpr hnd
  have hlook : ∀ a ∈ send, (sortedByName Prod.fst (comVarTypes [] send)).lookup a.func.var = some a.typename := by
    intro a ha
    rw [lookup_mem hnd', hperm.mem_iff, ← lookup_mem hnd]
    exact comVarTypes_lookup send [] (by simp) hv a ha
  refine ⟨⟨by simp [ComGen.generateHeader, ComGen.generateSource], ?_⟩, rfl, hnd', ?_, ?_⟩
  · have hin : prefixedName m.name ++ ".h".toList ∈ ["string.h".toList, name, prefixedName m.name ++ ".h".toList] :=
      List.mem_cons_of_mem _ (List.mem_cons_of_mem _ (List.mem_singleton.mpr rfl))
    rw [k7]
    exact hin
  · intro d hd
    rcases hmem d hd with ⟨a, ha, hd⟩ | ⟨a, ha, hd⟩
    · rw [hsb a ha] at hd
      cases hd
      obtain ⟨p, _, t, x, _, _, hcx, hp⟩ := hs a ha
      refine ⟨a.typename, hlook a ha, ?_⟩
      simp [CProto.paramType, hp, hcx]
    · rw [hrb a ha] at hd
      cases hd
      trivial
  · intro d hd
    rcases hmem d hd with ⟨a, ha, hd⟩ | ⟨a, ha, hd⟩
    · rw [hsb a ha] at hd
      cases hd
      obtain ⟨p, hp, t, x, hpn, hpt, hcx, hpar⟩ := hs a ha
      obtain ⟨q, hq, q1, q2, q3⟩ := gp .require p hp _ _ hpt
      obtain ⟨pr, w1, w2⟩ := (protos_mem k2).1 q hq
      simp only [writeProto, q2, q3, ok_bind, Except.ok.injEq] at w1
      refine ⟨pr, ?_, ?_, ⟨a.typename, a.func.complex⟩, ?_, ?_⟩
      · rw [k8]
        simp only [GenHeader.protos, mkHeader, List.mem_append]
        exact .inl (.inr (.inr (List.mem_map.mpr ⟨_, w2, rfl⟩)))
      · rw [← w1]
        simp only [ComDef.call, q1, hpn]
      · simp only [ComDef.call, ComGen.generateSource, ComGen.generateHeader]
        rw [hlook a ha]
        rfl
      · rw [← w1, hcx]
        rfl
    · rw [hrb a ha] at hd
      cases hd
      obtain ⟨p, hp, t, x, hpn, hpt, hcx, hpar⟩ := hr a ha
      obtain ⟨q, hq, q1, q2, q3⟩ := gp .provide p hp _ _ hpt
      obtain ⟨pr, w1, w2⟩ := (protos_mem k1).1 q hq
      simp only [readProto, q2, ok_bind, Except.ok.injEq] at w1
      refine ⟨pr, ?_, ?_, ⟨a.typename, true⟩, ?_, ?_⟩
      · rw [k8]
        simp only [GenHeader.protos, mkHeader, List.mem_append]
        exact .inl (.inr (.inl (List.mem_map.mpr ⟨_, w2, rfl⟩)))
      · rw [← w1]
        simp only [ComDef.call, q1, hpn]
      · simp [ComDef.call, CProto.paramType, hpar]
      · rw [← w1]
        rfl

/-- C92 fails if the source is generated before the header: it includes no file of that name. -/
theorem C92_order_violated (c : Nat → Nat) (ws : Workspace) (swc : AComponent) (send receive : List ComApi) (g : ComGen)
    (hg : ComGen.new c ws swc send receive = .ok g) (name : Str) (h1 : name ≠ "None".toList) (h2 : name ≠ "string.h".toList)
    (h3 : name ≠ "ApxNode_".toList ++ g.node.name ++ ".h".toList) (f : GenFiles) :
    ¬ ComFit name (g.generateHeader name).2 g.generateSource f := by
  intro hf
  have hi := hf.includes.1
  simp only [ComGen.new, bind_ok_iff, Except.ok.injEq] at hg
  obtain ⟨_, _, _, _, _, _, rfl⟩ := hg
  simp only [ComGen.generateSource, Option.getD_none, List.mem_cons, List.not_mem_nil, or_false] at hi
  rcases hi with hi | hi | hi
  · exact h2 hi
  · exact h1 hi
  · exact h3 hi

/-! ### Examples -/

/-- The functions of the component `imSwc`. -/
def cfSend : List ComApi :=
  [⟨⟨"VehSpeed".toList, ['v'], false, .int 300⟩, ⟨"Send_Speed".toList, ⟨"Std_ReturnType".toList, false⟩,
      [⟨"value".toList, ⟨"Speed".toList, false⟩⟩]⟩, "Speed".toList⟩,
   ⟨⟨"Lamp".toList, ['v'], true, .ints [1, 2]⟩, ⟨"Send_Lamp".toList, ⟨"Std_ReturnType".toList, false⟩,
      [⟨"value".toList, ⟨"Status".toList, true⟩⟩]⟩, "Status".toList⟩]

def cfReceive : List ComApi :=
  [⟨⟨"OutSpeed".toList, ['v'], false, .int 0⟩, ⟨"Receive_Speed".toList, ⟨"Std_ReturnType".toList, false⟩,
      [⟨"value".toList, ⟨"Speed".toList, true⟩⟩]⟩, "Speed".toList⟩]

/-- They are what `C92_fit_partial` asks for; for `Importable` and `Legible` see `imSwc`. -/
example : (∀ a ∈ cfSend, a.For imWs imSwc .require AType.Compound) ∧ (∀ a ∈ cfReceive, a.For imWs imSwc .provide fun _ => true) ∧
    ∀ a ∈ cfSend, ∀ b ∈ cfSend, a.func.var = b.func.var → a.typename = b.typename := by
  refine ⟨?_, ?_, by decide +kernel⟩
  · intro a ha
    simp only [cfSend, List.mem_cons, List.not_mem_nil, or_false] at ha
    rcases ha with rfl | rfl
    · exact ⟨_, List.mem_cons_self, .int 0 65535, "value".toList, rfl, by decide +kernel, rfl, rfl⟩
    · exact ⟨_, List.mem_cons_of_mem _ List.mem_cons_self,
        .record (.cons "on".toList .bool (.cons "level_RE".toList (.int 0 3) .nil)), "value".toList, rfl, by decide +kernel, rfl, rfl⟩
  · intro a ha
    simp only [cfReceive, List.mem_cons, List.not_mem_nil, or_false] at ha
    subst ha
    exact ⟨_, List.mem_cons_self, .int 0 65535, "value".toList, rfl, by decide +kernel, rfl, rfl⟩

/-- Their files; those of the node exist as well. -/
example : ((ComGen.new exactCeilLog imWs imSwc cfSend cfReceive).toOption.map fun g =>
      ((g.generateHeader "ApxCom.h".toList).1.generateSource, (generateFiles {} g.node).toOption.isSome)) =
    some (⟨["string.h".toList, "ApxCom.h".toList, "ApxNode_Swc.h".toList],
      [("m_Lamp_v".toList, "Status".toList), ("m_VehSpeed_v".toList, "Speed".toList)],
      [⟨⟨"Send_Speed".toList, ⟨"Std_ReturnType".toList, false⟩, [⟨"value".toList, ⟨"Speed".toList, false⟩⟩]⟩,
          .send "value".toList "m_VehSpeed_v".toList false "ApxNode_Write_Swc_VehSpeed".toList⟩,
        ⟨⟨"Send_Lamp".toList, ⟨"Std_ReturnType".toList, false⟩, [⟨"value".toList, ⟨"Status".toList, true⟩⟩]⟩,
          .send "value".toList "m_Lamp_v".toList true "ApxNode_Write_Swc_Lamp".toList⟩,
        ⟨⟨"Receive_Speed".toList, ⟨"Std_ReturnType".toList, false⟩, [⟨"value".toList, ⟨"Speed".toList, true⟩⟩]⟩,
          .receive "ApxNode_Read_Swc_OutSpeed".toList "value".toList⟩]⟩, true) := by decide +kernel

/-- A component with ports `a` and `a_b` of different types. -/
def cfSwc : AComponent := ⟨['S'], [⟨['a'], "/If/A".toList, []⟩, ⟨"a_b".toList, "/If/C".toList, []⟩], []⟩

/-- The functions of its data elements `b_c` and `c`. -/
def cfShared : List ComApi :=
  [⟨⟨['a'], "b_c".toList, false, .int 0⟩, ⟨['f'], ⟨"Std_ReturnType".toList, false⟩,
      [⟨"value".toList, ⟨"Speed".toList, false⟩⟩]⟩, "Speed".toList⟩,
   ⟨⟨"a_b".toList, ['c'], true, .ints [0, 0]⟩, ⟨['g'], ⟨"Std_ReturnType".toList, false⟩,
      [⟨"value".toList, ⟨"Status".toList, true⟩⟩]⟩, "Status".toList⟩]

/-- C92 fails for every component with two send functions that share a variable and have values of different types: the
variable is declared with one type, and values of both are stored in it. -/
theorem C92_shared_violated (c : Nat → Nat) (ws : Workspace) (swc : AComponent) (send receive : List ComApi)
    (hs : ∀ a ∈ send, a.For ws swc .require AType.Compound) (a b : ComApi) (ha : a ∈ send) (hb : b ∈ send)
    (hv : a.func.var = b.func.var) (ht : a.typename ≠ b.typename)
    (g : ComGen) (hg : ComGen.new c ws swc send receive = .ok g) (name : Str) (f : GenFiles) :
    ¬ ComFit name (g.generateHeader name).2 (g.generateHeader name).1.generateSource f := by
  intro hf
  simp only [ComGen.new, bind_ok_iff, Except.ok.injEq] at hg
  obtain ⟨n, _, s, h1, r, _, rfl⟩ := hg
  have key : ∀ x ∈ send, (sortedByName Prod.fst (comVarTypes [] send)).lookup x.func.var = some x.typename := by
    intro x hx
    obtain ⟨d, hm, hd⟩ := List.mem_map.mp ((mapPy_ok_iff _ _ _).mp h1 ▸ List.mem_map.mpr ⟨x, hx, rfl⟩)
    replace hd := hd.symm
    have h2 := hf.stores d (List.mem_append_left _ hm)
    obtain ⟨p, _, t, y, _, _, hcx, hp⟩ := hs x hx
    simp only [sendBody, CProto.firstArg, hp, ok_bind, Except.ok.injEq] at hd
    subst hd
    obtain ⟨ty, t1, t2⟩ := h2
    simp only [CProto.paramType, hp, List.find?_cons, decide_true, Option.map_some, Option.some.injEq, CTy.mk.injEq] at t2
    rw [t2.1]
    exact t1
  have ka := key a ha
  rw [hv, key b hb] at ka
  exact ht (Option.some.inj ka).symm

/-- Such a component: its ports `a` and `a_b`, data elements `b_c` and `c`. -/
example : (∃ g, ComGen.new exactCeilLog imWs cfSwc cfShared [] = .ok g) ∧
    (∀ a ∈ cfShared, a.For imWs cfSwc .require AType.Compound) ∧
    ∃ a ∈ cfShared, ∃ b ∈ cfShared, a.func.var = b.func.var ∧ a.typename ≠ b.typename := by
  refine ⟨?_, ?_, by decide +kernel⟩
  · have h : (ComGen.new exactCeilLog imWs cfSwc cfShared []).toOption.isSome = true := by decide +kernel
    cases hg : ComGen.new exactCeilLog imWs cfSwc cfShared [] with
    | error x => rw [hg] at h; simp [Except.toOption] at h
    | ok g => exact ⟨g, rfl⟩
  · intro a ha
    simp only [cfShared, List.mem_cons, List.not_mem_nil, or_false] at ha
    rcases ha with rfl | rfl
    · exact ⟨_, List.mem_cons_self, .int 0 65535, "value".toList, rfl, by decide +kernel, rfl, rfl⟩
    · exact ⟨_, List.mem_cons_of_mem _ List.mem_cons_self,
        .record (.cons "on".toList .bool (.cons "level_RE".toList (.int 0 3) .nil)), "value".toList, rfl, by decide +kernel, rfl, rfl⟩

end Apx
