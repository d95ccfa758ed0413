import Verif.Proofs.ComText
import Verif.Props.ComFile
import Verif.Props.Com

/-! C106: the text of the communication layer, read by the rules of C. -/

namespace Apx

/-! ### What is declared -/

theorem items_typeOf (init : Str → Str) (x : Str) (defs : List ComDef) : ∀ vars : List (Str × Str),
    (vars.map (fun y : Str × Str => ComItem.var y.2 y.1 (init y.1)) ++ defs.map fun d => ComItem.func d.proto d.body.lines).findSome? (ComItem.typeOf x) =
      vars.lookup x
  | [] => by
    simp only [List.map_nil, List.nil_append, List.lookup_nil, List.findSome?_eq_none_iff]
    intro i hi
    obtain ⟨d, -, rfl⟩ := List.mem_map.1 hi
    rfl
  | (n, t) :: vars => by
    have ih := items_typeOf init x defs vars
    simp only [List.map_cons, List.cons_append, List.findSome?_cons, ComItem.typeOf, List.lookup_cons]
    by_cases h : n = x
    · subst h; simp
    · have : (x == n) = false := by simpa using fun e : x = n => h e.symm
      rw [if_neg h, this]
      exact ih

theorem items_initOf (init : Str → Str) (x : Str) (defs : List ComDef) : ∀ vars : List (Str × Str), x ∈ vars.map Prod.fst →
    (vars.map (fun y : Str × Str => ComItem.var y.2 y.1 (init y.1)) ++ defs.map fun d => ComItem.func d.proto d.body.lines).findSome? (ComItem.initOf x) =
      some (init x)
  | [], h => by cases h
  | (n, t) :: vars, hx => by
    simp only [List.map_cons, List.cons_append, List.findSome?_cons, ComItem.initOf]
    by_cases h : n = x
    · subst h; simp
    · rw [if_neg h]
      have : x ∈ vars.map Prod.fst := by
        rcases List.mem_cons.1 hx with e | e
        · exact absurd e.symm h
        · exact e
      exact items_initOf init x defs vars this

theorem items_funcNamed (init : Str → Str) (vars : List (Str × Str)) (defs : List ComDef)
    (hn : (defs.map fun d => d.proto.name).Nodup) (d : ComDef) (hd : d ∈ defs) :
    (vars.map (fun y : Str × Str => ComItem.var y.2 y.1 (init y.1)) ++ defs.map fun d => ComItem.func d.proto d.body.lines).findSome?
      (ComItem.funcNamed d.proto.name) = some (d.proto, d.body.lines) := by
  have h1 : (vars.map fun y => ComItem.var y.2 y.1 (init y.1)).findSome? (ComItem.funcNamed d.proto.name) = none := by
    rw [List.findSome?_eq_none_iff]
    intro i hi
    obtain ⟨y, -, rfl⟩ := List.mem_map.1 hi
    rfl
  rw [List.findSome?_append, h1, Option.none_or]
  induction defs with
  | nil => cases hd
  | cons e l ih =>
    rw [List.map_cons, List.nodup_cons] at hn
    simp only [List.map_cons, List.findSome?_cons, ComItem.funcNamed]
    rcases List.mem_cons.1 hd with rfl | hd
    · simp
    · have : e.proto.name ≠ d.proto.name := fun e' => hn.1 (e' ▸ List.mem_map.2 ⟨d, hd, rfl⟩)
      rw [if_neg this]
      exact ih hn.2 hd

theorem items_names (init : Str → Str) (s : ComSource) :
    (s.items init).map ComItem.name = s.vars.map Prod.fst ++ s.defs.map fun d => d.proto.name := by
  unfold ComSource.items
  rw [List.map_append, List.map_map, List.map_map]
  rfl

theorem items_heads (init : Str → Str) (s : ComSource) : (s.items init).filterMap ComItem.head = s.defs.map ComDef.proto := by
  unfold ComSource.items
  rw [List.filterMap_append]
  have h1 : (s.vars.map fun x => ComItem.var x.2 x.1 (init x.1)).filterMap ComItem.head = [] := by
    rw [List.filterMap_eq_nil_iff]
    intro i hi
    obtain ⟨y, -, rfl⟩ := List.mem_map.1 hi
    rfl
  rw [h1, List.nil_append, List.filterMap_map]
  exact List.filterMap_eq_map (f := ComDef.proto) ▸ rfl

/-! ### Calls -/

section
variable {W : Type} (ext : Str → W → CVal → Option (W × CVal)) (u : ComDecls) {p : CParam} {x f t : Str}

theorem typeOf_var (hx : x ≠ p.name) (ht : u.file.findSome? (ComItem.typeOf x) = some t) : u.typeOf p x = some ⟨t, false⟩ := by
  unfold ComDecls.typeOf
  rw [if_neg hx, ht]
  rfl

theorem typeOf_arg : u.typeOf p p.name = some p.type := by
  unfold ComDecls.typeOf
  rw [if_pos rfl]

/-- The statements of a send function with an argument passed by reference. -/
theorem exec_send_ref (hx : x ≠ p.name) (ht : u.file.findSome? (ComItem.typeOf x) = some t) (hp : p.type = ⟨t, true⟩)
    (hf : f ≠ p.name) (hT : u.Takes f ⟨t, true⟩) (m : ComFrame W) (v y : CVal) (hm : m.vars x = some y) (ha : m.arg = .ptr v) :
    execComStmts ext u p m (ComBody.stmts (.send p.name x true f)) =
      if v = y then some m else
        match ext f m.world (.ptr v) with
        | some (w, .ptr c) => some ⟨fun z => if z = x then some c else m.vars z, m.arg, w⟩
        | _ => none := by
  have h1 := typeOf_var u hx ht
  have h2 := typeOf_arg u (p := p)
  have hpts : u.Points p p.name x := by
    unfold ComDecls.Points
    rw [h1, h2, hp]
    exact ⟨rfl, rfl⟩
  have hva : ∀ k : ComFrame W, k.value p p.name = some k.arg := fun k => by unfold ComFrame.value; rw [if_pos rfl]
  have hvx : ∀ k : ComFrame W, k.value p x = k.vars x := fun k => by unfold ComFrame.value; rw [if_neg hx]
  have hput : ∀ (k : ComFrame W) c, k.put p x c = { k with vars := fun y => if y = x then some c else k.vars y } := fun k c => by
    unfold ComFrame.put; rw [if_neg hx]
  have hc : ComCond.holds u p m (.memDiffer p.name x x) = some (decide (v ≠ y)) := by
    simp only [ComCond.holds, hva, hvx, ha, hm, hpts, and_self, if_true]
  simp only [ComBody.stmts, execComStmts, ComStmt.exec, hc, Option.bind_some]
  by_cases he : v = y
  · simp [he]
  · rw [if_neg he]
    simp only [ne_eq, he, not_false_eq_true, decide_true, if_true, execComSimples, ComSimple.exec, hpts, and_self, hva, ha,
      Option.bind_some, hput]
    have hcond : (f ≠ p.name ∧ (u.typeOf p x).any (fun t => !t.pointer && decide (u.Takes f ⟨t.base, true⟩)) = true) := by
      refine ⟨hf, ?_⟩
      rw [h1]
      simp [hT]
    simp only [ne_eq] at hcond
    rw [if_pos hcond, hvx]
    simp only [if_true, Option.bind_some]
    cases ext f m.world (.ptr v) with
    | none => rfl
    | some r =>
      obtain ⟨w, c⟩ := r
      cases c <;> try rfl
      simp only [Option.bind_some, Option.some.injEq, ComFrame.mk.injEq, and_true, true_and]
      funext z
      split <;> rfl

/-- The statements of a send function with an argument passed by value. -/
theorem exec_send_val (hx : x ≠ p.name) (ht : u.file.findSome? (ComItem.typeOf x) = some t) (hp : p.type = ⟨t, false⟩)
    (hf : f ≠ p.name) (hT : u.Takes f ⟨t, false⟩) (m : ComFrame W) (i j : Int) (hm : m.vars x = some (.int j)) (ha : m.arg = .int i) :
    execComStmts ext u p m (ComBody.stmts (.send p.name x false f)) =
      if i = j then some m else
        match ext f m.world (.int i) with
        | some (w, .ptr c) => some ⟨fun z => if z = x then some (.ptr c) else m.vars z, m.arg, w⟩
        | some (w, _) => some ⟨fun z => if z = x then some (.int i) else m.vars z, m.arg, w⟩
        | none => none := by
  have h1 := typeOf_var u hx ht
  have h2 := typeOf_arg u (p := p)
  have halike : u.Alike p p.name x := by
    unfold ComDecls.Alike
    rw [h1, h2, hp]
    exact ⟨rfl, rfl⟩
  have hva : ∀ k : ComFrame W, k.value p p.name = some k.arg := fun k => by unfold ComFrame.value; rw [if_pos rfl]
  have hvx : ∀ k : ComFrame W, k.value p x = k.vars x := fun k => by unfold ComFrame.value; rw [if_neg hx]
  have hput : ∀ (k : ComFrame W) c, k.put p x c = { k with vars := fun y => if y = x then some c else k.vars y } := fun k c => by
    unfold ComFrame.put; rw [if_neg hx]
  have hc : ComCond.holds u p m (.differ p.name x) = some (decide (i ≠ j)) := by
    simp only [ComCond.holds, halike, if_true, hva, hvx, ha, hm]
  simp only [ComBody.stmts, execComStmts, ComStmt.exec, hc, Option.bind_some]
  by_cases he : i = j
  · simp [he]
  · rw [if_neg he]
    simp only [ne_eq, he, not_false_eq_true, decide_true, if_true, execComSimples, ComSimple.exec, halike, hva, ha,
      Option.map_some, Option.bind_some, hput]
    have hcond : (f ≠ p.name ∧ (u.typeOf p x).any (fun t => decide (u.Takes f t)) = true) := by
      refine ⟨hf, ?_⟩
      rw [h1]
      simp [hT]
    simp only [ne_eq] at hcond
    rw [if_pos hcond, hvx]
    simp only [if_true, Option.bind_some]
    cases ext f m.world (.int i) with
    | none => rfl
    | some r =>
      obtain ⟨w, c⟩ := r
      cases c <;> try rfl
      simp only [Option.bind_some, Option.some.injEq, ComFrame.mk.injEq, and_true, true_and]
      funext z
      split <;> rfl

/-- The statements of a receive function. -/
theorem exec_receive (hf : f ≠ p.name) (hT : u.Takes f p.type) (m : ComFrame W) :
    execComStmts ext u p m (ComBody.stmts (.receive f p.name)) =
        match ext f m.world m.arg with
        | some (w, .ptr c) => some ⟨m.vars, .ptr c, w⟩
        | some (w, _) => some ⟨m.vars, m.arg, w⟩
        | none => none := by
  have h2 := typeOf_arg u (p := p)
  have hva : ∀ k : ComFrame W, k.value p p.name = some k.arg := fun k => by unfold ComFrame.value; rw [if_pos rfl]
  have hput : ∀ (k : ComFrame W) c, k.put p p.name c = { k with arg := c } := fun k c => by
    unfold ComFrame.put; rw [if_pos rfl]
  have hcond : (f ≠ p.name ∧ (u.typeOf p p.name).any (fun t => decide (u.Takes f t)) = true) := by
    refine ⟨hf, ?_⟩
    rw [h2]
    simp [hT]
  simp only [ComBody.stmts, execComStmts, ComStmt.exec, ComSimple.exec]
  rw [if_pos hcond, hva]
  simp only [Option.bind_some]
  cases ext f m.world m.arg with
  | none => rfl
  | some r =>
    obtain ⟨w, c⟩ := r
    cases c <;> try rfl
    simp only [hput, Option.bind_some]

end

/-! ### The generator -/

/-- A name that is neither that of a variable nor that of a function of a node. -/
def FreeName (s : Str) : Prop := ¬ "m_".toList <+: s ∧ ¬ "ApxNode_".toList <+: s

/-- The names of the functions and of what they belong to can be used in C, and do not look like the names that the
generator makes. -/
structure ComNames (node : Str) (send receive : List ComApi) : Prop where
  node : WordChars node
  ports : ∀ a ∈ send ++ receive, WordChars a.func.port
  elements : ∀ a ∈ send, WordChars a.func.element
  types : ∀ a ∈ send, CIdent a.typename
  heads : ∀ a ∈ send ++ receive, a.proto.Words
  once : ((send ++ receive).map fun a => a.proto.name).Nodup
  free : ∀ a ∈ send ++ receive, FreeName a.proto.name ∧ ∀ p ∈ a.proto.params, FreeName p.name

/-- The function of the node that is called by a send function. -/
def writeName (node : Str) (a : ComApi) : Str := "ApxNode_Write_".toList ++ node ++ ('_' :: a.func.port)

/-- The function of the node that is called by a receive function. -/
def readName (node : Str) (a : ComApi) : Str := "ApxNode_Read_".toList ++ node ++ ('_' :: a.func.port)

def sendDef (node : Str) (a : ComApi) : ComDef :=
  ⟨a.proto, .send ((a.proto.params.map CParam.name).headD []) a.func.var a.func.complex (writeName node a)⟩

def receiveDef (node : Str) (a : ComApi) : ComDef :=
  ⟨a.proto, .receive (readName node a) ((a.proto.params.map CParam.name).headD [])⟩

theorem mapPy_each {α β : Type} {f : α → Py β} {k : α → β} : ∀ {l : List α} {r : List β}, (∀ a ∈ l, ∀ d, f a = .ok d → d = k a) →
    mapPy f l = .ok r → r = l.map k
  | [], r, _, h => by
    simp only [mapPy, Except.ok.injEq] at h
    rw [← h]
    rfl
  | a :: l, r, hk, h => by
    simp only [mapPy, bind_ok_iff, Except.ok.injEq] at h
    obtain ⟨b, h1, r', h2, rfl⟩ := h
    rw [List.map_cons, ← hk a (by simp) b h1, mapPy_each (fun x hx => hk x (List.mem_cons_of_mem _ hx)) h2]

theorem comGen_parts {c : Nat → Nat} {ws : Workspace} {swc : AComponent} {send receive : List ComApi} {g : ComGen}
    (h : ComGen.new c ws swc send receive = .ok g) : comNode c ws swc = .ok g.node ∧ g.vars = comVarTypes [] send ∧
      g.defs = send.map (sendDef g.node.name) ++ receive.map (receiveDef g.node.name) := by
  simp only [ComGen.new, bind_ok_iff, Except.ok.injEq] at h
  obtain ⟨n, h1, s, h2, r, h3, rfl⟩ := h
  refine ⟨h1, rfl, ?_⟩
  rw [mapPy_each (k := sendDef n.name) _ h2, mapPy_each (k := receiveDef n.name) _ h3]
  · intro a _ d hd
    simp only [receiveBody, CProto.firstArg, bind_ok_iff, Except.ok.injEq] at hd
    obtain ⟨x, hx, rfl⟩ := hd
    unfold receiveDef readName
    cases hp : a.proto.params with
    | nil => rw [hp] at hx; cases hx
    | cons y l => rw [hp] at hx; cases hx; rfl
  · intro a _ d hd
    simp only [sendBody, CProto.firstArg, bind_ok_iff, Except.ok.injEq] at hd
    obtain ⟨x, hx, rfl⟩ := hd
    unfold sendDef writeName
    cases hp : a.proto.params with
    | nil => rw [hp] at hx; cases hx
    | cons y l => rw [hp] at hx; cases hx; rfl

theorem comVarTypes_mem : ∀ (l : List ComApi) (vars : List (Str × Str)), ∀ x ∈ comVarTypes vars l,
    x ∈ vars ∨ ∃ a ∈ l, x = (a.func.var, a.typename)
  | [], vars, x, hx => .inl hx
  | a :: l, vars, x, hx => by
    rcases comVarTypes_mem l _ x hx with h | ⟨b, hb, h⟩
    · split at h
      · exact .inl h
      · rcases List.mem_append.1 h with h | h
        · exact .inl h
        · exact .inr ⟨a, by simp, by simpa using h⟩
    · exact .inr ⟨b, List.mem_cons_of_mem _ hb, h⟩

theorem lookup_key (k : Str) : ∀ l : List (Str × Str), (l.lookup k).isSome → k ∈ l.map Prod.fst
  | [], h => by cases h
  | (n, t) :: l, h => by
    by_cases e : k = n
    · subst e; simp
    · have : (k == n) = false := by simpa using e
      rw [List.lookup_cons, this] at h
      exact List.mem_cons_of_mem _ (lookup_key k l h)

theorem comVarTypes_has : ∀ (l : List ComApi) (vars : List (Str × Str)),
    (∀ x ∈ vars.map Prod.fst, x ∈ (comVarTypes vars l).map Prod.fst) ∧ ∀ a ∈ l, a.func.var ∈ (comVarTypes vars l).map Prod.fst
  | [], vars => ⟨fun _ h => h, fun _ h => by cases h⟩
  | a :: l, vars => by
    obtain ⟨h1, h2⟩ := comVarTypes_has l (if (vars.lookup a.func.var).isSome then vars else vars ++ [(a.func.var, a.typename)])
    refine ⟨fun x hx => h1 x ?_, fun b hb => ?_⟩
    · split
      · exact hx
      · rw [List.map_append]; exact List.mem_append_left _ hx
    · rcases List.mem_cons.1 hb with rfl | hb
      · refine h1 _ ?_
        split
        · rename_i hl
          exact lookup_key _ _ hl
        · simp
      · exact h2 b hb

theorem prefix_ident {pre s : Str} (h1 : CWord pre) (h2 : pre.head?.all (fun c => !c.isDigit) = true)
    (h3 : ∀ k ∈ cKeywords, ¬ pre <+: k) (hs : WordChars s) : CIdent (pre ++ s) := by
  refine ⟨cWord_append h1 hs, ?_, fun hm => h3 _ hm ⟨s, rfl⟩⟩
  cases pre with
  | nil => exact absurd rfl h1.1
  | cons c l => exact h2

theorem wordChars_join {a b : Str} (ha : WordChars a) (hb : WordChars b) : WordChars (a ++ '_' :: b) := by
  intro c hc
  rcases List.mem_append.1 hc with h | h
  · exact ha c h
  · rcases List.mem_cons.1 h with rfl | h
    · decide
    · exact hb c h

theorem var_ident {f : ComFunc} (h1 : WordChars f.port) (h2 : WordChars f.element) : CIdent f.var :=
  prefix_ident (by decide +kernel) (by decide +kernel) (by decide +kernel) (wordChars_join h1 h2)

theorem writeName_ident {node : Str} {a : ComApi} (h1 : WordChars node) (h2 : WordChars a.func.port) : CIdent (writeName node a) := by
  unfold writeName
  rw [List.append_assoc]
  exact prefix_ident (by decide +kernel) (by decide +kernel) (by decide +kernel) (wordChars_join h1 h2)

theorem readName_ident {node : Str} {a : ComApi} (h1 : WordChars node) (h2 : WordChars a.func.port) : CIdent (readName node a) := by
  unfold readName
  rw [List.append_assoc]
  exact prefix_ident (by decide +kernel) (by decide +kernel) (by decide +kernel) (wordChars_join h1 h2)

theorem var_prefix (f : ComFunc) : "m_".toList <+: f.var := ⟨_, rfl⟩

theorem nodeName_prefix (node : Str) (a : ComApi) : "ApxNode_".toList <+: writeName node a ∧ "ApxNode_".toList <+: readName node a := by
  refine ⟨⟨"Write_".toList ++ node ++ ('_' :: a.func.port), ?_⟩, ⟨"Read_".toList ++ node ++ ('_' :: a.func.port), ?_⟩⟩
  · unfold writeName
    rw [show "ApxNode_Write_".toList = "ApxNode_".toList ++ "Write_".toList by decide +kernel]
    simp only [List.append_assoc]
  · unfold readName
    rw [show "ApxNode_Read_".toList = "ApxNode_".toList ++ "Read_".toList by decide +kernel]
    simp only [List.append_assoc]

theorem prefixes_apart {s : Str} (h1 : "m_".toList <+: s) (h2 : "ApxNode_".toList <+: s) : False := by
  obtain ⟨x, rfl⟩ := h1
  obtain ⟨y, hy⟩ := h2
  have h : ("ApxNode_".toList ++ y).head? = ("m_".toList ++ x).head? := by rw [hy]
  rw [List.head?_append, List.head?_append, show "ApxNode_".toList.head? = some 'A' by decide +kernel,
    show "m_".toList.head? = some 'm' by decide +kernel] at h
  cases h

/-- The source of a generator consists of words. -/
theorem comSource_words {c : Nat → Nat} {ws : Workspace} {swc : AComponent} {send receive : List ComApi} {g : ComGen}
    (hg : ComGen.new c ws swc send receive = .ok g) (hn : ComNames g.node.name send receive)
    (hp : ∀ a ∈ send ++ receive, a.proto.params ≠ []) {name : Str} (hname : '\n' ∉ name) {init : Str → Str}
    (hi : ∀ a ∈ send, InitText (init a.func.var)) : (g.generateHeader name).1.generateSource.Words init := by
  obtain ⟨-, hv, hd⟩ := comGen_parts hg
  have hperm : (sortedByName Prod.fst g.vars).Perm g.vars := sortedByName_perm _ _
  have hmem : ∀ x ∈ sortedByName Prod.fst g.vars, ∃ a ∈ send, x = (a.func.var, a.typename) := by
    intro x hx
    rw [hperm.mem_iff, hv] at hx
    rcases comVarTypes_mem send [] x hx with h | h
    · cases h
    · exact h
  have hhead : ∀ a ∈ send ++ receive, CIdent ((a.proto.params.map CParam.name).headD []) := by
    intro a ha
    have hw := (hn.heads a ha).2.2
    cases h : a.proto.params with
    | nil => exact absurd h (hp a ha)
    | cons y l => exact (hw y (by rw [h]; simp)).1
  refine ⟨?_, ?_, ?_, ?_⟩
  · intro i hi
    simp only [ComGen.generateSource, ComGen.generateHeader, Option.getD_some, List.mem_cons, List.not_mem_nil, or_false] at hi
    rcases hi with rfl | rfl | rfl
    · decide +kernel
    · exact hname
    · exact flat_append (flat_append (by decide +kernel) (flat_wordChars hn.node)) (by decide +kernel)
  · intro x hx
    obtain ⟨a, ha, rfl⟩ := hmem x hx
    exact ⟨var_ident (hn.ports a (List.mem_append_left _ ha)) (hn.elements a ha), hn.types a ha, hi a ha⟩
  · intro d hdm
    simp only [ComGen.generateSource, ComGen.generateHeader] at hdm
    rw [hd] at hdm
    rcases List.mem_append.1 hdm with h | h
    · obtain ⟨a, ha, rfl⟩ := List.mem_map.1 h
      have ha' : a ∈ send ++ receive := List.mem_append_left _ ha
      exact ⟨hn.heads a ha', hhead a ha', var_ident (hn.ports a ha') (hn.elements a ha), writeName_ident hn.node (hn.ports a ha')⟩
    · obtain ⟨a, ha, rfl⟩ := List.mem_map.1 h
      have ha' : a ∈ send ++ receive := List.mem_append_right _ ha
      exact ⟨hn.heads a ha', readName_ident hn.node (hn.ports a ha'), hhead a ha'⟩
  · have hnames : (g.generateHeader name).1.generateSource.defs.map (fun d => d.proto.name) = (send ++ receive).map fun a => a.proto.name := by
      simp only [ComGen.generateSource, ComGen.generateHeader]
      rw [hd, List.map_append, List.map_map, List.map_map, List.map_append]
      rfl
    rw [hnames, List.nodup_append]
    refine ⟨?_, hn.once, ?_⟩
    · have : ((comVarTypes [] send).map Prod.fst).Nodup := comVarTypes_nodup send [] (by simp)
      rw [← hv] at this
      exact (hperm.map _).nodup_iff.mpr this
    · intro x hx y hy e
      obtain ⟨z, hz, rfl⟩ := List.mem_map.1 hx
      obtain ⟨a, -, rfl⟩ := hmem z hz
      obtain ⟨b, hb, rfl⟩ := List.mem_map.1 hy
      exact (hn.free b hb).1.1 (e ▸ var_prefix a.func)

/-- A communication layer `g` with functions for the ports of a component (C92), and the files `f` of its node, which fit
together (C88), all with usable names. `name` is that of the header, `init` gives the initializers of the variables. -/
structure ComLayer (c : Nat → Nat) (ws : Workspace) (swc : AComponent) (send receive : List ComApi) (name : Str) (init : Str → Str)
    (o : GenOptions) (g : ComGen) (gen : Generated) (f : GenFiles) : Prop where
  accurate : Accurate c
  importable : Importable ws swc
  legible : Legible ws swc none
  sends : ∀ a ∈ send, a.For ws swc .require AType.Compound
  receives : ∀ a ∈ receive, a.For ws swc .provide fun _ => true
  shared : ∀ a ∈ send, ∀ b ∈ send, a.func.var = b.func.var → a.typename = b.typename
  new : ComGen.new c ws swc send receive = .ok g
  names : ComNames g.node.name send receive
  header : '\n' ∉ name
  inits : ∀ a ∈ send, InitText (init a.func.var)
  own : o.name = none
  generated : generate g.node = .ok gen
  files : genFiles none o gen = .ok f
  nodeNames : GenNames none o gen
  includes : ∀ i ∈ o.includes, '\n' ∉ i
  requires : (gen.node.requires.map Port.name).Nodup
  provides : (gen.node.provides.map Port.name).Nodup
  callbacks : ∀ cb, o.callbacks = some cb → CallbacksApart o gen f cb

section
variable {c : Nat → Nat} {ws : Workspace} {swc : AComponent} {send receive : List ComApi} {name : Str} {init : Str → Str}
  {o : GenOptions} {g : ComGen} {gen : Generated} {f : GenFiles}

/-- The source of the layer. -/
abbrev ComGen.sourceAfter (g : ComGen) (name : Str) : ComSource := (g.generateHeader name).1.generateSource

theorem ComLayer.fit (L : ComLayer c ws swc send receive name init o g gen f) :
    ComFit name (g.generateHeader name).2 (g.sourceAfter name) f := by
  obtain ⟨g', h1, h2⟩ := C92_fit_partial c L.accurate ws swc L.importable L.legible send receive L.sends L.receives L.shared
  rw [L.new] at h1
  cases h1
  refine h2 name o f L.own ?_
  unfold generateFiles
  rw [L.generated, ok_bind]
  exact L.files

theorem ComLayer.nodeFit (L : ComLayer c ws swc send receive name init o g gen f) : f.Fit :=
  C88_fit_partial g.node gen L.generated o f L.files L.requires L.provides L.callbacks

theorem ComLayer.params (L : ComLayer c ws swc send receive name init o g gen f) :
    (∀ a ∈ send, ∃ p t, a.proto.params = [p] ∧ p.type = ⟨t, a.func.complex⟩) ∧ ∀ a ∈ receive, ∃ p t, a.proto.params = [p] ∧ p.type = ⟨t, true⟩ := by
  constructor
  · intro a ha
    obtain ⟨_, _, t, x, _, _, h1, h2⟩ := L.sends a ha
    exact ⟨_, _, h2, by rw [h1]⟩
  · intro a ha
    obtain ⟨_, _, t, x, _, _, h1, h2⟩ := L.receives a ha
    exact ⟨_, _, h2, rfl⟩

theorem ComLayer.words (L : ComLayer c ws swc send receive name init o g gen f) : (g.sourceAfter name).Words init := by
  refine comSource_words L.new L.names ?_ L.header L.inits
  intro a ha
  rcases List.mem_append.1 ha with h | h
  · obtain ⟨p, _, e, _⟩ := L.params.1 a h
    rw [e]; simp
  · obtain ⟨p, _, e, _⟩ := L.params.2 a h
    rw [e]; simp

theorem ComLayer.reads (L : ComLayer c ws swc send receive name init o g gen f) :
    readComSource ((g.sourceAfter name).text init) = some ((g.sourceAfter name).items init) ∧
      readHeader f.header.text = some (f.header.guard, f.header.protos) :=
  ⟨readComSource_text init _ L.words, (C105_headers_partial g.node gen L.generated none o f L.files L.nodeNames L.includes).1⟩

theorem ComLayer.defs (L : ComLayer c ws swc send receive name init o g gen f) :
    (∀ a ∈ send, sendDef g.node.name a ∈ (g.sourceAfter name).defs) ∧ ∀ a ∈ receive, receiveDef g.node.name a ∈ (g.sourceAfter name).defs := by
  have : (g.sourceAfter name).defs = send.map (sendDef g.node.name) ++ receive.map (receiveDef g.node.name) := (comGen_parts L.new).2.2
  rw [this]
  exact ⟨fun a ha => List.mem_append_left _ (List.mem_map_of_mem ha), fun a ha => List.mem_append_right _ (List.mem_map_of_mem ha)⟩

theorem ComLayer.notDeclared (L : ComLayer c ws swc send receive name init o g gen f) {x : Str} (hx : "ApxNode_".toList <+: x) :
    x ∉ ((g.sourceAfter name).items init).map ComItem.name := by
  rw [items_names]
  intro hm
  obtain ⟨-, hv, hd⟩ := comGen_parts L.new
  rcases List.mem_append.1 hm with h | h
  · obtain ⟨y, hy, rfl⟩ := List.mem_map.1 h
    have hy : y ∈ sortedByName Prod.fst g.vars := hy
    rw [(sortedByName_perm Prod.fst g.vars).mem_iff, hv] at hy
    rcases comVarTypes_mem send [] y hy with h | ⟨a, -, rfl⟩
    · cases h
    · exact prefixes_apart (var_prefix a.func) hx
  · obtain ⟨d, hdm, rfl⟩ := List.mem_map.1 h
    have hdm : d ∈ g.defs := hdm
    rw [hd] at hdm
    rcases List.mem_append.1 hdm with h | h
    · obtain ⟨a, ha, rfl⟩ := List.mem_map.1 h
      exact (L.names.free a (List.mem_append_left _ ha)).1.2 hx
    · obtain ⟨a, ha, rfl⟩ := List.mem_map.1 h
      exact (L.names.free a (List.mem_append_right _ ha)).1.2 hx

theorem ComLayer.takes (L : ComLayer c ws swc send receive name init o g gen f) {x : Str} (hx : "ApxNode_".toList <+: x) {t : CTy}
    (h : ∃ p ∈ f.header.protos, p.name = x ∧ p.type.2 = [t]) :
    (⟨(g.sourceAfter name).items init, f.header.protos⟩ : ComDecls).Takes x t := by
  obtain ⟨p, hp, rfl, ht⟩ := h
  have hnd : (f.header.protos.map CProto.name).Nodup := by
    have := L.nodeFit.once
    unfold GenFiles.declared at this
    rw [List.map_append, List.nodup_append] at this
    exact this.1
  refine ⟨L.notDeclared hx, ?_⟩
  show (f.header.protos.find? fun q => q.name = p.name).map (fun q => q.params.map CParam.type) = some [t]
  rw [find_named CProto.name _ p hnd hp]
  exact congrArg some ht

/-- What a send function needs. -/
theorem ComLayer.sendReady (L : ComLayer c ws swc send receive name init o g gen f) (a : ComApi) (ha : a ∈ send) :
    ∃ p t, a.proto.params = [p] ∧ p.type = ⟨t, a.func.complex⟩ ∧ a.func.var ≠ p.name ∧ writeName g.node.name a ≠ p.name ∧
      ((g.sourceAfter name).items init).findSome? (ComItem.typeOf a.func.var) = some t ∧
      (⟨(g.sourceAfter name).items init, f.header.protos⟩ : ComDecls).Takes (writeName g.node.name a) ⟨t, a.func.complex⟩ := by
  obtain ⟨p, t, hp, ht⟩ := L.params.1 a ha
  have hfree := (L.names.free a (List.mem_append_left _ ha)).2 p (by rw [hp]; simp)
  have hd := L.defs.1 a ha
  have hs := L.fit.stores _ hd
  have hc := L.fit.calls _ hd
  simp only [ComDef.Stores, ComDef.call, sendDef, hp, List.map_cons, List.map_nil, List.headD_cons] at hs hc
  obtain ⟨t', h1, h2⟩ := hs
  have h2' : some p.type = some ⟨t', a.func.complex⟩ := by
    simpa [CProto.paramType, hp] using h2
  have ht' : t' = t := by
    rw [ht] at h2'
    injection h2' with h2'
    injection h2' with h2' _
    exact h2'.symm
  subst ht'
  refine ⟨p, t', hp, ht, fun e => hfree.1 (e ▸ var_prefix _), fun e => hfree.2 (e ▸ (nodeName_prefix _ _).1), ?_, ?_⟩
  · exact (items_typeOf init a.func.var _ _).trans h1
  · refine L.takes (nodeName_prefix _ _).1 ?_
    obtain ⟨q, q1, q2, ty, q3, q4⟩ := hc
    rw [h1] at q3
    cases q3
    exact ⟨q, q1, q2, q4⟩

/-- What a receive function needs. -/
theorem ComLayer.receiveReady (L : ComLayer c ws swc send receive name init o g gen f) (a : ComApi) (ha : a ∈ receive) :
    ∃ p t, a.proto.params = [p] ∧ p.type = ⟨t, true⟩ ∧ readName g.node.name a ≠ p.name ∧
      (⟨(g.sourceAfter name).items init, f.header.protos⟩ : ComDecls).Takes (readName g.node.name a) p.type := by
  obtain ⟨p, t, hp, ht⟩ := L.params.2 a ha
  have hfree := (L.names.free a (List.mem_append_right _ ha)).2 p (by rw [hp]; simp)
  have hd := L.defs.2 a ha
  have hc := L.fit.calls _ hd
  simp only [ComDef.call, receiveDef, hp, List.map_cons, List.map_nil, List.headD_cons] at hc
  refine ⟨p, t, hp, ht, fun e => hfree.2 (e ▸ (nodeName_prefix _ _).2), L.takes (nodeName_prefix _ _).2 ?_⟩
  obtain ⟨q, q1, q2, ty, q3, q4⟩ := hc
  have : some p.type = some ty := by simpa [CProto.paramType, hp] using q3
  cases this
  exact ⟨q, q1, q2, q4⟩

/-- A call of a function. -/
theorem ComLayer.call {W : Type} (L : ComLayer c ws swc send receive name init o g gen f) (ext : Str → W → CVal → Option (W × CVal))
    (d : ComDef) (hd : d ∈ (g.sourceAfter name).defs) (p : CParam) (hp : d.proto.params = [p]) (m : ComFrame W)
    (hm : p.type.pointer = m.arg.isPointer) :
    (⟨(g.sourceAfter name).items init, f.header.protos⟩ : ComDecls).call ext d.proto.name m =
      execComStmts ext ⟨(g.sourceAfter name).items init, f.header.protos⟩ p m d.body.stmts := by
  have hn : ((g.sourceAfter name).defs.map fun d => d.proto.name).Nodup := by
    have := L.words.once
    rw [List.nodup_append] at this
    exact this.2.1
  have hf : ((g.sourceAfter name).items init).findSome? (ComItem.funcNamed d.proto.name) = some (d.proto, d.body.lines) :=
    items_funcNamed init _ _ hn d hd
  unfold ComDecls.call
  simp only [hf]
  obtain ⟨⟨n, r, ps⟩, b⟩ := d
  simp only at hp
  subst hp
  simp only [hm, if_true]
  rw [readComStmts_lines b (L.words.defs _ hd).2, Option.bind_some]

theorem portDefs_each {op : COp} {l : List (Str × CProto)} {code : Port → Py (CFunc × Nat)} : ∀ {ports : List Port} {d : List CDef},
    portDefs op l code ports = .ok d → ∀ p ∈ ports, ∃ k c, protoNamed l p.name = .ok k ∧ code p = .ok c ∧ ⟨k, .code op c.1⟩ ∈ d
  | [], d, _, p, hp => by cases hp
  | q :: ps, d, h, p, hp => by
    simp only [portDefs, bind_ok_iff, Except.ok.injEq] at h
    obtain ⟨k, k1, c, k2, r, k3, rfl⟩ := h
    rcases List.mem_cons.1 hp with rfl | hp
    · exact ⟨k, c, k1, k2, List.mem_cons_self⟩
    · obtain ⟨k', c', h1, h2, h3⟩ := portDefs_each k3 p hp
      exact ⟨k', c', h1, h2, List.mem_cons_of_mem _ h3⟩

/-- A definition of the source of the node, called. -/
theorem ComLayer.nodeCall (L : ComLayer c ws swc send receive name init o g gen f) {un : List CItem}
    (hu : un.filterMap CItem.function = f.source.defs.map fun d => (d.proto, d.body.lines)) (d : CDef) (hd : d ∈ f.source.defs)
    (op : COp) (b : CFunc) (hb : d.body = .code op b) (w : NodeWorld) (arg : CVal) :
    nodeTextCall op.buffer un d.proto.name w arg = (b.call w.buf arg).map fun m => (⟨m.buf, w.notes ++ m.notes⟩, m.arg) := by
  have hnd : ((f.source.defs.map fun d => (d.proto, d.body.lines)).map fun x => x.1.name).Nodup := by
    have := L.nodeFit.once
    unfold GenFiles.declared at this
    rw [List.map_append, List.nodup_append] at this
    rw [← L.nodeFit.defined, List.map_map] at this
    rw [List.map_map]
    exact this.1
  unfold nodeTextCall
  rw [hu, find_named (fun x : CProto × List Str => x.1.name) _ (d.proto, d.body.lines) hnd (List.mem_map.2 ⟨d, hd, rfl⟩), Option.bind_some]
  have := (C104_file_partial g.node gen L.generated none o f L.files L.nodeNames.name.1.2 L.nodeNames.ports d hd op b hb).2.1
  simp only [hb, CBody.lines, this, Option.bind_some]

theorem ComLayer.nodeName (L : ComLayer c ws swc send receive name init o g gen f) : o.nameFor gen.node = g.node.name := by
  have := (comNode_port L.accurate L.importable L.legible (comGen_parts L.new).1 L.generated).1
  simp only [GenOptions.nameFor, L.own, this, Option.getD_none]

theorem ComLayer.nodeWrite (L : ComLayer c ws swc send receive name init o g gen f) {un : List CItem}
    (hu : un.filterMap CItem.function = f.source.defs.map fun d => (d.proto, d.body.lines)) (a : ComApi) (w : NodeWorld) (arg : CVal)
    (m : CMach) (h : callWrite gen o.suffix o.direct a.func.port w.buf arg = some m) :
    nodeTextCall "m_outPortdata".toList un (writeName g.node.name a) w arg = some (⟨m.buf, w.notes ++ m.notes⟩, m.arg) := by
  obtain ⟨rs, ps, cbs, cc, rd, wd, k1, k2, -, -, k5, k6, -, -, -, k10, -⟩ := genFiles_parts L.files
  unfold callWrite at h
  cases hp : gen.node.provides.find? (fun p => p.name = a.func.port) with
  | none => rw [hp] at h; cases h
  | some p =>
    rw [hp] at h
    simp only at h
    have hpm := List.mem_of_find?_eq_some hp
    have hpn : p.name = a.func.port := by simpa using List.find?_some hp
    obtain ⟨k, b, b1, b2, b3⟩ := portDefs_each k6 p hpm
    rw [b2] at h
    simp only at h
    obtain ⟨k', c1, c2⟩ := (protos_mem k2).1 p hpm
    have hk := protoNamed_unique (by rw [protos_names k2]; exact L.provides) c2
    simp only at hk
    rw [b1] at hk
    cases hk
    have hname : k.name = writeName g.node.name a := by
      rw [writeProto_name c1, L.nodeName, hpn]
      rfl
    have := L.nodeCall hu ⟨k, .code .pack b.1⟩ (by rw [k10]; simp [b3]) .pack b.1 rfl w arg
    rw [h, hname] at this
    exact this

theorem ComLayer.nodeRead (L : ComLayer c ws swc send receive name init o g gen f) {un : List CItem}
    (hu : un.filterMap CItem.function = f.source.defs.map fun d => (d.proto, d.body.lines)) (a : ComApi) (p : Port)
    (hp : p ∈ gen.node.requires) (hpn : p.name = a.func.port) (b : CFunc × Nat) (hb : readFunc gen o.suffix p = .ok b) (w : NodeWorld)
    (arg : CVal) (m : CMach) (h : b.1.call w.buf arg = some m) :
    nodeTextCall "m_inPortdata".toList un (readName g.node.name a) w arg = some (⟨m.buf, w.notes ++ m.notes⟩, m.arg) := by
  obtain ⟨rs, ps, cbs, cc, rd, wd, k1, k2, -, -, k5, k6, -, -, -, k10, -⟩ := genFiles_parts L.files
  obtain ⟨k, b', b1, b2, b3⟩ := portDefs_each k5 p hp
  rw [b2] at hb
  cases hb
  obtain ⟨k', c1, c2⟩ := (protos_mem k1).1 p hp
  have hk := protoNamed_unique (by rw [protos_names k1]; exact L.requires) c2
  simp only at hk
  rw [b1] at hk
  cases hk
  have hname : k.name = readName g.node.name a := by
    simp only [readProto, bind_ok_iff, Except.ok.injEq] at c1
    obtain ⟨_, _, rfl⟩ := c1
    rw [L.nodeName, hpn]
    rfl
  have := L.nodeCall hu ⟨k, .code .unpack b.1⟩ (by rw [k10]; simp [b3]) .unpack b.1 rfl w arg
  rw [h, hname] at this
  exact this

/-! ### C106 -/

/-- C106: the header of a communication layer, read by the rules of C, declares exactly the functions of the component,
and the source defines exactly these, with the declared heads, and a variable for each function that sends, with its
initializer; nothing is declared twice. -/
theorem C106_file_partial (L : ComLayer c ws swc send receive name init o g gen f) (guard : Str) (hg : CIdent guard) :
    readHeader ((g.generateHeader name).2.text guard) = some (guard, (send ++ receive).map ComApi.proto) ∧
      ∃ u, readComSource ((g.generateHeader name).1.generateSource.text init) = some u ∧ (u.map ComItem.name).Nodup ∧
        u.filterMap ComItem.head = (send ++ receive).map ComApi.proto ∧
        (∀ a ∈ send, .var a.typename a.func.var (init a.func.var) ∈ u) ∧
        ∀ i ∈ u, i.head = none → ∃ a ∈ send, i = .var a.typename a.func.var (init a.func.var) := by
  obtain ⟨-, hv, hd⟩ := comGen_parts L.new
  have hprotos : g.defs.map ComDef.proto = (send ++ receive).map ComApi.proto := by
    rw [hd, List.map_append, List.map_map, List.map_map, List.map_append]
    rfl
  constructor
  · have h := readComHeader_text guard (g.generateHeader name).2 hg (by
      intro i hi
      simp only [ComGen.generateHeader, List.mem_cons, List.not_mem_nil, or_false] at hi
      subst hi
      decide +kernel) (by
      intro p hp
      have hp : p ∈ g.defs.map ComDef.proto := hp
      rw [hprotos] at hp
      obtain ⟨a, ha, rfl⟩ := List.mem_map.1 hp
      exact L.names.heads a ha)
    rw [h]
    exact congrArg (fun x => some (guard, x)) hprotos
  · refine ⟨_, L.reads.1, ?_, ?_, ?_, ?_⟩
    · rw [items_names]
      exact L.words.once
    · rw [items_heads]
      exact hprotos
    · intro a ha
      have hnd : ((comVarTypes [] send).map Prod.fst).Nodup := comVarTypes_nodup send [] (by simp)
      have hl := comVarTypes_lookup send [] (by simp) L.shared a ha
      rw [lookup_mem hnd, ← hv] at hl
      unfold ComSource.items
      refine List.mem_append_left _ (List.mem_map.2 ⟨(a.func.var, a.typename), ?_, rfl⟩)
      exact (sortedByName_perm Prod.fst g.vars).mem_iff.mpr hl
    · intro i hi hh
      rcases List.mem_append.1 hi with h | h
      · obtain ⟨y, hy, rfl⟩ := List.mem_map.1 h
        have hy : y ∈ sortedByName Prod.fst g.vars := hy
        rw [(sortedByName_perm Prod.fst g.vars).mem_iff, hv] at hy
        rcases comVarTypes_mem send [] y hy with h | ⟨a, ha, rfl⟩
        · cases h
        · exact ⟨a, ha, rfl⟩
      · obtain ⟨d, -, rfl⟩ := List.mem_map.1 h
        cases hh

/-- C106: a call of the function with the text of a send function, with a value (by reference for arrays and records), does
nothing if the value is that of the variable. Otherwise the write function of the port is called with the value, and the
variable has the value afterwards; nothing else is changed. -/
theorem C106_send_partial (L : ComLayer c ws swc send receive name init o g gen f) :
    ∃ u k ps, readComSource ((g.generateHeader name).1.generateSource.text init) = some u ∧ readHeader f.header.text = some (k, ps) ∧
      ∀ (W : Type) (ext : Str → W → CVal → Option (W × CVal)) (a : ComApi), a ∈ send → ∀ (m : ComFrame W) (v y : CVal),
        m.vars a.func.var = some y → m.arg = (if a.func.complex then .ptr v else v) →
        (a.func.complex = false → ∃ i j, v = .int i ∧ y = .int j) →
        (v = y → (⟨u, ps⟩ : ComDecls).call ext a.proto.name m = some m) ∧
        (v ≠ y → ∀ w, ext ("ApxNode_Write_".toList ++ g.node.name ++ ('_' :: a.func.port)) m.world m.arg = some (w, m.arg) →
          (⟨u, ps⟩ : ComDecls).call ext a.proto.name m = some ⟨fun x => if x = a.func.var then some v else m.vars x, m.arg, w⟩) ∧
        (v ≠ y → ext ("ApxNode_Write_".toList ++ g.node.name ++ ('_' :: a.func.port)) m.world m.arg = none →
          (⟨u, ps⟩ : ComDecls).call ext a.proto.name m = none) := by
  refine ⟨_, _, _, L.reads.1, L.reads.2, ?_⟩
  intro W ext a ha m v y hm harg hint
  obtain ⟨p, t, h1, h2, h3, h4, h5, h6⟩ := L.sendReady a ha
  change (v = y → _) ∧ (v ≠ y → ∀ w, ext (writeName g.node.name a) m.world m.arg = _ → _) ∧
    (v ≠ y → ext (writeName g.node.name a) m.world m.arg = none → _)
  have hbody : (sendDef g.node.name a).body = .send p.name a.func.var a.func.complex (writeName g.node.name a) := by
    unfold sendDef
    rw [h1]
    rfl
  cases hc : a.func.complex with
  | true =>
    rw [hc] at h2 h6 harg
    simp only [if_true] at harg
    have hcall := L.call ext (sendDef g.node.name a) (L.defs.1 a ha) p h1 m (by rw [h2, harg]; rfl)
    rw [hbody, hc, exec_send_ref ext _ h3 h5 h2 h4 h6 m v y hm harg] at hcall
    refine ⟨fun e => ?_, fun e w hw => ?_, fun e hw => ?_⟩
    · rw [if_pos e] at hcall
      exact hcall
    · rw [if_neg e, ← harg, hw, harg] at hcall
      exact hcall.trans (by rw [harg])
    · rw [if_neg e, ← harg, hw] at hcall
      exact hcall
  | false =>
    rw [hc] at h2 h6 harg
    simp only [Bool.false_eq_true, if_false] at harg
    obtain ⟨i, j, rfl, rfl⟩ := hint hc
    have hcall := L.call ext (sendDef g.node.name a) (L.defs.1 a ha) p h1 m (by rw [h2, harg]; rfl)
    rw [hbody, hc, exec_send_val ext _ h3 h5 h2 h4 h6 m i j hm harg] at hcall
    refine ⟨fun e => ?_, fun e w hw => ?_, fun e hw => ?_⟩
    · rw [if_pos (by injection e)] at hcall
      exact hcall
    · rw [if_neg (fun e' => e (by rw [e'])), ← harg, hw, harg] at hcall
      exact hcall.trans (by rw [harg])
    · rw [if_neg (fun e' => e (by rw [e'])), ← harg, hw] at hcall
      exact hcall

/-- C106: a call of the function with the text of a receive function, with a pointer, calls the read function of the port
with it; the object has afterwards the value that function gives it, and nothing else is changed. -/
theorem C106_receive_partial (L : ComLayer c ws swc send receive name init o g gen f) :
    ∃ u k ps, readComSource ((g.generateHeader name).1.generateSource.text init) = some u ∧ readHeader f.header.text = some (k, ps) ∧
      ∀ (W : Type) (ext : Str → W → CVal → Option (W × CVal)) (a : ComApi), a ∈ receive → ∀ (m : ComFrame W) (c0 : CVal),
        m.arg = .ptr c0 →
        (∀ w c1, ext ("ApxNode_Read_".toList ++ g.node.name ++ ('_' :: a.func.port)) m.world m.arg = some (w, .ptr c1) →
          (⟨u, ps⟩ : ComDecls).call ext a.proto.name m = some ⟨m.vars, .ptr c1, w⟩) ∧
        (ext ("ApxNode_Read_".toList ++ g.node.name ++ ('_' :: a.func.port)) m.world m.arg = none →
          (⟨u, ps⟩ : ComDecls).call ext a.proto.name m = none) := by
  refine ⟨_, _, _, L.reads.1, L.reads.2, ?_⟩
  intro W ext a ha m c0 harg
  obtain ⟨p, t, h1, h2, h3, h4⟩ := L.receiveReady a ha
  change (∀ w c1, ext (readName g.node.name a) m.world m.arg = _ → _) ∧ (ext (readName g.node.name a) m.world m.arg = none → _)
  have hbody : (receiveDef g.node.name a).body = .receive (readName g.node.name a) p.name := by
    unfold receiveDef
    rw [h1]
    rfl
  have hcall := L.call ext (receiveDef g.node.name a) (L.defs.2 a ha) p h1 m (by rw [h2, harg]; rfl)
  rw [hbody, exec_receive ext _ h3 h4 m] at hcall
  constructor
  · intro w c1 hw
    rw [hw] at hcall
    exact hcall
  · intro hw
    rw [hw] at hcall
    exact hcall

/-- A value that is passed by value is a number. -/
theorem repr_byValue {sfx : Str} {d : Elem} {v : PyVal} {x : CVal} (h : d.Repr sfx v x) (hb : d.ByRef = false) : ∃ i, x = .int i := by
  cases d with
  | prim tc lo hi len =>
    cases len with
    | none =>
      unfold Elem.Repr at h
      obtain ⟨_, i, _, _, _, rfl⟩ := h
      exact ⟨i, rfl⟩
    | some n => simp [Elem.ByRef] at hb
  | _ => simp [Elem.ByRef] at hb

/-- The calls of send functions in `hist`, each with its argument. -/
def sendCalls (hist : List (ComApi × CVal)) : List (Str × CVal) :=
  hist.map fun h => (h.1.proto.name, if h.1.func.complex then .ptr h.2 else h.2)

/-- What the texts and the model agree in. -/
structure ComSim (gen : Generated) (send : List ComApi) (st : ComState) (s : (Str → Option CVal) × NodeWorld) : Prop where
  buf : s.2.buf = st.buf
  notes : s.2.notes = st.notes
  len : st.buf.length = gen.outLen
  vars : ∀ a ∈ send, ∃ y, s.1 a.func.var = some y ∧ st.vars.lookup a.func.var = some y ∧ (a.func.complex = false → ∃ j, y = .int j)

theorem ComLayer.simulates (L : ComLayer c ws swc send receive name init o g gen f) {un : List CItem}
    (hu : un.filterMap CItem.function = f.source.defs.map fun d => (d.proto, d.body.lines)) (hpos : 0 < gen.outLen)
    (u : ComDecls)
    (hcall : ∀ (a : ComApi), a ∈ send → ∀ (m : ComFrame NodeWorld) (v y : CVal),
      m.vars a.func.var = some y → m.arg = (if a.func.complex then .ptr v else v) →
      (a.func.complex = false → ∃ i j, v = .int i ∧ y = .int j) →
      (v = y → u.call (nodeTextCall "m_outPortdata".toList un) a.proto.name m = some m) ∧
      (v ≠ y → ∀ w, nodeTextCall "m_outPortdata".toList un (writeName g.node.name a) m.world m.arg = some (w, m.arg) →
        u.call (nodeTextCall "m_outPortdata".toList un) a.proto.name m =
          some ⟨fun x => if x = a.func.var then some v else m.vars x, m.arg, w⟩)) :
    ∀ (hist : List (ComApi × CVal)) (st st' : ComState) (s : (Str → Option CVal) × NodeWorld), ComSim gen send st s →
      (∀ h ∈ hist, h.1 ∈ send ∧ ∃ p d v, Sends gen o.suffix h.1.func p d ∧ d.Repr o.suffix v h.2) →
      st.sends gen o.suffix o.direct (hist.map fun h => (h.1.func, h.2)) = some st' →
      ∃ s', u.calls (nodeTextCall "m_outPortdata".toList un) s (sendCalls hist) = some s' ∧ ComSim gen send st' s'
  | [], st, st', s, hs, _, h => by
    cases h
    exact ⟨s, rfl, hs⟩
  | (a, v) :: hist, st, st', s, hs, hh, h => by
    obtain ⟨ha, p, d, pv, hS, hR⟩ := hh (a, v) (by simp)
    obtain ⟨y, y1, y2, y3⟩ := hs.vars a ha
    have hint : a.func.complex = false → ∃ i j, v = .int i ∧ y = .int j := by
      intro hc
      obtain ⟨i, rfl⟩ := repr_byValue hR (by rw [← hS.reference]; exact hc)
      obtain ⟨j, rfl⟩ := y3 hc
      exact ⟨i, j, rfl, rfl⟩
    obtain ⟨c1, c2⟩ := hcall a ha ⟨s.1, if a.func.complex then .ptr v else v, s.2⟩ v y y1 rfl hint
    rw [List.map_cons, ComState.sends] at h
    obtain ⟨st1, h1, h⟩ := Option.bind_eq_some_iff.1 h
    unfold ComState.send at h1
    simp only [y2] at h1
    have rest : ∀ s1, ComSim gen send st1 s1 →
        u.call (nodeTextCall "m_outPortdata".toList un) a.proto.name ⟨s.1, if a.func.complex then .ptr v else v, s.2⟩ =
          some ⟨s1.1, if a.func.complex then .ptr v else v, s1.2⟩ →
        ∃ s', u.calls (nodeTextCall "m_outPortdata".toList un) s (sendCalls ((a, v) :: hist)) = some s' ∧ ComSim gen send st' s' := by
      intro s1 hs1 hc
      obtain ⟨s', e1, e2⟩ := ComLayer.simulates L hu hpos u hcall hist st1 st' s1 hs1 (fun x hx => hh x (List.mem_cons_of_mem _ hx)) h
      refine ⟨s', ?_, e2⟩
      show (u.call (nodeTextCall "m_outPortdata".toList un) a.proto.name ⟨s.1, if a.func.complex then .ptr v else v, s.2⟩).bind _ = _
      rw [hc]
      exact e1
    by_cases he : v = y
    · rw [if_pos he] at h1
      cases h1
      exact rest s hs (c1 he)
    · rw [if_neg he] at h1
      obtain ⟨m, m1, rfl⟩ := Option.map_eq_some_iff.1 h1
      obtain ⟨m', bs, w1, w2, -, -, -, -, w3⟩ := callWrite_ok L.generated L.provides hpos o.direct hS pv v hR st.buf hs.len
      rw [m1] at w1
      cases w1
      rw [← hs.buf] at m1
      have hw := L.nodeWrite hu a s.2 _ m m1
      rw [w3] at hw
      refine rest (fun x => if x = a.func.var then some v else s.1 x, ⟨m.buf, s.2.notes ++ m.notes⟩) ⟨rfl, ?_, w2, ?_⟩ (c2 he _ hw)
      · simp only [hs.notes]
      · intro b hb
        simp only [setVar_lookup _ _ _ _ y2]
        by_cases hbv : b.func.var = a.func.var
        · rw [if_pos hbv, if_pos hbv]
          refine ⟨v, rfl, rfl, fun hc => ?_⟩
          have hcc : a.func.complex = b.func.complex := by
            obtain ⟨p1, m1, t1, _, -, e1, e2, -⟩ := L.sends a ha
            obtain ⟨p2, m2, t2, _, -, f1, f2, -⟩ := L.sends b hb
            rw [L.shared b hb a ha hbv] at f1
            rw [e2, f2, L.importable.consistent _ _ _ _ _ _ _ m1 m2 e1 f1]
          rw [hc] at hcc
          obtain ⟨i, _, e, -⟩ := hint hcc
          exact ⟨i, e⟩
        · rw [if_neg hbv, if_neg hbv]
          exact hs.vars b hb

/-- The variables at the start. -/
theorem ComLayer.start (L : ComLayer c ws swc send receive name init o g gen f) (value : Str → Option CVal) {u : List ComItem}
    (hu : readComSource ((g.generateHeader name).1.generateSource.text init) = some u) (a : ComApi) (ha : a ∈ send) :
    comStart value u a.func.var = value (init a.func.var) := by
  have hi : u = (g.sourceAfter name).items init := Option.some.inj (hu.symm.trans L.reads.1)
  have hmem : a.func.var ∈ (g.sourceAfter name).vars.map Prod.fst := by
    have := (comVarTypes_has send []).2 a ha
    rw [← (comGen_parts L.new).2.1] at this
    exact ((sortedByName_perm Prod.fst g.vars).map _).mem_iff.mpr this
  have h := items_initOf init a.func.var (g.sourceAfter name).defs (g.sourceAfter name).vars hmem
  unfold comStart
  subst hi
  exact congrArg (fun x => x.bind value) h

/-- C106, both texts together: the variables start with their initializers and the array of the node with the initial data
(C105). Then, whatever is sent in whatever order, calls of the functions with the text of the send functions, which call
those with the text of the write functions, do nothing undefined; afterwards a port whose function was called with another
value than before holds the value last sent, a port whose function was not still holds its initial data, as does every
port without a function; and there is one notification for each call that changed a value, with the place of the port. -/
theorem C106_history_partial (L : ComLayer c ws swc send receive name init o g gen f) (hpos : 0 < gen.outLen)
    (hv : (send.map fun a => a.func.var).Nodup) (hp : (send.map fun a => a.func.port).Nodup) (value : Str → Option CVal)
    (hvalue : ∀ a ∈ send, value (init a.func.var) = some a.func.init)
    (hnum : ∀ a ∈ send, a.func.complex = false → ∃ j, a.func.init = .int j) (hist : List (ComApi × CVal))
    (hh : ∀ h ∈ hist, h.1 ∈ send ∧ ∃ p d v, Sends gen o.suffix h.1.func p d ∧ d.Repr o.suffix v h.2) :
    ∃ u un k ps vars w, readComSource ((g.generateHeader name).1.generateSource.text init) = some u ∧
      readSource f.source.text = some un ∧ readHeader f.header.text = some (k, ps) ∧
      (⟨u, ps⟩ : ComDecls).calls (nodeTextCall "m_outPortdata".toList un) (comStart value u, ⟨gen.outInit, []⟩)
        (hist.map fun h => (h.1.proto.name, if h.1.func.complex then .ptr h.2 else h.2)) = some (vars, w) ∧
      (∀ a ∈ send, a.func ∈ changes [] (hist.map fun h => (h.1.func, h.2)) → ∃ p d v bs, Sends gen o.suffix a.func p d ∧
        d.Repr o.suffix v (valueAfter a.func (hist.map fun h => (h.1.func, h.2))) ∧ p.elem.layout v = some bs ∧
        gen.portBytes a.func.port w.buf = some bs) ∧
      (∀ a ∈ send, a.func ∉ changes [] (hist.map fun h => (h.1.func, h.2)) →
        valueAfter a.func (hist.map fun h => (h.1.func, h.2)) = a.func.init ∧
        gen.portBytes a.func.port w.buf = gen.portBytes a.func.port gen.outInit) ∧
      (∀ port, port ∉ send.map (fun a => a.func.port) → gen.portBytes port w.buf = gen.portBytes port gen.outInit) ∧
      w.notes.map some = (changes [] (hist.map fun h => (h.1.func, h.2))).map fun a => gen.note o.direct a.port := by
  obtain ⟨un, hun, hu, -⟩ := C105_file_partial g.node gen L.generated none o f L.files L.nodeNames
  obtain ⟨u, k, ps, hsrc, hhd, hcall⟩ := C106_send_partial L
  obtain ⟨st, hst, s1, s2, s3, s4⟩ := C87_history_partial g.node gen L.generated L.provides hpos o.suffix o.direct
    (send.map ComApi.func) (by rw [List.map_map]; exact hv) (by rw [List.map_map]; exact hp)
    (hist.map fun h => (h.1.func, h.2)) (by
      intro x hx
      obtain ⟨h, hm, rfl⟩ := List.mem_map.1 hx
      obtain ⟨h1, h2⟩ := hh h hm
      exact ⟨List.mem_map_of_mem h1, h2⟩)
  have hsim : ComSim gen send (ComState.start gen (send.map ComApi.func)) (comStart value u, ⟨gen.outInit, []⟩) := by
    refine ⟨rfl, rfl, (generated_facts L.generated).2.1, ?_⟩
    intro a ha
    refine ⟨a.func.init, ?_, ?_, hnum a ha⟩
    · exact (L.start value hsrc a ha).trans (hvalue a ha)
    · exact comVars_lookup (send.map ComApi.func) (by rw [List.map_map]; exact hv) [] (fun _ _ => rfl) a.func (List.mem_map_of_mem ha)
  obtain ⟨s', e1, e2⟩ := L.simulates hu hpos ⟨u, ps⟩ (fun a ha m v y h1 h2 h3 =>
    ⟨(hcall NodeWorld _ a ha m v y h1 h2 h3).1, (hcall NodeWorld _ a ha m v y h1 h2 h3).2.1⟩) hist _ st _ hsim hh hst
  refine ⟨u, un, k, ps, s'.1, s'.2, hsrc, hun, hhd, e1, ?_, ?_, ?_, ?_⟩
  · intro a ha hc
    rw [e2.buf]
    exact s1 a.func (List.mem_map_of_mem ha) hc
  · intro a ha hc
    rw [e2.buf]
    exact s2 a.func (List.mem_map_of_mem ha) hc
  · intro port hport
    rw [e2.buf]
    exact s3 port (by rw [List.map_map]; exact hport)
  · rw [e2.notes]
    exact s4

/-- C106, both texts together: if the bytes of the require port in the array of the node are those of a value, the function
with the text of the receive function, which calls that with the text of the read function, delivers this value; the
variables and the array remain as they are. -/
theorem C106_received_partial (L : ComLayer c ws swc send receive name init o g gen f) (hpos : 0 < gen.inLen) (a : ComApi) (ha : a ∈ receive)
    (p : Port) (hp : p ∈ gen.node.requires) (hn : p.name = a.func.port) (d : Elem) (hd : p.elem.resolveDataElement = .ok d)
    (hs : d.CSupported) (hsfx : o.suffix = [] ∨ d.NoNested) :
    ∃ u un k ps s, readComSource ((g.generateHeader name).1.generateSource.text init) = some u ∧
      readSource f.source.text = some un ∧ readHeader f.header.text = some (k, ps) ∧ s ∈ gen.require ∧ s.name = a.func.port ∧
      ∀ (v : PyVal) (x x0 : CVal) (buf : Bytes) (notes : List (Nat × Nat × Bool)) (vars : Str → Option CVal), d.Repr o.suffix v x →
        d.Shape o.suffix x0 → buf.length = gen.inLen → p.elem.layout v = some ((buf.drop s.offset).take s.packLen) →
        ∃ w, w.buf = buf ∧ (⟨u, ps⟩ : ComDecls).call (nodeTextCall "m_inPortdata".toList un) a.proto.name ⟨vars, .ptr x0, ⟨buf, notes⟩⟩ =
          some ⟨vars, .ptr x, w⟩ := by
  obtain ⟨un, hun, hu, -⟩ := C105_file_partial g.node gen L.generated none o f L.files L.nodeNames
  obtain ⟨u, k, ps, hsrc, hhd, hcall⟩ := C106_receive_partial L
  obtain ⟨s, h1, h2, -, -, h3⟩ := C67_node_read_partial g.node gen L.generated L.requires p hp d hd hs o.suffix hsfx
  obtain ⟨b, b1, b2⟩ := h3 hpos
  refine ⟨u, un, k, ps, s, hsrc, hun, hhd, h1, by rw [h2, hn], ?_⟩
  intro v x x0 buf notes vars hr hsh hb hl
  obtain ⟨m, m1, m2, m3⟩ := b2 v x x0 buf hr hsh hb hl
  have hr := L.nodeRead hu a p hp hn _ b1 ⟨buf, notes⟩ _ m m1
  rw [m3] at hr
  exact ⟨_, m2, (hcall NodeWorld _ a ha ⟨vars, .ptr x0, ⟨buf, notes⟩⟩ x0 rfl).1 _ _ hr⟩

end

/-- C106 fails for a send function whose parameter has the name of the variable: it compares the parameter with itself, and
whatever value it is called with, and whatever the variable contains, nothing is sent. -/
theorem C106_hidden_violated (c : Nat → Nat) (ws : Workspace) (swc : AComponent) (send receive : List ComApi) (g : ComGen)
    (hg : ComGen.new c ws swc send receive = .ok g) (name : Str) (init : Str → Str)
    (hw : (g.generateHeader name).1.generateSource.Words init) (a : ComApi) (ha : a ∈ send) (hc : a.func.complex = false) (t : Str)
    (hp : a.proto.params = [⟨a.func.var, ⟨t, false⟩⟩]) :
    ∃ u, readComSource ((g.generateHeader name).1.generateSource.text init) = some u ∧
      ∀ (ps : List CProto) (W : Type) (ext : Str → W → CVal → Option (W × CVal)) (m : ComFrame W) (i : Int), m.arg = .int i →
        (⟨u, ps⟩ : ComDecls).call ext a.proto.name m = some m := by
  refine ⟨_, readComSource_text init _ hw, ?_⟩
  intro ps W ext m i hi
  obtain ⟨-, -, hd⟩ := comGen_parts hg
  have hdm : sendDef g.node.name a ∈ (g.generateHeader name).1.generateSource.defs := by
    show _ ∈ g.defs
    rw [hd]
    exact List.mem_append_left _ (List.mem_map_of_mem ha)
  have hn : ((g.generateHeader name).1.generateSource.defs.map fun d => d.proto.name).Nodup := by
    have := hw.once
    rw [List.nodup_append] at this
    exact this.2.1
  have hbody : (sendDef g.node.name a).body = .send a.func.var a.func.var false (writeName g.node.name a) := by
    unfold sendDef
    rw [hp, hc]
    rfl
  have hr := readComStmts_lines _ (hw.defs _ hdm).2
  have hf : ((g.generateHeader name).1.generateSource.items init).findSome? (ComItem.funcNamed a.proto.name) =
      some (a.proto, (sendDef g.node.name a).body.lines) := items_funcNamed init _ _ hn _ hdm
  have hex : execComStmts ext (⟨(g.generateHeader name).1.generateSource.items init, ps⟩ : ComDecls) ⟨a.func.var, ⟨t, false⟩⟩ m
      (ComBody.stmts (.send a.func.var a.func.var false (writeName g.node.name a))) = some m := by
    have hal : (⟨(g.generateHeader name).1.generateSource.items init, ps⟩ : ComDecls).Alike ⟨a.func.var, ⟨t, false⟩⟩ a.func.var a.func.var := by
      unfold ComDecls.Alike ComDecls.typeOf
      rw [if_pos rfl]
      exact ⟨rfl, rfl⟩
    have hv : m.value ⟨a.func.var, ⟨t, false⟩⟩ a.func.var = some (.int i) := by
      unfold ComFrame.value
      rw [if_pos rfl, hi]
    simp [ComBody.stmts, execComStmts, ComStmt.exec, ComCond.holds, hal, hv]
  unfold ComDecls.call
  simp only [hf]
  rw [hbody] at hr ⊢
  obtain ⟨fn, ⟨n, r, q⟩, tn⟩ := a
  simp only at hp
  subst hp
  simp only [hi, CVal.isPointer, if_true]
  rw [hr, Option.bind_some]
  exact hex

/-! ### Examples -/

instance (s : Str) : Decidable (WordChars s) := inferInstanceAs (Decidable (∀ c ∈ s, _))
instance (t : CTy) : Decidable t.Words := inferInstanceAs (Decidable (CTypeName _))
instance (p : CProto) : Decidable p.Words := inferInstanceAs (Decidable (_ ∧ _ ∧ ∀ x ∈ p.params, _))
instance (s : Str) : Decidable (FreeName s) := inferInstanceAs (Decidable (_ ∧ _))
instance (s : Str) : Decidable (InitText s) := inferInstanceAs (Decidable (_ ∧ _))

def cmLamp (a b : Int) : CVal := .struct (.cons "on".toList (.int a) (.cons "level".toList (.int b) .nil))

/-- The functions of the component `imSwc`. -/
def cmSend : List ComApi :=
  [⟨⟨"VehSpeed".toList, ['v'], false, .int 300⟩, ⟨"Send_Speed".toList, ⟨"Std_ReturnType".toList, false⟩,
      [⟨"value".toList, ⟨"Speed".toList, false⟩⟩]⟩, "Speed".toList⟩,
   ⟨⟨"Lamp".toList, ['v'], true, cmLamp 1 2⟩, ⟨"Send_Lamp".toList, ⟨"Std_ReturnType".toList, false⟩,
      [⟨"value".toList, ⟨"Status".toList, true⟩⟩]⟩, "Status".toList⟩]

/-- The initializers, and what they denote. -/
def cmInit (x : Str) : Str := if x = "m_Lamp_v".toList then "{true, 2}".toList else "300".toList

def cmValue (x : Str) : Option CVal :=
  if x = "300".toList then some (.int 300) else if x = "{true, 2}".toList then some (cmLamp 1 2) else none

/-- The source of the layer. -/
example : ((ComGen.new exactCeilLog imWs imSwc cmSend cfReceive).toOption.map fun g =>
      ((g.generateHeader "ApxCom.h".toList).1.generateSource.text cmInit)) =
    some (fileText (commentHeader "INCLUDES".toList ++ (["#include <string.h>", "#include \"ApxCom.h\"", "#include \"ApxNode_Swc.h\"", ""].map String.toList) ++
      commentHeader "CONSTANTS AND DATA TYPES".toList ++ [[]] ++ commentHeader "LOCAL FUNCTION PROTOTYPES".toList ++ [[]] ++
      commentHeader "LOCAL VARIABLES".toList ++ (["static Status m_Lamp_v = {true, 2};", "static Speed m_VehSpeed_v = 300;", ""].map String.toList) ++
      commentHeader "GLOBAL FUNCTIONS".toList ++ (["", "Std_ReturnType Send_Speed(Speed value)", "{", "   if (value != m_VehSpeed_v)", "   {",
        "      m_VehSpeed_v = value;", "      ApxNode_Write_Swc_VehSpeed(m_VehSpeed_v);", "   }", "   return E_OK;", "}", "",
        "Std_ReturnType Send_Lamp(Status *value)", "{", "   if (memcmp(value, &m_Lamp_v, sizeof(m_Lamp_v)) != 0)", "   {",
        "      memcpy(&m_Lamp_v, value, sizeof(m_Lamp_v));", "      ApxNode_Write_Swc_Lamp(&m_Lamp_v);", "   }", "   return E_OK;", "}", "",
        "Std_ReturnType Receive_Speed(Speed *value)", "{", "   ApxNode_Read_Swc_OutSpeed(value);", "   return E_OK;", "}"].map String.toList))) := by
  decide +kernel

/-- What is asked of the files. -/
def cmCheck : Bool :=
  match ComGen.new exactCeilLog imWs imSwc cmSend cfReceive with
  | .ok g =>
    decide (g.node.name = "Swc".toList) &&
    (match generate g.node with
      | .ok gen => gfCheck (genFiles none {} gen) fun _ => genNamesCheck {} gen &&
          decide ((gen.node.requires.map Port.name).Nodup ∧ (gen.node.provides.map Port.name).Nodup ∧ 0 < gen.outLen ∧ 0 < gen.inLen)
      | .error _ => false)
  | .error _ => false

theorem cmCheck_ok : cmCheck = true := by decide +kernel

/-- The hypotheses of C106 hold for these functions. -/
theorem cmLayer : ∃ g gen f, 0 < gen.outLen ∧ 0 < gen.inLen ∧
    ComLayer exactCeilLog imWs imSwc cmSend cfReceive "ApxCom.h".toList cmInit {} g gen f := by
  have h := cmCheck_ok
  unfold cmCheck at h
  split at h
  · rename_i g hg
    rw [Bool.and_eq_true] at h
    obtain ⟨hname, h⟩ := h
    split at h
    · rename_i gen hgen
      obtain ⟨f, hf, h⟩ := gfCheck_ok h
      rw [Bool.and_eq_true] at h
      obtain ⟨h1, h2⟩ := h
      obtain ⟨r, p, ho, hi⟩ := of_decide_eq_true h2
      refine ⟨g, gen, f, ho, hi, ?_⟩
      refine ⟨exactCeilLog_accurate, imSwc_importable, imSwc_legible, ?_, ?_, by decide +kernel, hg, ?_, by decide +kernel, ?_, rfl, hgen,
        hf, genNamesCheck_ok h1, fun i hi => (by cases hi), r, p, fun cb hcb => (by cases hcb)⟩
      · intro a ha
        simp only [cmSend, List.mem_cons, List.not_mem_nil, or_false] at ha
        rcases ha with rfl | rfl
        · exact ⟨_, List.mem_cons_self, .int 0 65535, "value".toList, rfl, by decide +kernel, rfl, rfl⟩
        · exact ⟨_, List.mem_cons_of_mem _ List.mem_cons_self,
            .record (.cons "on".toList .bool (.cons "level_RE".toList (.int 0 3) .nil)), "value".toList, rfl, by decide +kernel, rfl, rfl⟩
      · intro a ha
        simp only [cfReceive, List.mem_cons, List.not_mem_nil, or_false] at ha
        subst ha
        exact ⟨_, List.mem_cons_self, .int 0 65535, "value".toList, rfl, by decide +kernel, rfl, rfl⟩
      · rw [of_decide_eq_true hname]
        exact ⟨by decide +kernel, by decide +kernel, by decide +kernel, by decide +kernel, by decide +kernel, by decide +kernel, by decide +kernel⟩
      · decide +kernel
    · cases h
  · cases h

/-- The initializers are what `C106_history_partial` asks for. -/
example : (∀ a ∈ cmSend, cmValue (cmInit a.func.var) = some a.func.init) ∧ (cmSend.map fun a => a.func.var).Nodup ∧
    (cmSend.map fun a => a.func.port).Nodup := by decide +kernel

/-- The texts, executed: the data at the start, and the data and the notifications after the calls. -/
def cmRun (calls : List (Str × CVal)) : Option (Bytes × Bytes × List (Nat × Nat × Bool)) := do
  let g ← (ComGen.new exactCeilLog imWs imSwc cmSend cfReceive).toOption
  let gen ← (generate g.node).toOption
  let f ← (genFiles none {} gen).toOption
  let u ← readComSource ((g.generateHeader "ApxCom.h".toList).1.generateSource.text cmInit)
  let un ← readSource f.source.text
  let (_, ps) ← readHeader f.header.text
  let (_, w) ← (⟨u, ps⟩ : ComDecls).calls (nodeTextCall "m_outPortdata".toList un) (comStart cmValue u, ⟨gen.outInit, []⟩) calls
  return (gen.outInit, w.buf, w.notes)

/-- Only values that differ from those before are written. -/
example : cmRun [("Send_Speed".toList, .int 300), ("Send_Lamp".toList, .ptr (cmLamp 0 3)), ("Send_Speed".toList, .int 513),
    ("Send_Lamp".toList, .ptr (cmLamp 0 3))] = some ([1, 2, 44, 1], [0, 3, 1, 2], [(0, 2, false), (2, 2, false)]) := by decide +kernel

/-- Wrong arguments are noticed: a pointer for a number, and a number for a pointer. -/
example : cmRun [("Send_Speed".toList, .ptr (.int 3))] = none ∧ cmRun [("Send_Lamp".toList, .int 3)] = none := by decide +kernel

/-- A function for which C106 fails. -/
def cmHidden : List ComApi :=
  [⟨⟨"VehSpeed".toList, ['v'], false, .int 300⟩, ⟨"Send_Speed".toList, ⟨"Std_ReturnType".toList, false⟩,
      [⟨"m_VehSpeed_v".toList, ⟨"Speed".toList, false⟩⟩]⟩, "Speed".toList⟩]

instance : (b : ComBody) → Decidable b.Words
  | .send _ _ _ _ => inferInstanceAs (Decidable (_ ∧ _))
  | .receive _ _ => inferInstanceAs (Decidable (_ ∧ _))

def cmHiddenCheck : Bool :=
  match ComGen.new exactCeilLog imWs imSwc cmHidden [] with
  | .ok g =>
    let s := (g.generateHeader "ApxCom.h".toList).1.generateSource
    decide ((∀ i ∈ s.includes, Flat i) ∧ (∀ x ∈ s.vars, CIdent x.1 ∧ CIdent x.2 ∧ InitText (cmInit x.1)) ∧
      (∀ d ∈ s.defs, d.proto.Words ∧ d.body.Words) ∧ (s.vars.map Prod.fst ++ s.defs.map fun d => d.proto.name).Nodup)
  | .error _ => false

/-- The hypotheses of `C106_hidden_violated` hold for it. -/
example : (∀ a ∈ cmHidden, a.func.complex = false ∧ a.proto.params = [⟨a.func.var, ⟨"Speed".toList, false⟩⟩]) ∧
    ∃ g, ComGen.new exactCeilLog imWs imSwc cmHidden [] = .ok g ∧ (g.generateHeader "ApxCom.h".toList).1.generateSource.Words cmInit := by
  refine ⟨by decide +kernel, ?_⟩
  have h : cmHiddenCheck = true := by decide +kernel
  unfold cmHiddenCheck at h
  split at h
  · rename_i g hg
    obtain ⟨h1, h2, h3, h4⟩ := of_decide_eq_true h
    exact ⟨g, hg, h1, h2, h3, h4⟩
  · cases h

end Apx
