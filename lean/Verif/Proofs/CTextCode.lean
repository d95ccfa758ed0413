import Verif.Proofs.CText

/-!
The code of a function is printed the way it is read.
-/

namespace Apx

/-! ### The emitted statements -/

/-- All steps follow the variable: members and elements, no `*`. -/
def Posts (p : CPath) : Prop := ∀ a ∈ p, a.Post

theorem Posts.value {p : CPath} (h : Posts p) : ValueOk p := ⟨p, h, .inl rfl⟩
theorem Posts.star {p : CPath} (h : Posts p) : ValueOk (p ++ [.star]) := ⟨p, h, .inr rfl⟩

theorem Posts.snoc {p : CPath} (h : Posts p) (a : CAccess) (ha : a.Post) : Posts (p ++ [a]) := by
  intro x hx
  rcases List.mem_append.1 hx with hx | hx
  · exact h x hx
  · cases List.mem_singleton.1 hx
    exact ha

/-- Every statement starts with something else than an advance of the pointer. -/
def Starts : List CSimple → Prop
  | .advance _ :: _ => False
  | _ => True

/-- A group of simple statements that is printed the way it is read, whatever is before it. -/
structure GroupOk (bufptr : Bool) (l : List CSimple) : Prop where
  print : ∀ s ∈ l, s.PrintOk
  adv : ∀ prev, AdvancesOk prev l
  uses : ∀ s ∈ l, s.usesP = true → bufptr = true

theorem groupOk_integer (op : COp) (bufptr : Bool) (v : CPath) (t : IntT) (offset : Nat) (hv : Posts v) :
    GroupOk bufptr (emitInteger op bufptr v t offset) := by
  have h1 := hv.value
  have h2 := hv.star
  unfold emitInteger
  cases bufptr <;> cases op <;> by_cases h : t.size = 1 <;> simp only [h, if_true, if_false, Bool.false_eq_true] <;>
    refine ⟨?_, ?_, ?_⟩ <;>
    simp [CSimple.PrintOk, AdvancesOk, AdvanceOk, CSimple.usesP, CLoc.AddressOk, h1, h2]

theorem groupOk_string (op : COp) (bufptr : Bool) (v : CPath) (n offset : Nat) (hv : Posts v) :
    GroupOk bufptr (emitString op bufptr v n offset) := by
  have h1 := hv.value
  unfold emitString
  cases bufptr <;> cases op <;> simp only [if_true, if_false, Bool.false_eq_true] <;>
    refine ⟨?_, ?_, ?_⟩ <;>
    simp [CSimple.PrintOk, AdvancesOk, AdvanceOk, CSimple.usesP, CLoc.AddressOk, h1]

theorem stmtsOk_simples : ∀ (l : List CSimple) (prev : Option CSimple), (∀ s ∈ l, s.PrintOk) → AdvancesOk prev l →
    StmtsOk prev (l.map .simple)
  | [], _, _, _ => trivial
  | s :: l, _, h1, h2 => ⟨h1 s (by simp), h2.1,
      stmtsOk_simples l (some s) (fun x hx => h1 x (List.mem_cons_of_mem _ hx)) h2.2⟩

theorem stmtsOk_append : ∀ (a b : List CStmt) (prev : Option CSimple), StmtsOk prev a → (∀ p, StmtsOk p b) →
    StmtsOk prev (a ++ b)
  | [], _, prev, _, hb => hb prev
  | .simple _ :: a, b, _, ha, hb => ⟨ha.1, ha.2.1, stmtsOk_append a b _ ha.2.2 hb⟩
  | .loop _ _ :: a, b, _, ha, hb => ⟨ha.1, ha.2.1, stmtsOk_append a b _ ha.2.2 hb⟩

/-- Does the statement use `p`? -/
def CStmt.usesP (s : CStmt) : Bool := (CTop.stmt s).usesP

/-- The width of the loop variable is one of those that can be declared. -/
def BitsOk : Option Nat → Prop
  | none => True
  | some b => b = 8 ∨ b = 16 ∨ b = 32

theorem bitsOk_widen (n : Nat) (b : Option Nat) (h : BitsOk b) : BitsOk (some (widenLoop (loopWidth n) b)) := by
  have hw : loopWidth n = 8 ∨ loopWidth n = 16 ∨ loopWidth n = 32 := by
    unfold loopWidth
    split
    · exact .inl rfl
    · split
      · exact .inr (.inl rfl)
      · exact .inr (.inr rfl)
  cases b with
  | none => exact hw
  | some b =>
    unfold widenLoop BitsOk
    rcases h with h | h | h <;> rcases hw with w | w | w <;> subst h <;> rw [w] <;> decide

/-- What the code of a value has: `lv` and `lv'` are the variables before and after it. -/
structure CodeOk (lv : CLocals) (code : List CStmt) (lv' : CLocals) : Prop where
  stmts : ∀ prev, StmtsOk prev code
  uses : ∀ s ∈ code, s.usesP = true → lv'.bufptr = true
  keep : lv.bufptr = true → lv'.bufptr = true
  loops : ∀ n body, CStmt.loop n body ∈ code → lv'.loopBits ≠ none
  keepBits : lv.loopBits ≠ none → lv'.loopBits ≠ none
  bits : BitsOk lv.loopBits → BitsOk lv'.loopBits

theorem codeOk_simples (lv : CLocals) (l : List CSimple) (h : GroupOk lv.bufptr l) : CodeOk lv (l.map .simple) lv where
  stmts prev := stmtsOk_simples l prev h.print (h.adv prev)
  uses s hs hu := by
    obtain ⟨x, hx, rfl⟩ := List.mem_map.1 hs
    exact h.uses x hx hu
  keep := id
  loops n body hm := by
    obtain ⟨x, _, hx⟩ := List.mem_map.1 hm
    cases hx
  keepBits := id
  bits := id

theorem codeOk_nil (lv : CLocals) : CodeOk lv [] lv :=
  ⟨fun _ => trivial, fun s hs => (by cases hs), id, fun _ _ hm => (by cases hm), id, id⟩

theorem CodeOk.append {lv lv1 lv2 : CLocals} {a b : List CStmt} (ha : CodeOk lv a lv1) (hb : CodeOk lv1 b lv2) :
    CodeOk lv (a ++ b) lv2 where
  stmts prev := stmtsOk_append a b prev (ha.stmts prev) hb.stmts
  uses s hs hu := by
    rcases List.mem_append.1 hs with h | h
    · exact hb.keep (ha.uses s h hu)
    · exact hb.uses s h hu
  keep h := hb.keep (ha.keep h)
  loops n body hm := by
    rcases List.mem_append.1 hm with h | h
    · exact hb.keepBits (ha.loops n body h)
    · exact hb.loops n body h
  keepBits h := hb.keepBits (ha.keepBits h)
  bits h := hb.bits (ha.bits h)

/-! ### Names -/

mutual
/-- All members have names that are identifiers of C, with and without the suffix of the field names. -/
def Elem.CNames (sfx : Str) : Elem → Prop
  | .record fs _ => fs.CNames sfx
  | _ => True
/-- All members have names that are identifiers of C; a missing name is printed as `None`. -/
def Fields.CNames (sfx : Str) : Fields → Prop
  | .nil => True
  | .cons n e r => (CIdent (n.getD "None".toList) ∧ CIdent (n.getD "None".toList ++ sfx)) ∧ e.CNames sfx ∧ r.CNames sfx
end

theorem posts_child (sfx : Str) (n : Option Str)
    (hn : CIdent (n.getD "None".toList) ∧ CIdent (n.getD "None".toList ++ sfx)) (val : CName)
    (hv : Posts val.path) : Posts (val.child sfx n).path := by
  have hc := hn.2
  cases val with
  | var b =>
    cases b with
    | true =>
      intro a ha
      cases List.mem_singleton.1 ha
      exact hc
    | false =>
      intro a ha
      cases List.mem_singleton.1 ha
      exact hc
  | text p => exact hv.snoc (.dot _) hn.1

theorem genPlain_ok (op : COp) (lv : CLocals) (v : CPath) (e : Elem) (offset : Nat) (hv : Posts v)
    (r : List CStmt × Nat × CLocals) (h : genPlain op lv v e offset = .ok r) : CodeOk lv r.1 r.2.2 := by
  unfold genPlain genInteger at h
  obtain ⟨x, hx, h⟩ := bind_ok_iff.1 h
  obtain ⟨d, _, hx⟩ := bind_ok_iff.1 hx
  obtain ⟨t, _, hx⟩ := bind_ok_iff.1 hx
  cases hx
  cases h
  exact codeOk_simples lv _ (groupOk_integer op lv.bufptr v t offset hv)

theorem genOther_ok (op : COp) (lv : CLocals) (v : CPath) (e : Elem) (offset : Nat) (hv : Posts v)
    (r : List CStmt × Nat × CLocals) (h : genOther op lv v e offset = .ok r) : CodeOk lv r.1 r.2.2 := by
  unfold genOther at h
  obtain ⟨a, _, h⟩ := bind_ok_iff.1 h
  cases a with
  | false => cases h; exact codeOk_nil lv
  | true =>
    simp only [if_true] at h
    unfold genArray at h
    cases hn : e.arrayLen with
    | none => rw [hn] at h; cases h
    | some n =>
      rw [hn] at h
      dsimp only at h
      unfold genInteger at h
      obtain ⟨x, hx, h⟩ := bind_ok_iff.1 h
      obtain ⟨d, _, hx⟩ := bind_ok_iff.1 hx
      obtain ⟨t, _, hx⟩ := bind_ok_iff.1 hx
      cases hx
      cases h
      have g := groupOk_integer op true (v ++ [.idx]) t offset (hv.snoc .idx trivial)
      exact ⟨fun _ => ⟨g.print, g.adv none, trivial⟩, fun _ _ _ => rfl, fun _ => rfl, fun _ _ _ => (by simp),
        fun _ => (by simp), bitsOk_widen n lv.loopBits⟩

mutual
theorem genElem_code (sfx : Str) (op : COp) (lv : CLocals) (offset : Nat) (val : CName) (e : Elem)
    (hv : Posts val.path) (he : e.CNames sfx) (r : List CStmt × Nat × CLocals) (h : genElem sfx op lv offset val e = .ok r) :
    CodeOk lv r.1 r.2.2 := by
  unfold genElem at h
  cases hc : e.isComplexType with
  | error x => rw [hc] at h; cases h
  | ok b =>
    rw [hc] at h
    cases b with
    | false => exact genPlain_ok op lv val.path e offset hv r h
    | true =>
      dsimp only at h
      match e, he, h with
      | .record fs n, he, h =>
        have := genFields_code sfx op { lv with bufptr := true } offset val fs hv he r h
        exact ⟨this.stmts, this.uses, fun _ => this.keep rfl, this.loops, this.keepBits, this.bits⟩
      | .prim .str lo hi (some n), _, h =>
        cases h
        exact codeOk_simples lv _ (groupOk_string op lv.bufptr val.path n offset hv)
      | .prim .str lo hi none, _, h => exact genOther_ok op lv _ _ offset hv r h
      | .prim .u8 lo hi al, _, h => exact genOther_ok op lv _ _ offset hv r h
      | .prim .s8 lo hi al, _, h => exact genOther_ok op lv _ _ offset hv r h
      | .prim .u16 lo hi al, _, h => exact genOther_ok op lv _ _ offset hv r h
      | .prim .s16 lo hi al, _, h => exact genOther_ok op lv _ _ offset hv r h
      | .prim .u32 lo hi al, _, h => exact genOther_ok op lv _ _ offset hv r h
      | .prim .s32 lo hi al, _, h => exact genOther_ok op lv _ _ offset hv r h
      | .prim .u64 lo hi al, _, h => exact genOther_ok op lv _ _ offset hv r h
      | .prim .s64 lo hi al, _, h => exact genOther_ok op lv _ _ offset hv r h
      | .refId i, _, h => exact genOther_ok op lv _ _ offset hv r h
      | .refName i, _, h => exact genOther_ok op lv _ _ offset hv r h
      | .refType i t, _, h => exact genOther_ok op lv _ _ offset hv r h
theorem genFields_code (sfx : Str) (op : COp) (lv : CLocals) (offset : Nat) (val : CName) (fs : Fields)
    (hv : Posts val.path) (he : fs.CNames sfx) (r : List CStmt × Nat × CLocals) (h : genFields sfx op lv offset val fs = .ok r) :
    CodeOk lv r.1 r.2.2 := by
  match fs, he, h with
  | .nil, _, h =>
    unfold genFields at h
    cases h
    exact codeOk_nil lv
  | .cons n e rest, he, h =>
    unfold genFields at h
    obtain ⟨a, ha, h⟩ := bind_ok_iff.1 h
    obtain ⟨q, hq, h⟩ := bind_ok_iff.1 h
    cases h
    exact (genElem_code sfx op lv offset _ e (posts_child sfx n he.1 val hv) he.2.1 a ha).append
      (genFields_code sfx op a.2.2 _ val rest hv he.2.2 q hq)
end

/-! ### The lines of a function -/

theorem topStmts_map (l : List CStmt) : topStmts (l.map CTop.stmt) = l := by
  induction l with
  | nil => rfl
  | cons a l ih =>
    show a :: topStmts (l.map CTop.stmt) = _
    rw [ih]

theorem topStmts_append (a b : List CTop) : topStmts (a ++ b) = topStmts a ++ topStmts b := by
  unfold topStmts
  rw [List.filterMap_append]

theorem topStmts_others : ∀ l : List CTop, (∀ t ∈ l, t.isCode = false) → topStmts l = []
  | [], _ => rfl
  | t :: l, h => by
    have ih := topStmts_others l (fun x hx => h x (List.mem_cons_of_mem _ hx))
    have ht := h t (by simp)
    cases t with
    | stmt _ => cases ht
    | _ => exact ih

/-- Other statements, each on its line. -/
def plainTopLines (buf : Str) (l : List CTop) : List Str := l.map fun t => indentBy 3 (t.text buf ++ [';'])

theorem topLines_eq (buf : Str) (l : List CTop) : topLines buf l =
    plainTopLines buf (l.takeWhile fun t => !t.isCode) ++ stmtLines buf 3 none (topStmts l) ++
      plainTopLines buf ((l.dropWhile fun t => !t.isCode).filter fun t => !t.isCode) := by
  rfl

/-- The lines before, of, and after the code of the value. -/
theorem topLines_split (buf : Str) (pre : List CTop) (l : List CStmt) (post : List CTop) (h1 : ∀ t ∈ pre, t.isCode = false)
    (h2 : ∀ t ∈ post, t.isCode = false) : topLines buf (pre ++ (l.map CTop.stmt ++ post)) =
      plainTopLines buf pre ++ (stmtLines buf 3 none l ++ plainTopLines buf post) := by
  rw [topLines_eq, topStmts_append, topStmts_append, topStmts_map, topStmts_others pre h1, topStmts_others post h2,
    List.nil_append, List.append_nil,
    List.takeWhile_append_of_pos (fun t ht => by rw [h1 t ht]; rfl),
    List.dropWhile_append_of_pos (fun t ht => by rw [h1 t ht]; rfl)]
  cases l with
  | nil =>
    have a : post.takeWhile (fun t => !t.isCode) = post := by
      have := List.takeWhile_append_of_pos (p := fun t : CTop => !t.isCode) (l₁ := post) (l₂ := [])
        (fun t ht => by rw [h2 t ht]; rfl)
      simpa using this
    have b : post.dropWhile (fun t => !t.isCode) = [] := by
      have := List.dropWhile_append_of_pos (p := fun t : CTop => !t.isCode) (l₁ := post) (l₂ := [])
        (fun t ht => by rw [h2 t ht]; rfl)
      simpa using this
    rw [List.map_nil, List.nil_append, a, b]
    simp [plainTopLines, stmtLines]
  | cons s l =>
    have a : (List.map CTop.stmt (s :: l) ++ post).takeWhile (fun t => !t.isCode) = [] := rfl
    have b : (List.map CTop.stmt (s :: l) ++ post).dropWhile (fun t => !t.isCode) = List.map CTop.stmt (s :: l) ++ post := rfl
    have c : (List.map CTop.stmt (s :: l)).filter (fun t => !t.isCode) = [] := by
      rw [List.filter_eq_nil_iff]
      intro t ht
      obtain ⟨x, _, rfl⟩ := List.mem_map.1 ht
      simp [CTop.isCode]
    have d : post.filter (fun t => !t.isCode) = post := by
      rw [List.filter_eq_self]
      intro t ht
      rw [h2 t ht]; rfl
    rw [a, b, List.filter_append, c, d, List.append_nil, List.nil_append, List.append_assoc]

theorem noDecl_simples (buf : Str) (hb : BufOk buf) (ind : Nat) : ∀ (l : List CSimple) (prev : Option CSimple),
    (∀ s ∈ l, s.PrintOk) → AdvancesOk prev l → ∀ x ∈ simpleLines buf ind prev l, NoDecl (lexC x)
  | [], _, _, _, x, hx => by cases hx
  | s :: l, prev, h1, h2, x, hx => by
    rcases List.mem_cons.1 hx with rfl | hx
    · rw [lexC_indent]
      exact (readTop_simple buf hb prev s (h1 s (by simp)) h2.1).2.2.2
    · exact noDecl_simples buf hb ind l (some s) (fun y hy => h1 y (List.mem_cons_of_mem _ hy)) h2.2 x hx

theorem noDecl_stmts (buf : Str) (hb : BufOk buf) (ind : Nat) : ∀ (l : List CStmt) (prev : Option CSimple),
    StmtsOk prev l → ∀ x ∈ stmtLines buf ind prev l, NoDecl (lexC x)
  | [], _, _, x, hx => by cases hx
  | .simple s :: l, prev, h, x, hx => by
    rcases List.mem_cons.1 hx with rfl | hx
    · rw [lexC_indent]
      exact (readTop_simple buf hb prev s h.1 h.2.1).2.2.2
    · exact noDecl_stmts buf hb ind l _ h.2.2 x hx
  | .loop n body :: l, prev, h, x, hx => by
    simp only [stmtLines, List.mem_append, List.mem_cons, List.not_mem_nil, or_false] at hx
    rcases hx with (((rfl | rfl) | hx) | rfl) | hx
    · rw [lexC_indent, List.append_assoc]
      intro y hy
      rw [(readFor_text n).2]
      intro e
      cases e
      revert hy
      decide +kernel
    · rw [lexC_indent]; decide +kernel
    · exact noDecl_simples buf hb _ body none h.1 h.2.1 x hx
    · rw [lexC_indent]; decide +kernel
    · exact noDecl_stmts buf hb ind l _ h.2.2 x hx

theorem noDecl_others (buf : Str) (hb : BufOk buf) (l : List CTop) (h : ∀ t ∈ l, t.isCode = false) :
    ∀ x ∈ plainTopLines buf l, NoDecl (lexC x) := by
  intro x hx
  obtain ⟨t, ht, rfl⟩ := List.mem_map.1 hx
  rw [lexC_indent]
  exact (readTop_other buf hb t (h t ht)).2.2

/-- The declaration of the loop variable. -/
def loopDecl : Option Nat → List Str
  | some w => [indentBy 3 ("uint".toList ++ natStr w ++ "_t i;".toList)]
  | none => []

/-- A function of the emitted shape is read the way it is printed. -/
theorem readCode_lines (buf : Str) (hb : BufOk buf) (pre post : List CTop) (code : List CStmt) (bits : Option Nat) (ptr : Bool)
    (h1 : ∀ t ∈ pre, t.isCode = false) (h2 : ∀ t ∈ post, t.isCode = false) (hc : StmtsOk none code)
    (hbits : BitsOk bits)
    (hp : ((pre ++ (code.map CTop.stmt ++ post)).any CTop.usesP && !ptr) = false)
    (hl : ((pre ++ (code.map CTop.stmt ++ post)).any CTop.isLoop && bits.isNone) = false) :
    readCode buf ((if ptr then [indentBy 3 "uint8_t *p;".toList] else []) ++
      loopDecl bits ++ topLines buf (pre ++ (code.map CTop.stmt ++ post)) ++ [indentBy 3 "return E_OK;".toList]) =
      some ⟨bits, pre ++ (code.map CTop.stmt ++ post)⟩ := by
  have hst : readStmts buf .outside ((topLines buf (pre ++ (code.map CTop.stmt ++ post))).map lexC) =
      some (pre ++ (code.map CTop.stmt ++ post)) := by
    rw [topLines_split buf pre code post h1 h2, List.map_append, List.map_append]
    show readStmts buf .outside ((plainTopLines buf pre).map lexC ++ _) = _
    rw [show plainTopLines buf pre = pre.map fun t => indentBy 3 (t.text buf ++ [';']) from rfl,
      readStmts_others buf hb _ pre h1, readStmts_outside buf hb 3 _ code none hc]
    have := readStmts_others buf hb [] post h2
    rw [List.append_nil] at this
    rw [show plainTopLines buf post = post.map fun t => indentBy 3 (t.text buf ++ [';']) from rfl, this]
    simp [readStmts]
  have hnd : ∀ x ∈ topLines buf (pre ++ (code.map CTop.stmt ++ post)) ++ [indentBy 3 "return E_OK;".toList], NoDecl (lexC x) := by
    intro x hx
    rw [topLines_split buf pre code post h1 h2] at hx
    simp only [List.mem_append, List.mem_singleton] at hx
    rcases hx with (hx | hx | hx) | rfl
    · exact noDecl_others buf hb pre h1 x hx
    · exact noDecl_stmts buf hb 3 code none hc x hx
    · exact noDecl_others buf hb post h2 x hx
    · rw [lexC_indent]; decide +kernel
  generalize pre ++ (code.map CTop.stmt ++ post) = body at *
  generalize hT : topLines buf body = T at *
  -- the lines after the declarations
  have hhead : ∀ y, ((T ++ [indentBy 3 "return E_OK;".toList]).map lexC).head? = some y → NoDecl y := by
    intro y hy
    rw [List.head?_map, Option.map_eq_some_iff] at hy
    obtain ⟨x, hx, rfl⟩ := hy
    exact hnd x (List.mem_of_mem_head? (by rw [hx]; rfl))
  have hnop : decide (((T ++ [indentBy 3 "return E_OK;".toList]).map lexC).head? = some (lexC "uint8_t *p;".toList)) = false := by
    rw [decide_eq_false_iff_not]
    intro h
    exact hhead _ h (kw "uint8_t") (by simp) (by decide +kernel)
  have hnol : ((T ++ [indentBy 3 "return E_OK;".toList]).map lexC).head?.bind loopVariable = none := by
    cases hh : ((T ++ [indentBy 3 "return E_OK;".toList]).map lexC).head? with
    | none => rfl
    | some y =>
      have hy := hhead y hh
      show loopVariable y = none
      unfold loopVariable
      rw [if_neg, if_neg, if_neg]
      · rintro rfl; exact hy (kw "uint32_t") (by simp) (by decide +kernel)
      · rintro rfl; exact hy (kw "uint16_t") (by simp) (by decide +kernel)
      · rintro rfl; exact hy (kw "uint8_t") (by simp) (by decide +kernel)
  have hlast : ((T ++ [indentBy 3 "return E_OK;".toList]).map lexC).getLast? = some (lexC "return E_OK;".toList) := by
    rw [List.map_append, List.map_cons, List.map_nil, List.getLast?_append, lexC_indent]
    rfl
  have hdrop : ((T ++ [indentBy 3 "return E_OK;".toList]).map lexC).dropLast = T.map lexC := by
    rw [List.map_append, List.map_cons, List.map_nil, List.dropLast_concat]
  generalize hR : (T ++ [indentBy 3 "return E_OK;".toList]).map lexC = R at *
  -- the loop variable
  have hv : ((loopDecl bits).map lexC ++ R).head?.bind loopVariable = bits ∧
      (if bits.isSome then ((loopDecl bits).map lexC ++ R).tail else (loopDecl bits).map lexC ++ R) = R ∧
      decide (((loopDecl bits).map lexC ++ R).head? = some (lexC "uint8_t *p;".toList)) = false := by
    cases bits with
    | none => exact ⟨hnol, rfl, hnop⟩
    | some w =>
      have key : loopVariable (lexC ("uint".toList ++ natStr w ++ "_t i;".toList)) = some w ∧
          lexC ("uint".toList ++ natStr w ++ "_t i;".toList) ≠ lexC "uint8_t *p;".toList := by
        rcases hbits with rfl | rfl | rfl <;> decide +kernel
      refine ⟨?_, rfl, ?_⟩
      · show loopVariable (lexC (indentBy 3 _)) = _
        rw [lexC_indent]; exact key.1
      · rw [decide_eq_false_iff_not]
        intro h
        refine key.2 ?_
        have := Option.some.inj h
        rw [lexC_indent] at this
        exact this
  obtain ⟨v1, v2, v3⟩ := hv
  generalize loopDecl bits = D at *
  have hlines : (((if ptr then [indentBy 3 "uint8_t *p;".toList] else []) ++ D ++ T ++ [indentBy 3 "return E_OK;".toList]).map lexC) =
      (if ptr then [lexC "uint8_t *p;".toList] else []) ++ (D.map lexC ++ R) := by
    rw [← hR]
    cases ptr <;> simp [lexC_indent]
  have hq : decide (((if ptr then [lexC "uint8_t *p;".toList] else []) ++ (D.map lexC ++ R)).head? =
      some (lexC "uint8_t *p;".toList)) = ptr := by
    cases ptr with
    | true => simp
    | false => exact v3
  have hq2 : (if ptr then ((if ptr then [lexC "uint8_t *p;".toList] else []) ++ (D.map lexC ++ R)).tail
      else ((if ptr then [lexC "uint8_t *p;".toList] else []) ++ (D.map lexC ++ R))) = D.map lexC ++ R := by
    cases ptr <;> rfl
  unfold readCode
  rw [hlines]
  dsimp only
  rw [hq, hq2, v1, v2, if_pos hlast, hdrop, hst]
  simp only [Option.bind_eq_bind, Option.bind_some]
  rw [hp, hl]
  rfl

end Apx
