import Verif.Proofs.CUnit

/-! The lines between the braces of generated functions. -/

namespace Apx

/-- A line between the braces of a function. -/
def LineOk (l : Str) : Prop := Flat l ∧ l ≠ ['}']

theorem lineOk_nil : LineOk [] := ⟨by decide, by decide⟩

theorem lineOk_indent (k : Nat) {s : Str} (h : Flat s) : LineOk (indentBy (k + 1) s) := by
  refine ⟨flat_indent _ h, ?_⟩
  unfold indentBy
  rw [List.replicate_succ, List.cons_append]
  intro e
  injection e with e1 _
  exact absurd e1 (by decide)

theorem flat_steps : ∀ (q : CPath) (acc : Str), (∀ a ∈ q, a.Post) → Flat acc → Flat (q.foldl accessStep acc)
  | [], acc, _, h => h
  | a :: q, acc, hq, h => by
    rw [List.foldl_cons]
    refine flat_steps q _ (fun b hb => hq b (List.mem_cons_of_mem _ hb)) ?_
    have ha := hq a (by simp)
    cases a with
    | star => exact ha.elim
    | arrow f => exact flat_append (flat_append h (by decide +kernel)) (flat_word (show CIdent f from ha).1)
    | dot f => exact flat_append (flat_append h (by decide +kernel)) (flat_word (show CIdent f from ha).1)
    | idx => exact flat_append h (by decide +kernel)

theorem flat_value {v : CPath} (h : ValueOk v) : Flat (CPath.text v) := by
  obtain ⟨q, h1, h2⟩ := h
  have hq : Flat (q.foldl accessStep "val".toList) := flat_steps q _ h1 (by decide +kernel)
  rcases h2 with rfl | rfl
  · exact hq
  · show Flat ((q ++ [CAccess.star]).foldl accessStep "val".toList)
    rw [List.foldl_append]
    exact flat_cons (by decide) hq

theorem flat_elem {buf : Str} (hb : Flat buf) (d : CLoc) : Flat (d.elem buf) := by
  cases d with
  | rel k =>
    show Flat (if k = 0 then _ else _)
    split
    · decide +kernel
    · exact flat_append (flat_append (by decide +kernel) (flat_decText k)) (by decide +kernel)
  | abs k => exact flat_append (flat_append (flat_append hb (by decide +kernel)) (flat_decText k)) (by decide +kernel)

theorem flat_address {buf : Str} (hb : Flat buf) (d : CLoc) : Flat (d.address buf) := by
  cases d with
  | rel k => exact (by decide +kernel : Flat ['p'])
  | abs k =>
    exact flat_append (flat_append (flat_append (flat_append (by decide +kernel) hb) (by decide +kernel)) (flat_decText k)) (by decide +kernel)

/-- Texts put together from flat ones. -/
macro "flat_text" : tactic =>
  `(tactic| repeat' (first | assumption | exact flat_natStr _ | exact flat_decText _ | exact flat_cname _ | (decide +kernel) | apply flat_append))

theorem flat_simple {buf : Str} (hb : Flat buf) (prev : Option CSimple) (s : CSimple) (hs : s.PrintOk) : Flat (s.text buf prev) := by
  cases s with
  | storeByte d v =>
    have h1 := flat_value (show ValueOk v from hs)
    have h2 := flat_elem hb d
    show Flat (d.elem buf ++ "=(uint8_t) ".toList ++ CPath.text v)
    flat_text
  | packLE d v t =>
    have h1 := flat_value hs.2
    have h2 := flat_address hb d
    show Flat ("packLE(".toList ++ d.address buf ++ ",(uint32_t) ".toList ++ CPath.text v ++
      ",(uint8_t) sizeof(".toList ++ t.cname ++ "))".toList)
    flat_text
  | loadByte v t d =>
    have h1 := flat_value (show ValueOk v from hs)
    have h2 := flat_elem hb d
    show Flat (CPath.text v ++ " = (".toList ++ t.cname ++ ") ".toList ++ d.elem buf)
    flat_text
  | unpackLE v t d =>
    have h1 := flat_value hs.2
    have h2 := flat_address hb d
    show Flat (CPath.text v ++ " = (".toList ++ t.cname ++ ") unpackLE(".toList ++ d.address buf ++
      ",(uint8_t) sizeof(".toList ++ t.cname ++ "))".toList)
    flat_text
  | advance n =>
    have key : ∀ t : IntT, Flat ("p+=sizeof(".toList ++ t.cname ++ [')']) := fun t => by flat_text
    have k2 : Flat "p++".toList := by decide +kernel
    have k3 : Flat ("p+=".toList ++ natStr n) := by flat_text
    rcases prev with _ | (_ | _ | _ | _ | _ | _ | _ | _) <;> first | exact key _ | exact k2 | exact k3
  | copyIn d v n =>
    have h1 := flat_value hs.2
    have h2 := flat_address hb d
    show Flat ("memcpy(".toList ++ d.address buf ++ [','] ++ CPath.text v ++ [','] ++ decText n ++ [')'])
    flat_text
  | copyOut v d n =>
    have h1 := flat_value hs.2
    have h2 := flat_address hb d
    show Flat ("memcpy(".toList ++ CPath.text v ++ [','] ++ d.address buf ++ [','] ++ decText n ++ [')'])
    flat_text
  | zero d =>
    cases d with
    | rel k =>
      show Flat ("p[".toList ++ decText k ++ "]='\\0'".toList)
      flat_text
    | abs k =>
      show Flat (buf ++ ['['] ++ decText k ++ "]='\\0'".toList)
      flat_text

theorem simpleLines_ok {buf : Str} (hb : Flat buf) (k : Nat) : ∀ (l : List CSimple) (prev : Option CSimple), (∀ s ∈ l, s.PrintOk) →
    ∀ x ∈ simpleLines buf (k + 1) prev l, LineOk x
  | [], _, _, x, hx => by cases hx
  | s :: l, prev, h, x, hx => by
    rcases List.mem_cons.1 hx with rfl | hx
    · exact lineOk_indent k (flat_append (flat_simple hb prev s (h s (by simp))) (by decide))
    · exact simpleLines_ok hb k l (some s) (fun y hy => h y (List.mem_cons_of_mem _ hy)) x hx

theorem stmtLines_ok {buf : Str} (hb : Flat buf) (k : Nat) : ∀ (l : List CStmt) (prev : Option CSimple), StmtsOk prev l →
    ∀ x ∈ stmtLines buf (k + 1) prev l, LineOk x
  | [], _, _, x, hx => by cases hx
  | .simple s :: l, prev, h, x, hx => by
    rcases List.mem_cons.1 hx with rfl | hx
    · exact lineOk_indent k (flat_append (flat_simple hb prev s h.1) (by decide))
    · exact stmtLines_ok hb k l (some s) h.2.2 x hx
  | .loop n body :: l, prev, h, x, hx => by
    have hx : x ∈ [indentBy (k + 1) ("for(i=0;i<".toList ++ natStr n ++ ";i++)".toList), indentBy (k + 1) ['{']] ++
      simpleLines buf (k + 1 + 3) none body ++ [indentBy (k + 1) ['}']] ++ stmtLines buf (k + 1) none l := hx
    simp only [List.mem_append, List.mem_cons, List.not_mem_nil, or_false] at hx
    rcases hx with (((rfl | rfl) | hx) | rfl) | hx
    · exact lineOk_indent k (by flat_text)
    · exact lineOk_indent k (by decide)
    · exact simpleLines_ok hb (k + 3) body none h.1 x hx
    · exact lineOk_indent k (by decide)
    · exact stmtLines_ok hb k l none h.2.2 x hx

theorem topText_flat {buf : Str} (hb : Flat buf) (t : CTop) : Flat (t.text buf) := by
  cases t with
  | lockOut => exact (by decide +kernel : Flat "apx_nodeData_lockOutPortData(&m_nodeData)".toList)
  | lockIn => exact (by decide +kernel : Flat "apx_nodeData_lockInPortData(&m_nodeData)".toList)
  | unlockIn => exact (by decide +kernel : Flat "apx_nodeData_unlockInPortData(&m_nodeData)".toList)
  | setP k =>
    show Flat ("p=&".toList ++ buf ++ ['['] ++ natStr k ++ [']'])
    flat_text
  | stmt s => exact (by decide : Flat [])
  | notify o n d =>
    have : Flat (if d then "true".toList else "false".toList) := by cases d <;> decide +kernel
    show Flat ("apx_nodeData_outPortDataWriteNotify(&m_nodeData, ".toList ++ natStr o ++ ", ".toList ++ natStr n ++
      ", ".toList ++ (if d then "true".toList else "false".toList) ++ [')'])
    flat_text

theorem plainTop_ok {buf : Str} (hb : Flat buf) (l : List CTop) : ∀ x ∈ plainTopLines buf l, LineOk x := by
  intro x hx
  obtain ⟨t, _, rfl⟩ := List.mem_map.1 hx
  exact lineOk_indent 2 (flat_append (topText_flat hb t) (by decide))

/-- The lines of a read or write function. -/
theorem funcLines_ok (types : List NamedType) (sfx : Str) (op : COp) (ptr hasBuf direct : Bool)
    (off : Nat) (e e1 d : Elem) (h1 : e.resolveType types = .ok e1) (h2 : e1.resolveDataElement = .ok d) (hd : d.CNames sfx)
    (f : CFunc) (len : Nat) (h : genFunc types sfx op ptr hasBuf off direct e = .ok (f, len)) :
    ∀ x ∈ f.lines op, LineOk x := by
  unfold genFunc at h
  rw [h1, ok_bind, h2, ok_bind] at h
  obtain ⟨r, hr, h⟩ := bind_ok_iff.1 h
  cases hasBuf with
  | false => cases h
  | true =>
    simp only [if_true] at h
    cases h
    have hp : Posts (CName.var ptr).path := fun a ha => (by cases ha)
    have hc := genElem_code sfx op ⟨false, none⟩ off (.var ptr) d hp hd r hr
    have hb : Flat op.buffer := by cases op <;> decide +kernel
    rw [funcLines_eq, topLines_split _ _ _ _ (funcHead_other op _ off _) (funcTail_other op off _ direct)]
    intro x hx
    simp only [List.mem_append] at hx
    rcases hx with ((hx | hx) | hx | hx | hx) | hx
    · split at hx
      · rw [List.mem_singleton.1 hx]
        exact lineOk_indent 2 (by decide +kernel)
      · cases hx
    · unfold loopDecl at hx
      split at hx
      · rw [List.mem_singleton.1 hx]
        exact lineOk_indent 2 (by flat_text)
      · cases hx
    · exact plainTop_ok hb _ x hx
    · exact stmtLines_ok hb 2 _ _ (hc.stmts none) x hx
    · exact plainTop_ok hb _ x hx
    · rw [List.mem_singleton.1 hx]
      exact lineOk_indent 2 (by decide +kernel)

/-! ### Other functions -/

/-- Names in a statement of the function that initializes the node. -/
def CInitStmt.Names : CInitStmt → Prop
  | .create name _ _ _ => CWord name
  | .assign f => CIdent f
  | _ => True

theorem flat_joinItems : ∀ l : List Str, (∀ x ∈ l, Flat x) → Flat (joinItems l)
  | [], _ => by decide
  | [a], h => h a (by simp)
  | a :: b :: l, h => by
    have ih := flat_joinItems (b :: l) (fun x hx => h x (List.mem_cons_of_mem _ hx))
    exact flat_append (h a (by simp)) (flat_cons (by decide) (flat_cons (by decide) ih))

theorem initText_flat (s : CInitStmt) (h : s.Names) : Flat s.text := by
  cases s with
  | declareTable => exact (by decide +kernel : Flat CInitStmt.declareTable.text)
  | copyIn => exact (by decide +kernel : Flat CInitStmt.copyIn.text)
  | clearIn => exact (by decide +kernel : Flat CInitStmt.clearIn.text)
  | copyOut => exact (by decide +kernel : Flat CInitStmt.copyOut.text)
  | clearOut => exact (by decide +kernel : Flat CInitStmt.clearOut.text)
  | clearTable => exact (by decide +kernel : Flat CInitStmt.clearTable.text)
  | install => exact (by decide +kernel : Flat CInitStmt.install.text)
  | done => exact (by decide +kernel : Flat CInitStmt.done.text)
  | assign f =>
    have hf := flat_word (show CIdent f from h).1
    show Flat ("nodeDataHandler.inPortDataWritten = ".toList ++ f ++ [';'])
    flat_text
  | create name hasIn flags hasOut =>
    have hn := flat_word (show CWord name from h)
    have hq : Flat (['"'] ++ name ++ ['"']) := by flat_text
    refine flat_append (flat_append (by decide +kernel) (flat_joinItems _ ?_)) (by decide +kernel)
    intro x hx
    simp only [List.mem_append, List.mem_cons, List.not_mem_nil, or_false] at hx
    rcases hx with ((rfl | rfl | rfl | rfl) | hx) | hx
    · decide +kernel
    · exact hq
    · decide +kernel
    · decide +kernel
    · revert x
      cases hasIn <;> cases flags <;> decide +kernel
    · revert x
      cases hasOut <;> decide +kernel

/-- Names in a member of the union. -/
def CMember.Names (m : CMember) : Prop := WordChars m.name ∧ CIdent m.typename

/-- Names in a call. -/
def CDataCall.Names (c : CDataCall) : Prop := CIdent c.func ∧ WordChars c.member

/-- Names in a case. -/
def CSwitchItem.Names : CSwitchItem → Prop
  | .comment p => WordChars p
  | .case p calls => WordChars p ∧ ∀ c ∈ calls, c.Names

theorem upper_wordChar (c : Char) (h : cWordChar c = true) : cWordChar c.toUpper = true := by
  by_cases hl : c.val ≥ 'a'.val ∧ c.val ≤ 'z'.val
  · have : ∀ n : Nat, n < 26 → cWordChar (Char.ofNat (97 + n)).toUpper = true := by decide +kernel
    have h1 : 97 ≤ c.toNat := hl.1
    have h2 : c.toNat ≤ 122 := hl.2
    have e : c = Char.ofNat (97 + (c.toNat - 97)) := by
      rw [show 97 + (c.toNat - 97) = c.toNat by omega, Char.ofNat_toNat]
    rw [e]
    exact this _ (by omega)
  · have e : c.toUpper = c := by
      unfold Char.toUpper
      split
      · rename_i hx
        exact absurd hx hl
      · rfl
    rw [e]
    exact h

theorem macroName_words {s : Str} (h : WordChars s) : WordChars (macroName s) := by
  intro c hc
  obtain ⟨d, hd, rfl⟩ := List.mem_map.1 hc
  exact upper_wordChar d (h d hd)

theorem member_flat {m : CMember} (h : m.Names) : Flat m.text := by
  have h1 := flat_wordChars h.1
  have h2 := flat_word h.2.1
  unfold CMember.text
  refine flat_append (by flat_text) ?_
  split
  · flat_text
  · decide

theorem call_flat {c : CDataCall} (h : c.Names) : Flat c.text := by
  have h1 := flat_word h.1.1
  have h2 := flat_wordChars h.2
  have h3 : Flat (if c.ref then ['&'] else []) := by cases c.ref <;> decide
  have h4 : Flat (if c.first then "[0]".toList else []) := by cases c.first <;> decide +kernel
  unfold CDataCall.text
  flat_text

theorem defLines_append {a b : List Str} (ha : ∀ x ∈ a, LineOk x) (hb : ∀ x ∈ b, LineOk x) : ∀ x ∈ a ++ b, LineOk x := by
  intro x hx
  rcases List.mem_append.1 hx with hx | hx
  · exact ha x hx
  · exact hb x hx

theorem lines_cons {a : Str} {b : List Str} (ha : LineOk a) (hb : ∀ x ∈ b, LineOk x) : ∀ x ∈ a :: b, LineOk x := by
  intro x hx
  rcases List.mem_cons.1 hx with rfl | hx
  · exact ha
  · exact hb x hx

theorem lines_nil : ∀ x ∈ ([] : List Str), LineOk x := by
  intro x hx
  cases hx

theorem calls_ok : ∀ calls : List CDataCall, (∀ c ∈ calls, c.Names) → ∀ x ∈ (match calls with
    | [] => []
    | r :: l => indentBy 9 ("(void) ".toList ++ r.text ++ [';']) :: l.map fun (c : CDataCall) => indentBy 9 (c.text ++ [(';' : Char)])), LineOk x
  | [], _ => lines_nil
  | r :: l, h => by
    have := call_flat (h r (by simp))
    refine lines_cons (lineOk_indent 8 (by flat_text)) ?_
    intro x hx
    obtain ⟨c, hc, rfl⟩ := List.mem_map.1 hx
    have := call_flat (h c (List.mem_cons_of_mem _ hc))
    exact lineOk_indent 8 (by flat_text)

theorem switch_ok {i : CSwitchItem} (h : i.Names) : ∀ x ∈ i.lines, LineOk x := by
  cases i with
  | comment p =>
    have hm := flat_wordChars (macroName_words (show WordChars p from h))
    exact lines_cons (lineOk_indent 5 (by flat_text)) lines_nil
  | case p calls =>
    have hm := flat_wordChars (macroName_words h.1)
    refine defLines_append (defLines_append (lines_cons (lineOk_indent 5 (by flat_text)) lines_nil) (calls_ok calls h.2)) ?_
    exact lines_cons (lineOk_indent 8 (by flat_text)) (lines_cons (lineOk_indent 8 (by decide +kernel)) lines_nil)

/-- What is needed of the names in a body. -/
def CBody.Names : CBody → Prop
  | .init l => ∀ s ∈ l, s.Names
  | .code op f => ∀ x ∈ f.lines op, LineOk x
  | .dispatch ms start items => (∀ m ∈ ms, m.Names) ∧ (∀ p, start = some p → WordChars p) ∧ ∀ i ∈ items, i.Names
  | _ => True

theorem body_ok (b : CBody) (h : b.Names) : ∀ x ∈ b.lines, LineOk x := by
  cases b with
  | init l =>
    intro x hx
    obtain ⟨s, hs, rfl⟩ := List.mem_map.1 hx
    exact lineOk_indent 2 (initText_flat s (h s hs))
  | nodeData =>
    intro x hx
    rw [List.mem_singleton.1 hx]
    exact lineOk_indent 2 (by decide +kernel)
  | connected i o =>
    intro x hx
    rw [List.mem_singleton.1 hx]
    exact lineOk_indent 2 (by cases i <;> cases o <;> decide +kernel)
  | code op f => exact h
  | ignore =>
    intro x hx
    obtain ⟨s, hs, rfl⟩ := List.mem_map.1 hx
    refine lineOk_indent 2 ?_
    revert s
    decide +kernel
  | dispatch ms start items =>
    obtain ⟨h1, h2, h3⟩ := h
    refine defLines_append (defLines_append (defLines_append (defLines_append (defLines_append (defLines_append ?_ ?_) ?_) ?_) ?_) ?_) ?_
    · exact lines_cons (lineOk_indent 2 (by decide +kernel)) (lines_cons (lineOk_indent 2 (by decide +kernel)) lines_nil)
    · intro x hx
      obtain ⟨m, hm, rfl⟩ := List.mem_map.1 hx
      have := member_flat (h1 m hm)
      exact lineOk_indent 5 (by flat_text)
    · exact lines_cons (lineOk_indent 2 (by decide +kernel)) (lines_cons (lineOk_indent 2 (by decide +kernel)) (lines_cons lineOk_nil
        (lines_cons (lineOk_indent 2 (by decide +kernel)) (lines_cons (lineOk_indent 2 (by decide +kernel)) (lines_cons lineOk_nil lines_nil)))))
    · cases start with
      | none => exact lines_nil
      | some p =>
        have hm := flat_wordChars (macroName_words (h2 p rfl))
        exact lines_cons (lineOk_indent 2 (by flat_text)) (lines_cons (lineOk_indent 2 (by decide +kernel))
          (lines_cons (lineOk_indent 5 (by flat_text)) (lines_cons (lineOk_indent 2 (by decide +kernel)) lines_nil)))
    · exact lines_cons (lineOk_indent 2 (by decide +kernel)) (lines_cons (lineOk_indent 2 (by decide +kernel))
        (lines_cons (lineOk_indent 5 (by decide +kernel)) (lines_cons (lineOk_indent 5 (by decide +kernel)) lines_nil)))
    · intro x hx
      obtain ⟨l, hl, hx⟩ := List.mem_flatten.1 hx
      obtain ⟨i, hi, rfl⟩ := List.mem_map.1 hl
      exact switch_ok (h3 i hi) x hx
    · exact lines_cons (lineOk_indent 5 (by decide +kernel)) (lines_cons (lineOk_indent 8 (by decide +kernel))
        (lines_cons (lineOk_indent 5 (by decide +kernel)) (lines_cons (lineOk_indent 2 (by decide +kernel)) lines_nil)))

end Apx
