import Verif.Model.GenText
import Verif.Spec.GenText
import Verif.Proofs.PortAttr
import Verif.Props.RoundTrip
import Verif.Props.Generator
import Verif.Props.GenCode

/-! C68-C70: the emitted definition, initializers and callback code. -/

namespace Apx

/-! ### C68 -/

/-- Characters that can stand in a literal unescaped, and the quote. -/
def LitOk (s : Str) : Prop := '\\' ∉ s ∧ '\n' ∉ s ∧ '\r' ∉ s

theorem cLiterals_plain (c : Char) (s : Str) (h : c ≠ '"' ∧ c ≠ '\\' ∧ c ≠ '\n' ∧ c ≠ '\r') :
    cLiterals true (c :: s) = (cLiterals true s).map (c :: ·) := by
  obtain ⟨h1, h2, h3, h4⟩ := h
  rw [cLiterals] <;> simp_all

theorem cLiterals_escape (l s : Str) (h : LitOk l) :
    cLiterals true (escapeQuotes l ++ s) = (cLiterals true s).map (l ++ ·) := by
  induction l with
  | nil => simp [escapeQuotes]
  | cons c l ih =>
    obtain ⟨h1, h2, h3⟩ := h
    simp only [List.mem_cons, not_or] at h1 h2 h3
    have ih := ih ⟨h1.2, h2.2, h3.2⟩
    simp only [escapeQuotes]
    split
    · rename_i hc
      subst hc
      simp only [List.cons_append, cLiterals, ih, Option.map_map]
      rfl
    · rename_i hc
      rw [List.cons_append, cLiterals_plain _ _ ⟨hc, fun e => h1.1 e.symm, fun e => h2.1 e.symm, fun e => h3.1 e.symm⟩, ih,
        Option.map_map]
      rfl

theorem cLiterals_line (l s : Str) (h : LitOk l) :
    cLiterals false (literalLine l ++ s) = (cLiterals false s).map (fun t => l ++ '\n' :: t) := by
  unfold literalLine
  simp only [List.cons_append, cLiterals, List.append_assoc]
  rw [cLiterals_escape l _ h]
  simp only [List.nil_append, cLiterals, Option.map_map]
  rfl

theorem cLiterals_lines (ls : List Str) (hne : ls ≠ []) (h : ∀ l ∈ ls, LitOk l) :
    cLiterals false (joinLines (ls.map literalLine) ++ [';']) = some (joinLines ls ++ ['\n']) := by
  match ls with
  | [] => exact absurd rfl hne
  | [l] =>
    simp only [List.map_cons, List.map_nil, joinLines]
    rw [cLiterals_line l _ (h l (by simp))]
    simp [cLiterals]
  | l :: m :: r =>
    have ih := cLiterals_lines (m :: r) (by simp) (fun x hx => h x (by simp only [List.mem_cons] at hx ⊢; exact Or.inr hx))
    simp only [List.map_cons, joinLines, List.append_assoc, List.cons_append] at ih ⊢
    rw [cLiterals_line l _ (h l (by simp))]
    simp only [cLiterals, ih]
    simp

theorem mem_joinLines {c : Char} (hc : c ≠ '\n') (ls : List Str) : c ∈ joinLines ls ↔ ∃ l ∈ ls, c ∈ l := by
  match ls with
  | [] => simp [joinLines]
  | [l] => simp [joinLines]
  | l :: m :: r =>
    have ih := mem_joinLines hc (m :: r)
    simp only [joinLines, List.mem_append, List.mem_cons, hc, false_or] at ih ⊢
    rw [ih]
    simp

theorem splitOn_litOk (text : Str) (h1 : '\\' ∉ text) (h2 : '\r' ∉ text) : ∀ l ∈ splitOn '\n' text, LitOk l := by
  intro l hl
  refine ⟨fun hc => h1 ?_, splitOn_oneLiners text l hl, fun hc => h2 ?_⟩
  · rw [← joinLines_splitOn text]
    exact (mem_joinLines (by decide) _).mpr ⟨l, hl, hc⟩
  · rw [← joinLines_splitOn text]
    exact (mem_joinLines (by decide) _).mpr ⟨l, hl, hc⟩

/-- C68: the string emitted for a node denotes the definition text of the node and one more line feed,
and the length emitted with it is its number of characters. This needs a text without backslashes and
carriage returns. -/
theorem C68_literal_partial (g : Generated) (text : Str) (ht : g.node.definitionText false = .ok text)
    (h1 : '\\' ∉ text) (h2 : '\r' ∉ text) :
    ∃ lit, emitDefinition g = .ok (lit, (text ++ ['\n']).length) ∧ cLiterals false lit = some (text ++ ['\n']) := by
  refine ⟨definitionLiteral text, ?_, ?_⟩
  · simp [emitDefinition, ht, ok_bind, definitionLen]
  · unfold definitionLiteral
    rw [cLiterals_lines _ (splitOn_ne_nil _ _) (splitOn_litOk text h1 h2), joinLines_splitOn]

/-- C68: if the text is ASCII, the emitted length is also the number of bytes of the string. -/
theorem C68_length_partial (g : Generated) (text : Str) (ht : g.node.definitionText false = .ok text)
    (ha : ∀ c ∈ text, c.toNat < 128) :
    ∃ lit, emitDefinition g = .ok (lit, (utf8Encode (text ++ ['\n'])).length) := by
  have hu : ∀ s : Str, (∀ c ∈ s, c.toNat < 128) → (utf8Encode s).length = s.length := by
    intro s
    induction s with
    | nil => intro _; rfl
    | cons c s ih =>
      intro h
      have h1 := h c (by simp)
      have h2 := ih (fun x hx => h x (by simp [hx]))
      have h3 : (String.utf8EncodeChar c).length = 1 := by
        rw [String.length_utf8EncodeChar, Char.utf8Size_eq_one_iff, UInt32.le_iff_toNat_le]
        have : c.val.toNat = c.toNat := rfl
        rw [this]
        simp
        omega
      simp only [utf8Encode, List.flatMap_cons, List.length_append, List.length_cons] at h2 ⊢
      omega
  refine ⟨definitionLiteral text, ?_⟩
  rw [hu _ (by
    intro c hc
    rcases List.mem_append.mp hc with hc | hc
    · exact ha c hc
    · simp only [List.mem_singleton] at hc; subst hc; decide)]
  simp [emitDefinition, ht, ok_bind, definitionLen]

theorem splitOn_snoc (s : Str) : splitOn '\n' (s ++ ['\n']) = splitOn '\n' s ++ [[]] := by
  have h : s ++ ['\n'] = joinLines (splitOn '\n' s ++ [[]]) := by
    rw [joinLines_snoc _ (splitOn_ne_nil _ _), joinLines_splitOn]
  rw [h]
  refine splitOn_joinLines _ (by simp) ?_
  intro l hl
  rcases List.mem_append.mp hl with hl | hl
  · exact splitOn_oneLiners s l hl
  · simp only [List.mem_singleton] at hl; subst hl; simp

/-- C68: a parser that gets the emitted string has the node with its name, types and ports. -/
theorem C68_reload_partial (g : Generated) (hb : g.node.Built) (ho : g.node.Ordered) (hw : g.node.Writable)
    (text : Str) (ht : g.node.definitionText false = .ok text) (h1 : '\\' ∉ text) (h2 : '\r' ∉ text) :
    ∃ lit len s m, emitDefinition g = .ok (lit, len) ∧ cLiterals false lit = some s ∧ s.length = len ∧
      m.SameDefinition g.node ∧ ∀ st : Parser, (st.loads s).2 = .ok m := by
  obtain ⟨lit, h3, h4⟩ := C68_literal_partial g text ht h1 h2
  obtain ⟨ls, h5, h6⟩ := text_reload (Node.Built.inv hb) ho hw false
  have htx : text = joinLines (headerText :: ls) ++ ['\n'] := by
    simp only [Node.definitionText, h5, ok_bind, Except.ok.injEq] at ht
    exact ht.symm
  refine ⟨lit, _, _, g.node.reloaded, h3, h4, rfl, reloaded_same _, fun st => ?_⟩
  have hf : firstLine (text ++ ['\n']) = firstLine text := by
    unfold firstLine
    rw [splitOn_snoc]
    cases hs : splitOn '\n' text with
    | nil => exact absurd hs (splitOn_ne_nil _ _)
    | cons x xs => rfl
  have hol : otherLines (text ++ ['\n']) = otherLines text ++ [[]] := by
    unfold otherLines
    rw [splitOn_snoc]
    cases hs : splitOn '\n' text with
    | nil => exact absurd hs (splitOn_ne_nil _ _)
    | cons x xs => rfl
  have hhead : HeaderLine (firstLine text) := by
    have : firstLine text = headerText := by
      rw [htx]
      unfold firstLine
      rw [splitOn_snoc]
      cases ls with
      | nil => decide
      | cons a l =>
        simp only [joinLines]
        rw [splitOn_append _ _ _ (by decide)]
        rfl
    rw [this]
    exact ⟨'1', '2', [], by decide, by decide, by decide⟩
  rw [← C50_layout st text (text ++ ['\n']) hhead hf.symm (by
    rw [hol]
    unfold sayings
    simp [meaning, rstripP])]
  exact (h6 text htx st).1

theorem cDecimal_natStr (n : Nat) : CDecimal (natStr n) n := by
  refine ⟨numeral_natStr n, ?_⟩
  intro h
  by_cases hn : n < 10
  · rw [natStr, if_pos hn] at h ⊢
    simp only [List.head?_cons, Option.some.injEq] at h
    rw [h]
  · exfalso
    have hpos : ∀ m, 1 ≤ m → (natStr m).head? ≠ some '0' := by
      intro m
      induction m using Nat.strongRecOn with
      | _ m ih =>
        intro hm
        rw [natStr]
        split
        · rename_i h10
          simp only [List.head?_cons, ne_eq, Option.some.injEq]
          have : m = 1 ∨ m = 2 ∨ m = 3 ∨ m = 4 ∨ m = 5 ∨ m = 6 ∨ m = 7 ∨ m = 8 ∨ m = 9 := by omega
          rcases this with rfl | rfl | rfl | rfl | rfl | rfl | rfl | rfl | rfl <;> decide
        · have hne := natStr_ne_nil (m / 10)
          cases hs : natStr (m / 10) with
          | nil => exact absurd hs hne
          | cons c t =>
            have := ih (m / 10) (by omega) (by omega)
            rw [hs] at this
            simpa using this
    exact hpos n (by omega) h

theorem joinItems_items (a : Str) (ha : CBlank a) (ns : List Nat) (hne : ns ≠ []) :
    CItems (a ++ joinItems (ns.map natStr)) ns ∧
      ∀ t l, CItems t l → CItems (a ++ (joinItems (ns.map natStr) ++ (',' :: t))) (ns ++ l) := by
  induction ns generalizing a with
  | nil => exact absurd rfl hne
  | cons n ns ih =>
    cases ns with
    | nil =>
      simp only [List.map_cons, List.map_nil, joinItems]
      constructor
      · have := CItems.last a (natStr n) [] n ha (cDecimal_natStr n) (by simp [CBlank])
        simpa using this
      · intro t l h
        have := CItems.cons a (natStr n) [] n t l ha (cDecimal_natStr n) (by simp [CBlank]) h
        simpa using this
    | cons m ns =>
      obtain ⟨i1, i2⟩ := ih [' '] (by simp [CBlank]) (by simp)
      simp only [List.map_cons, joinItems, List.append_assoc, List.cons_append, List.nil_append] at i1 i2 ⊢
      constructor
      · have := CItems.cons a (natStr n) [] n _ _ ha (cDecimal_natStr n) (by simp [CBlank]) i1
        simpa using this
      · intro t l h
        have := CItems.cons a (natStr n) [] n _ _ ha (cDecimal_natStr n) (by simp [CBlank]) (i2 t l h)
        simpa using this

theorem initLines_items (ns : List Nat) (hne : ns ≠ []) (a : Str) (ha : CBlank a) :
    CItems (a ++ joinLines (initLines (ns.map natStr))) ns := by
  generalize hk : ns.length = k
  induction k using Nat.strongRecOn generalizing ns a with
  | _ k ih =>
    rw [initLines]
    have h3 : CBlank (a ++ [' ', ' ', ' ']) := by
      intro c hc
      rcases List.mem_append.mp hc with hc | hc
      · exact ha c hc
      · simp only [List.mem_cons, List.not_mem_nil, or_false, or_self] at hc; exact Or.inl hc
    simp only [List.length_map]
    split
    · rename_i hl
      have hd : ns.drop 32 ≠ [] := by
        intro h
        have := congrArg List.length h
        simp at this
        omega
      have hr := ih (ns.drop 32).length (by simp; omega) (ns.drop 32) hd ['\n'] (by simp [CBlank]) rfl
      have ht := (joinItems_items _ h3 (ns.take 32) (by
        intro h
        have := congrArg List.length h
        rw [List.length_take, List.length_nil] at this
        omega)).2 _ _ hr
      rw [List.take_append_drop] at ht
      have hnn : initLines ((ns.map natStr).drop 32) ≠ [] := by
        rw [initLines]
        simp only [List.length_drop, List.length_map]
        split
        · simp
        · split
          · simp
          · omega
      cases hi : initLines ((ns.map natStr).drop 32) with
      | nil => exact absurd hi hnn
      | cons x xs =>
        rw [List.map_drop, hi] at ht
        simp only [joinLines, List.map_take, List.append_assoc, List.cons_append, List.nil_append] at ht ⊢
        exact ht
    · have hpos : ns.length > 0 := List.length_pos_iff.mpr hne
      rw [if_pos hpos]
      simp only [joinLines]
      have := (joinItems_items _ h3 ns hne).1
      simpa using this

/-- C68: the initializers emitted for the two buffers list exactly their initial bytes (those of C53), in
order. -/
theorem C68_initializer (b : Bytes) (h : b ≠ []) : CItems (initText b) (b.map UInt8.toNat) := by
  have := initLines_items (b.map UInt8.toNat) (by simpa using h) [] (by simp [CBlank])
  simpa [initText, Function.comp_def] using this

section Examples

example : (match generate geNode with
    | .ok g => (match emitDefinition g with
      | .ok (lit, len) => decide (len = 82 ∧ cLiterals false lit =
          some ("APX/1.2\nN\"N\"\nT\"A\"{\"x\"C\"y\"S}\nP\"P\"S:=258\nP\"O\"C[2]\n".toList ++
            "R\"R\"T[0]:={1,513}\nR\"Q\"a[4]:=\"ab\"\n\n".toList))
      | _ => false)
    | _ => false) = true := by decide +kernel

example : initText ((List.range 34).map UInt8.ofNat) =
    ("   0, 1, 2, 3, 4, 5, 6, 7, 8, 9, 10, 11, 12, 13, 14, 15, 16, 17, 18, 19, 20, 21, 22, 23, 24, 25, 26, ".toList ++
      "27, 28, 29, 30, 31,\n   32, 33".toList) := by decide +kernel

end Examples

/-- The node of the examples of C47, finalized. -/
def gtFinal : Node := (Node.new ['N']).run (rtOps ++ [.finalize false false])

theorem gtFinal_types : gtFinal.types.map (fun t => (t.name, t.elem, t.shortName, t.attr.map TypeAttr.str)) =
    [(['A'], .prim .u8 (some 0) (some 3) none, none, none),
     (['B'], .record (.cons (some ['x']) (.refType ['A'] (.prim .u8 (some 0) (some 3) none))
        (.cons (some ['y']) (.prim .u16 none none (some 2)) .nil)) none, none, none)] := by
  decide +kernel

theorem gtFinal_ports :
    gtFinal.provides.map (fun p => (p.name, p.elem, p.attr.map PortAttr.str)) =
      [(['p'], .refType ['B'] (.record (.cons (some ['x']) (.refType ['A'] (.prim .u8 (some 0) (some 3) none))
        (.cons (some ['y']) (.prim .u16 none none (some 2)) .nil)) none), none)] ∧
    gtFinal.requires.map (fun p => (p.name, p.elem, p.attr.map PortAttr.str)) =
      [(['r'], .refType ['A'] (.prim .u8 (some 0) (some 3) none), some ['=', '2']),
       (['q'], .prim .str none none (some 4), some ['=', '"', '"'])] := by
  decide +kernel

theorem gtFinal_writable : gtFinal.Writable := by
  refine ⟨?_, ?_, ?_⟩
  · have : gtFinal.name = ['N'] := by decide +kernel
    rw [this]; unfold NameOk; decide
  · intro t ht
    have hm := List.mem_map_of_mem (f := fun t : TypeObj => (t.name, t.elem, t.shortName, t.attr.map TypeAttr.str)) ht
    rw [gtFinal_types] at hm
    simp only [List.mem_cons, List.not_mem_nil, or_false, Prod.mk.injEq, Option.map_eq_none_iff] at hm
    rcases hm with ⟨h1, h2, h3, h4⟩ | ⟨h1, h2, h3, h4⟩ <;> rw [h1, h2, h3, h4] <;>
      simp [NameOk, Elem.WellFormed, Elem.Clean, Fields.WellFormed, Fields.Clean, QuoteFree, RefNameOk]
  · intro side p hp
    have hm := List.mem_map_of_mem (f := fun p : Port => (p.name, p.elem, p.attr.map PortAttr.str)) hp
    cases side with
    | provide =>
      simp only [Node.ports] at hm
      rw [gtFinal_ports.1] at hm
      simp only [List.mem_cons, List.not_mem_nil, or_false, Prod.mk.injEq, Option.map_eq_none_iff] at hm
      obtain ⟨h1, h2, h3⟩ := hm
      rw [h1, h2, h3]
      simp [NameOk, Elem.WellFormed, Elem.Clean, RefNameOk]
    | require =>
      simp only [Node.ports] at hm
      rw [gtFinal_ports.2] at hm
      simp only [List.mem_cons, List.not_mem_nil, or_false, Prod.mk.injEq, Option.map_eq_some_iff] at hm
      rcases hm with ⟨h1, h2, a, h3, h4⟩ | ⟨h1, h2, a, h3, h4⟩ <;> rw [h1, h2, h3] <;>
        simp [NameOk, Elem.WellFormed, Elem.Clean, RefNameOk, AttrOk, h4]

theorem gtFinal_generated : ∃ g, generate gtFinal = .ok g ∧ g.node = gtFinal := by
  have h1 : (generate gtFinal).toOption.isSome = true := by decide +kernel
  have h2 : gtFinal.isFinalized = true := by decide +kernel
  cases hg : generate gtFinal with
  | error e => rw [hg] at h1; cases h1
  | ok g =>
    refine ⟨g, rfl, ?_⟩
    obtain ⟨n', a1, a2⟩ := bind_ok_iff.mp hg
    rw [Node.finalizeForGenerator, if_pos h2, Except.ok.injEq] at a1
    obtain ⟨_, _, a2⟩ := bind_ok_iff.mp a2
    obtain ⟨_, _, a2⟩ := bind_ok_iff.mp a2
    obtain ⟨_, _, a2⟩ := bind_ok_iff.mp a2
    obtain ⟨_, _, a2⟩ := bind_ok_iff.mp a2
    simp only [Except.ok.injEq] at a2
    rw [← a2, a1]

/-- The hypotheses of `C68_reload_partial` can be met. -/
example : ∃ g text, generate gtFinal = .ok g ∧ g.node.Built ∧ g.node.Ordered ∧ g.node.Writable ∧
    g.node.definitionText false = .ok text ∧ '\\' ∉ text ∧ '\r' ∉ text := by
  obtain ⟨g, hg, hn⟩ := gtFinal_generated
  have ht : (match gtFinal.definitionText false with
    | .ok t => decide ('\\' ∉ t ∧ '\r' ∉ t)
    | .error _ => false) = true := by decide +kernel
  cases htx : gtFinal.definitionText false with
  | error e => rw [htx] at ht; cases ht
  | ok t =>
    rw [htx] at ht
    refine ⟨g, t, hg, ⟨_, _, hn⟩, ?_, hn ▸ gtFinal_writable, by rw [hn]; exact htx, of_decide_eq_true ht⟩
    rw [hn]
    intro i t hi
    have hm : (gtFinal.types.map fun t => (t.name, t.elem, t.shortName, t.attr.map TypeAttr.str))[i]? =
        some (t.name, t.elem, t.shortName, t.attr.map TypeAttr.str) := by rw [List.getElem?_map, hi]; rfl
    rw [gtFinal_types] at hm
    match i, hm with
    | 0, hm =>
      simp only [List.getElem?_cons_zero, Option.some.injEq, Prod.mk.injEq] at hm
      rw [← hm.2.1]
      trivial
    | 1, hm =>
      simp only [List.getElem?_cons_succ, List.getElem?_cons_zero, Option.some.injEq, Prod.mk.injEq] at hm
      rw [← hm.2.1]
      have : (gtFinal.types.take 1).map TypeObj.named = [⟨['A'], .prim .u8 (some 0) (some 3) none⟩] := by decide +kernel
      rw [this]
      simp [Elem.RefsIn, Fields.RefsIn]
    | i + 2, hm => simp at hm

/-- A node with the port name `\nP` (a backslash and two letters). -/
def gtBack : Node := (Node.new ['N']).run [.addPort .provide ['\\', 'n', 'P'] ['C'] none, .finalize false false]

/-- C68 is violated for names with a backslash: it is not escaped, so that the C compiler reads a line
feed, and the length does not fit either. -/
example : (match generate gtBack with
    | .ok g => (match emitDefinition g, g.node.definitionText false with
      | .ok (lit, len), .ok text => decide (text = "APX/1.2\nN\"N\"\nP\"\\nP\"C\n".toList ∧ len = 22 ∧
          (cLiterals false lit).map List.length = some 21 ∧
          cLiterals false lit = some "APX/1.2\nN\"N\"\nP\"\nP\"C\n\n".toList)
      | _, _ => false)
    | _ => false) = true := by decide +kernel

/-- A node with the port name `å`. -/
def gtAring : Node := (Node.new ['N']).run [.addPort .provide ['å'] ['C'] none, .finalize false false]

/-- C68 is violated for names outside ASCII: the emitted length counts characters, but the literal
occupies a byte more in UTF-8, so that the definition lacks its last byte. -/
example : (match generate gtAring with
    | .ok g => (match emitDefinition g with
      | .ok (lit, len) => decide (len = 20 ∧
          (cLiterals false lit).map (fun s => (utf8Encode s).length) = some 21)
      | _ => false)
    | _ => false) = true := by decide +kernel

/-! ### C69 -/

/-- The entries follow each other without gaps from `o` on, and none is empty. -/
def CbChain : Nat → List CbEntry → Prop
  | _, [] => True
  | o, e :: l => e.offset = o ∧ 0 < e.len ∧ CbChain (o + e.len) l

theorem cbChain_ge (l : List CbEntry) : ∀ (o : Nat), CbChain o l → ∀ e ∈ l, o ≤ e.offset := by
  induction l with
  | nil => intro o _ e he; cases he
  | cons x l ih =>
    intro o ⟨h1, h2, h3⟩ e he
    rcases List.mem_cons.mp he with rfl | he
    · omega
    · have := ih _ h3 e he; omega

theorem cbChain_pairwise (l : List CbEntry) : ∀ (o : Nat), CbChain o l → l.Pairwise fun a b => a.offset < b.offset := by
  induction l with
  | nil => intro o _; exact List.Pairwise.nil
  | cons x l ih =>
    intro o ⟨h1, h2, h3⟩
    refine List.Pairwise.cons (fun e he => ?_) (ih _ h3)
    have := cbChain_ge l _ h3 e he
    omega

theorem cbChain_suffix (pre post : List CbEntry) (e : CbEntry) :
    ∀ (o : Nat), CbChain o (pre ++ e :: post) → CbChain e.offset (e :: post) ∧ ∀ x ∈ pre, x.offset < e.offset := by
  induction pre with
  | nil =>
    intro o h
    obtain ⟨h1, h2, h3⟩ := h
    exact ⟨⟨rfl, h2, by rw [h1]; exact h3⟩, by simp⟩
  | cons x pre ih =>
    intro o ⟨h1, h2, h3⟩
    obtain ⟨i1, i2⟩ := ih _ h3
    refine ⟨i1, fun y hy => ?_⟩
    rcases List.mem_cons.mp hy with rfl | hy
    · have := cbChain_ge _ _ h3 e (by simp)
      omega
    · exact i2 y hy

theorem sortedByKey_sorted {α : Type} (key : α → Nat) (l : List α) (h : l.Pairwise fun a b => key a < key b) :
    sortedByKey key l = l := by
  induction l with
  | nil => rfl
  | cons x l ih =>
    cases h with
    | cons h1 h2 =>
      rw [sortedByKey, ih h2]
      cases l with
      | nil => rfl
      | cons y l => rw [insertByKey, if_pos (Nat.le_of_lt (h1 y (by simp)))]

theorem insertByKey_perm {α : Type} (key : α → Nat) (x : α) (l : List α) : (insertByKey key x l).Perm (x :: l) := by
  induction l with
  | nil => exact List.Perm.refl _
  | cons y l ih =>
    rw [insertByKey]
    split
    · exact List.Perm.refl _
    · exact (List.Perm.cons y ih).trans (List.Perm.swap x y l)

theorem sortedByKey_perm {α : Type} (key : α → Nat) (l : List α) : (sortedByKey key l).Perm l := by
  induction l with
  | nil => exact List.Perm.refl _
  | cons x l ih => exact (insertByKey_perm key x _).trans (List.Perm.cons x ih)

theorem find_unique {α β : Type} [DecidableEq β] (f : α → β) (l : List α) (h : (l.map f).Nodup) (e : α) (he : e ∈ l) :
    l.find? (fun x => f x = f e) = some e := by
  induction l with
  | nil => cases he
  | cons x l ih =>
    rw [List.map_cons, List.nodup_cons] at h
    rcases List.mem_cons.mp he with rfl | he
    · simp
    · rw [List.find?_cons_of_neg (by
        simp only [decide_eq_true_eq]
        intro hx
        exact h.1 (by rw [hx]; exact List.mem_map_of_mem he))]
      exact ih h.2 he

theorem macroValue_perm (value : CbEntry → Nat) (defs es : List CbEntry) (hp : defs.Perm es)
    (hn : (es.map fun e => macroName e.name).Nodup) (e : CbEntry) (he : e ∈ es) :
    macroValue value defs e.name = value e := by
  unfold macroValue
  have hp' : defs.reverse.Perm es := (List.reverse_perm defs).trans hp
  rw [find_unique (fun e => macroName e.name) defs.reverse ((hp'.map _).nodup_iff.mpr hn) e (hp'.mem_iff.mpr he)]
  rfl

/-- The calls of the callbacks of these entries. -/
def cbCalls (es : List CbEntry) : List (Str × Str) := es.filterMap fun e => e.callback.map fun f => (f, e.name)

theorem cbCalls_cons (e : CbEntry) (es : List CbEntry) :
    cbCalls (e :: es) = (e.callback.map fun f => (f, e.name)).toList ++ cbCalls es := by
  unfold cbCalls
  cases h : e.callback <;> simp [h]

theorem cbCalls_none (es : List CbEntry) (h : ∀ e ∈ es, e.callback = none) : cbCalls es = [] := by
  unfold cbCalls
  rw [List.filterMap_eq_nil_iff]
  intro e he
  simp [h e he]

theorem dispatch_chain (cases : List CbEntry) (last stop : Nat) (l : List CbEntry) :
    ∀ (o : Nat), CbChain o l →
      (∀ e ∈ l, cases.find? (fun x => x.offset = e.offset) = if e.offset ≤ last then some e else none) →
      (∀ x ∈ cases, x.offset < o ∨ x ∈ l) → (∀ e ∈ l, last < e.offset → e.callback = none) →
      dispatchLoop cases o stop = some (cbCalls (l.filter fun e => e.offset < stop)) := by
  induction l with
  | nil =>
    intro o _ _ h3 _
    rw [dispatchLoop]
    split
    · have : cases.find? (fun x => decide (x.offset = o)) = none := by
        rw [List.find?_eq_none]
        intro x hx
        rcases h3 x hx with h | h
        · simp only [decide_eq_true_eq]; omega
        · cases h
      rw [this]
      rfl
    · rfl
  | cons e l ih =>
    intro o hc h2 h3 h4
    obtain ⟨c1, c2, c3⟩ := hc
    have hge := cbChain_ge l _ c3
    rw [dispatchLoop]
    split
    · rename_i hlt
      have hf := h2 e (by simp)
      rw [c1] at hf
      by_cases hl : o ≤ last
      · rw [if_pos hl] at hf
        rw [hf]
        simp only
        rw [if_pos c2, ih (o + e.len) c3 (fun x hx => h2 x (by simp [hx])) (fun x hx => by
          rcases h3 x hx with h | h
          · exact Or.inl (by omega)
          · rcases List.mem_cons.mp h with rfl | h
            · exact Or.inl (by omega)
            · exact Or.inr h) (fun x hx => h4 x (by simp [hx]))]
        rw [List.filter_cons_of_pos (by simp only [decide_eq_true_eq]; omega), cbCalls_cons]
        rfl
      · rw [if_neg hl] at hf
        rw [hf]
        simp only
        rw [cbCalls_none]
        intro x hx
        have hx := (List.mem_filter.mp hx).1
        refine h4 x hx ?_
        rcases List.mem_cons.mp hx with rfl | hx
        · omega
        · have := hge x hx; omega
    · rename_i hlt
      have : (e :: l).filter (fun e => decide (e.offset < stop)) = [] := by
        rw [List.filter_eq_nil_iff]
        intro x hx
        simp only [decide_eq_true_eq]
        rcases List.mem_cons.mp hx with rfl | hx
        · omega
        · have := hge x hx; omega
      rw [this]
      rfl

theorem switchCases_some (f : CbEntry) (last : Nat) (es : List CbEntry) :
    switchCases (some f) last es = .ok (es.filter fun e => f.offset ≤ e.offset ∧ e.offset ≤ last) := by
  induction es with
  | nil => rfl
  | cons e es ih =>
    rw [switchCases]
    split
    · rename_i h
      simp only [ih, ok_bind, List.filter_cons, h, and_true, decide_eq_true_eq]
    · rename_i h
      rw [ih, List.filter_cons_of_neg]
      simp only [decide_eq_true_eq]
      omega

theorem genSignals_chain (cb : Str → Option Str) (side : Side) (types : List NamedType) (ports : List Port) :
    ∀ (off : Nat) (ss : List Signal), genSignals side types off ports = .ok ss → (∀ s ∈ ss, 0 < s.packLen) →
      CbChain off (ss.map (mkEntry cb)) := by
  induction ports with
  | nil =>
    intro off ss h _
    simp only [genSignals, Except.ok.injEq] at h
    subst h
    trivial
  | cons p ports ih =>
    intro off ss h hpos
    simp only [genSignals, bind_ok_iff, Except.ok.injEq] at h
    obtain ⟨s, h1, ss', h2, rfl⟩ := h
    have ho : s.offset = off := by
      unfold genSignal at h1
      simp only [bind_ok_iff] at h1
      obtain ⟨_, _, _, _, _, _, _, _, h1⟩ := h1
      unfold mkSignal at h1
      simp only [bind_ok_iff] at h1
      obtain ⟨_, _, h1⟩ := h1
      split at h1
      · simp only [Except.ok.injEq] at h1
        subst h1
        rfl
      · cases h1
    exact ⟨ho, hpos s (by simp), ih _ _ h2 fun x hx => hpos x (by simp [hx])⟩

theorem lastCallback_spec (es : List CbEntry) (o : Nat) (hc : CbChain o es) :
    (∀ e ∈ es, lastCallbackOffset es < e.offset → e.callback = none) ∧
    (∀ f, firstCallback es = some f → f.offset ≤ lastCallbackOffset es) := by
  have hp := cbChain_pairwise es o hc
  have hpf : (es.filter fun e => e.callback.isSome).Pairwise fun a b => a.offset < b.offset := hp.filter _
  have key : ∀ e ∈ es, e.callback.isSome = true → e.offset ≤ lastCallbackOffset es := by
    intro e he hs
    have hm : e ∈ es.filter fun e => e.callback.isSome := List.mem_filter.mpr ⟨he, hs⟩
    unfold lastCallbackOffset
    generalize es.filter (fun e => e.callback.isSome) = l at hm hpf
    rcases List.eq_nil_or_concat l with rfl | ⟨pre, z, rfl⟩
    · cases hm
    · rw [List.concat_eq_append] at hm hpf ⊢
      rw [List.getLast?_append]
      simp only [List.getLast?_singleton, Option.some_or, Option.elim_some]
      rcases List.mem_append.mp hm with hm | hm
      · have := (List.pairwise_append.mp hpf).2.2 e hm z (by simp)
        omega
      · simp only [List.mem_singleton] at hm
        subst hm
        exact Nat.le_refl _
  refine ⟨fun e he h => ?_, fun f hf => ?_⟩
  · cases hs : e.callback with
    | none => rfl
    | some x =>
      have := key e he (by simp [hs])
      omega
  · exact key f (List.mem_of_find?_eq_some hf) (by simpa using List.find?_some hf)

theorem packLen_le_total (s : Signal) (ss : List Signal) (h : s ∈ ss) : s.packLen ≤ totalLen ss := by
  induction ss with
  | nil => cases h
  | cons x ss ih =>
    have hx : totalLen (x :: ss) = x.packLen + totalLen ss := rfl
    rcases List.mem_cons.mp h with rfl | h
    · omega
    · have := ih h; omega

/-- What the code of a new generator consists of, if some port has a callback. -/
theorem fresh_code (g : Generated) (cb : Str → Option Str) (name : Option Str) (o : Nat)
    (hc : CbChain o (g.require.map (mkEntry cb))) (hin : 0 < g.inLen)
    (hcb : ∃ s ∈ g.require, (cb s.name).isSome) :
    ∃ f c, firstCallback (g.require.map (mkEntry cb)) = some f ∧ (GenState.new.generate g name (some cb)).2 = .ok c ∧
      c.macros = g.require.map (mkEntry cb) ∧ c.start = (if f.offset ≠ 0 then some f.name else none) ∧
      c.prototypes = (g.require.map (mkEntry cb)).filterMap CbEntry.callback ∧
      c.members = sortedByName id ((g.require.filter fun s => (cb s.name).isSome).map Signal.name) ∧
      c.handler = some (notifyName g.node.name) ∧ c.notify = some (notifyName (name.getD g.node.name)) ∧
      c.cases = (g.require.map (mkEntry cb)).filter fun e =>
        f.offset ≤ e.offset ∧ e.offset ≤ lastCallbackOffset (g.require.map (mkEntry cb)) := by
  have hs : sortedByKey CbEntry.offset (g.require.map (mkEntry cb)) = g.require.map (mkEntry cb) :=
    sortedByKey_sorted _ _ (cbChain_pairwise _ _ hc)
  obtain ⟨s, hs1, hs2⟩ := hcb
  cases hf : firstCallback (g.require.map (mkEntry cb)) with
  | none =>
    unfold firstCallback at hf
    rw [List.find?_eq_none] at hf
    exact absurd hs2 (by simpa [mkEntry] using hf _ (List.mem_map_of_mem hs1))
  | some f =>
    have hgen : (GenState.new.generate g name (some cb)).2 =
        .ok ⟨(g.require.map (mkEntry cb)).filterMap CbEntry.callback,
          sortedByName id ((g.require.filter fun s => (cb s.name).isSome).map Signal.name),
          g.require.map (mkEntry cb), some (notifyName g.node.name), some (notifyName (name.getD g.node.name)),
          if f.offset ≠ 0 then some f.name else none, (g.require.map (mkEntry cb)).filter fun e =>
            f.offset ≤ e.offset ∧ e.offset ≤ lastCallbackOffset (g.require.map (mkEntry cb))⟩ := by
      have hna : ∀ x y, notifyAfter g.inLen x y = some (notifyName x) := fun x y => by rw [notifyAfter, if_pos hin]
      unfold GenState.generate
      simp only [GenState.new, List.nil_append, hs, hna, notifyCases, hf, switchCases_some]
      rfl
    exact ⟨f, _, rfl, hgen, rfl, rfl, rfl, rfl, rfl, rfl, rfl⟩

/-- C69: code generated (by a new generator, with callbacks for some of the require ports) for a node
whose ports have positive lengths and names that differ even after upper-casing calls, when told that `len`
bytes from `off` on were written, the callbacks of exactly the ports that start there, in the order of
the ports, each once and with the value of its port. This needs `off` to be the start of a port, or not
beyond the first port with a callback. -/
theorem C69_dispatch_partial (n : Node) (g : Generated) (hg : generate n = .ok g) (cb : Str → Option Str)
    (name : Option Str) (hcb : ∃ s ∈ g.require, (cb s.name).isSome) (hpos : ∀ s ∈ g.require, 0 < s.packLen)
    (hn : (g.require.map fun s => macroName s.name).Nodup) :
    ∃ c, (GenState.new.generate g name (some cb)).2 = .ok c ∧ ∀ off len,
      ((∃ s ∈ g.require, s.offset = off) ∨ (∀ s ∈ g.require, (cb s.name).isSome → off ≤ s.offset)) →
      c.written off len = some ((g.require.filter fun s => off ≤ s.offset ∧ s.offset < off + len).filterMap
        fun s => (cb s.name).map fun f => (f, s.name)) := by
  obtain ⟨n', h1, h2⟩ := bind_ok_iff.mp hg
  obtain ⟨rs, h3, h2⟩ := bind_ok_iff.mp h2
  obtain ⟨ps, h4, h2⟩ := bind_ok_iff.mp h2
  obtain ⟨ib, h5, h2⟩ := bind_ok_iff.mp h2
  obtain ⟨ob, h6, h2⟩ := bind_ok_iff.mp h2
  have hr : g.require = rs := by
    simp only [Except.ok.injEq] at h2
    rw [← h2]
  have hlen : g.inLen = totalLen g.require := by
    simp only [Except.ok.injEq] at h2
    rw [← h2]
  have hc : CbChain 0 (g.require.map (mkEntry cb)) := by
    rw [hr]
    exact genSignals_chain cb _ _ _ _ _ h3 (by rw [← hr]; exact hpos)
  have hin : 0 < g.inLen := by
    obtain ⟨s, hs, _⟩ := hcb
    rw [hlen]
    exact Nat.lt_of_lt_of_le (hpos s hs) (packLen_le_total s _ hs)
  obtain ⟨f, c, k1, k2, k3, k4, -, -, -, -, k5⟩ := fresh_code g cb name 0 hc hin hcb
  refine ⟨c, k2, fun off len hoff => ?_⟩
  generalize hes : g.require.map (mkEntry cb) = es at *
  have hnes : (es.map fun e => macroName e.name).Nodup := by
    rw [← hes, List.map_map]
    exact hn
  have hpw := cbChain_pairwise es 0 hc
  have hom : ∀ e ∈ es, c.offsetMacro e.name = e.offset := fun e he => by
    unfold CallbackCode.offsetMacro
    rw [k3]
    exact macroValue_perm _ _ _ (sortedByKey_perm _ _) hnes e he
  have hlm : ∀ e ∈ es, c.lenMacro e.name = e.len := fun e he => by
    unfold CallbackCode.lenMacro
    rw [k3]
    exact macroValue_perm _ _ _ (sortedByKey_perm _ _) hnes e he
  have hexp : c.cases.map c.expand = c.cases := by
    rw [List.map_congr_left (g := id) (fun e he => ?_), List.map_id]
    have : e ∈ es := by rw [k5] at he; exact (List.mem_filter.mp he).1
    simp [CallbackCode.expand, hom e this, hlm e this]
  have hcp : c.cases.Pairwise fun a b => a.offset < b.offset := by rw [k5]; exact hpw.filter _
  have hnd : (c.cases.map CbEntry.offset).Nodup := by
    refine List.Pairwise.map _ ?_ hcp
    intro a b h; exact Nat.ne_of_lt h
  have hfm : f ∈ es := List.mem_of_find?_eq_some k1
  have hfrom : c.from off = max off f.offset := by
    unfold CallbackCode.from
    rw [k4]
    split
    · simp only [Option.elim_some, hom f hfm]
      split <;> omega
    · simp only [Option.elim_none]; omega
  obtain ⟨l1, l2⟩ := lastCallback_spec es 0 hc
  have hgoal : (g.require.filter fun s => decide (off ≤ s.offset ∧ s.offset < off + len)).filterMap
      (fun s => (cb s.name).map fun f => (f, s.name)) =
      cbCalls (es.filter fun e => decide (off ≤ e.offset ∧ e.offset < off + len)) := by
    rw [← hes]
    unfold cbCalls
    rw [List.filter_map, List.filterMap_map]
    rfl
  simp only [CallbackCode.written]
  rw [hexp, if_pos hnd, hfrom, hgoal]
  -- the entry at which the loop starts
  have hstart : ∃ pre e post, es = pre ++ e :: post ∧ e.offset = max off f.offset ∧
      cbCalls (pre.filter fun e => decide (off ≤ e.offset ∧ e.offset < off + len)) = [] := by
    by_cases hlt : off ≤ f.offset
    · obtain ⟨pre, post, hsplit, hpre⟩ : ∃ pre post, es = pre ++ f :: post ∧ ∀ x ∈ pre, x.callback = none := by
        unfold firstCallback at k1
        obtain ⟨-, pre, post, e1, e2⟩ := List.find?_eq_some_iff_append.mp k1
        refine ⟨pre, post, e1, fun x hx => ?_⟩
        have := e2 x hx
        cases hx : x.callback with
        | none => rfl
        | some y => simp [hx] at this
      refine ⟨pre, f, post, hsplit, by omega, cbCalls_none _ fun x hx => hpre x (List.mem_filter.mp hx).1⟩
    · have : ∃ e ∈ es, e.offset = off := by
        rcases hoff with ⟨s, hs, hso⟩ | hall
        · exact ⟨mkEntry cb s, by rw [← hes]; exact List.mem_map_of_mem hs, hso⟩
        · exfalso
          rw [← hes] at hfm
          obtain ⟨s, hs, rfl⟩ := List.mem_map.mp hfm
          exact hlt (hall s hs (by simpa [mkEntry] using List.find?_some k1))
      obtain ⟨e, he, heo⟩ := this
      obtain ⟨pre, post, hsplit⟩ := List.append_of_mem he
      refine ⟨pre, e, post, hsplit, by omega, ?_⟩
      have hb := (cbChain_suffix pre post e 0 (hsplit ▸ hc)).2
      rw [List.filter_eq_nil_iff.mpr]
      · rfl
      · intro x hx
        have := hb x hx
        simp only [decide_eq_true_eq]
        omega
  obtain ⟨pre, e, post, hsplit, heo, hpre⟩ := hstart
  obtain ⟨hsuf, hbefore⟩ := cbChain_suffix pre post e 0 (hsplit ▸ hc)
  rw [← heo, dispatch_chain c.cases (lastCallbackOffset es) (off + len) (e :: post) e.offset hsuf]
  · rw [hsplit, List.filter_append]
    have : ∀ a b, cbCalls (a ++ b) = cbCalls a ++ cbCalls b := fun a b => List.filterMap_append
    rw [this, hpre, List.nil_append]
    congr 2
    refine List.filter_congr fun x hx => ?_
    have := cbChain_ge _ _ hsuf x hx
    simp only [decide_eq_decide]
    omega
  · intro x hx
    have hxe : x ∈ es := by rw [hsplit]; exact List.mem_append.mpr (Or.inr hx)
    have hxo := cbChain_ge _ _ hsuf x hx
    split
    · rename_i hle
      refine find_unique CbEntry.offset c.cases hnd x ?_
      rw [k5]
      refine List.mem_filter.mpr ⟨hxe, ?_⟩
      simp only [decide_eq_true_eq]
      omega
    · rename_i hle
      rw [List.find?_eq_none]
      intro y hy
      rw [k5] at hy
      have := (List.mem_filter.mp hy).2
      simp only [decide_eq_true_eq] at this ⊢
      omega
  · intro x hx
    rw [k5, hsplit] at hx
    rcases List.mem_append.mp (List.mem_filter.mp hx).1 with h | h
    · exact Or.inl (hbefore x h)
    · exact Or.inr h
  · intro x hx
    exact l1 x (by rw [hsplit]; exact List.mem_append.mpr (Or.inr hx))

theorem cbChain_between (l : List CbEntry) : ∀ (o : Nat), CbChain o l → ∀ a ∈ l, ∀ b ∈ l,
    a.offset < b.offset → a.offset + a.len ≤ b.offset := by
  induction l with
  | nil => intro o _ a ha; cases ha
  | cons x l ih =>
    intro o ⟨h1, h2, h3⟩ a ha b hb hab
    rcases List.mem_cons.mp ha with rfl | ha
    · rcases List.mem_cons.mp hb with rfl | hb
      · omega
      · have := cbChain_ge l _ h3 b hb; omega
    · have hxa := cbChain_ge l _ h3 a ha
      rcases List.mem_cons.mp hb with rfl | hb
      · omega
      · exact ih _ h3 a ha b hb hab

/-- C69: in particular, if the written bytes are those of the ports from `s` to `t`, then exactly the
ports that share a byte with them are reported. -/
theorem C69_ports_partial (n : Node) (g : Generated) (hg : generate n = .ok g) (cb : Str → Option Str)
    (name : Option Str) (hcb : ∃ s ∈ g.require, (cb s.name).isSome) (hpos : ∀ s ∈ g.require, 0 < s.packLen)
    (hn : (g.require.map fun s => macroName s.name).Nodup) :
    ∃ c, (GenState.new.generate g name (some cb)).2 = .ok c ∧ ∀ s ∈ g.require, ∀ t ∈ g.require, ∀ len,
      s.offset + len = t.offset + t.packLen →
      c.written s.offset len = some ((g.require.filter fun u =>
        ∃ k < len, u.offset ≤ s.offset + k ∧ s.offset + k < u.offset + u.packLen).filterMap
          fun u => (cb u.name).map fun f => (f, u.name)) := by
  obtain ⟨c, h1, h2⟩ := C69_dispatch_partial n g hg cb name hcb hpos hn
  refine ⟨c, h1, fun s hs t ht len hlen => ?_⟩
  rw [h2 _ len (Or.inl ⟨s, hs, rfl⟩)]
  congr 2
  obtain ⟨n', a1, a2⟩ := bind_ok_iff.mp hg
  obtain ⟨rs, a3, a2⟩ := bind_ok_iff.mp a2
  obtain ⟨ps, a4, a2⟩ := bind_ok_iff.mp a2
  obtain ⟨ib, a5, a2⟩ := bind_ok_iff.mp a2
  obtain ⟨ob, a6, a2⟩ := bind_ok_iff.mp a2
  have hr : g.require = rs := by
    simp only [Except.ok.injEq] at a2
    rw [← a2]
  have hc : CbChain 0 (g.require.map (mkEntry cb)) := by
    rw [hr]
    exact genSignals_chain cb _ _ _ _ _ a3 (by rw [← hr]; exact hpos)
  refine List.filter_congr fun u hu => ?_
  have b1 := cbChain_between _ _ hc (mkEntry cb u) (List.mem_map_of_mem hu) (mkEntry cb s) (List.mem_map_of_mem hs)
  have b2 := cbChain_between _ _ hc (mkEntry cb t) (List.mem_map_of_mem ht) (mkEntry cb u) (List.mem_map_of_mem hu)
  simp only [mkEntry] at b1 b2
  have hu0 := hpos u hu
  rw [decide_eq_decide]
  constructor
  · intro ⟨c1, c2⟩
    exact ⟨u.offset - s.offset, by omega, by omega, by omega⟩
  · intro ⟨k, c1, c2, c3⟩
    omega

/-- A node with these require ports, without init values. -/
def gtNode (l : List (Str × Str)) : Node :=
  (Node.new ['N']).run (l.map (fun x => NodeOp.addPort .require x.1 x.2 none) ++ [.finalize false false])

/-- A callback for each port, named after it. -/
def gtAll (name : Str) : Option Str := some ('o' :: 'n' :: name)

/-- What the code for the node does when told of a write. -/
def gtWritten (n : Node) (cb : Str → Option Str) (off len : Nat) : Py (Option (List (Str × Str))) := do
  let g ← generate n
  let c ← (GenState.new.generate g none (some cb)).2
  .ok (c.written off len)

section Examples

example : gtWritten (gtNode [(['A'], ['S']), (['B'], ['C']), (['D'], ['C', '[', '4', ']'])])
    (fun s => if s = ['A'] then none else gtAll s) 0 7 =
      .ok (some [(['o', 'n', 'B'], ['B']), (['o', 'n', 'D'], ['D'])]) := by decide +kernel

example : gtWritten (gtNode [(['A'], ['S']), (['B'], ['C']), (['D'], ['C', '[', '4', ']'])]) gtAll 2 1 =
    .ok (some [(['o', 'n', 'B'], ['B'])]) := by decide +kernel

end Examples

/-- C69 is violated by every write that starts inside a port behind a port with a callback, however many ports it
covers: no callback at all is called. (Together with `C69_dispatch_partial` this is what happens for every range.) -/
theorem C69_every_inside_violated (n : Node) (g : Generated) (hg : generate n = .ok g) (cb : Str → Option Str)
    (name : Option Str) (hpos : ∀ s ∈ g.require, 0 < s.packLen) (hn : (g.require.map fun s => macroName s.name).Nodup)
    (off : Nat) (hoff : ∀ s ∈ g.require, s.offset ≠ off) (t : Signal) (ht : t ∈ g.require) (htc : (cb t.name).isSome)
    (hto : t.offset < off) :
    ∃ c, (GenState.new.generate g name (some cb)).2 = .ok c ∧ ∀ len, c.written off len = some [] := by
  have hcb : ∃ s ∈ g.require, (cb s.name).isSome := ⟨t, ht, htc⟩
  obtain ⟨n', h1, h2⟩ := bind_ok_iff.mp hg
  obtain ⟨rs, h3, h2⟩ := bind_ok_iff.mp h2
  obtain ⟨ps, h4, h2⟩ := bind_ok_iff.mp h2
  obtain ⟨ib, h5, h2⟩ := bind_ok_iff.mp h2
  obtain ⟨ob, h6, h2⟩ := bind_ok_iff.mp h2
  have hr : g.require = rs := by
    simp only [Except.ok.injEq] at h2
    rw [← h2]
  have hlen : g.inLen = totalLen g.require := by
    simp only [Except.ok.injEq] at h2
    rw [← h2]
  have hc : CbChain 0 (g.require.map (mkEntry cb)) := by
    rw [hr]
    exact genSignals_chain cb _ _ _ _ _ h3 (by rw [← hr]; exact hpos)
  have hin : 0 < g.inLen := by
    obtain ⟨s, hs, _⟩ := hcb
    rw [hlen]
    exact Nat.lt_of_lt_of_le (hpos s hs) (packLen_le_total s _ hs)
  obtain ⟨f, c, k1, k2, k3, k4, -, -, -, -, k5⟩ := fresh_code g cb name 0 hc hin hcb
  refine ⟨c, k2, fun len => ?_⟩
  generalize hes : g.require.map (mkEntry cb) = es at *
  have hnes : (es.map fun e => macroName e.name).Nodup := by
    rw [← hes, List.map_map]
    exact hn
  have hpw := cbChain_pairwise es 0 hc
  have hom : ∀ e ∈ es, c.offsetMacro e.name = e.offset := fun e he => by
    unfold CallbackCode.offsetMacro
    rw [k3]
    exact macroValue_perm _ _ _ (sortedByKey_perm _ _) hnes e he
  have hlm : ∀ e ∈ es, c.lenMacro e.name = e.len := fun e he => by
    unfold CallbackCode.lenMacro
    rw [k3]
    exact macroValue_perm _ _ _ (sortedByKey_perm _ _) hnes e he
  have hexp : c.cases.map c.expand = c.cases := by
    rw [List.map_congr_left (g := id) (fun e he => ?_), List.map_id]
    have : e ∈ es := by rw [k5] at he; exact (List.mem_filter.mp he).1
    simp [CallbackCode.expand, hom e this, hlm e this]
  have hcp : c.cases.Pairwise fun a b => a.offset < b.offset := by rw [k5]; exact hpw.filter _
  have hnd : (c.cases.map CbEntry.offset).Nodup := by
    refine List.Pairwise.map _ ?_ hcp
    intro a b h; exact Nat.ne_of_lt h
  have hfm : f ∈ es := List.mem_of_find?_eq_some k1
  have hfrom : c.from off = max off f.offset := by
    unfold CallbackCode.from
    rw [k4]
    split
    · simp only [Option.elim_some, hom f hfm]
      split <;> omega
    · simp only [Option.elim_none]; omega
  have hft : f.offset ≤ t.offset := by
    have htm : mkEntry cb t ∈ es := by rw [← hes]; exact List.mem_map_of_mem ht
    unfold firstCallback at k1
    obtain ⟨-, pre, post, e1, e2⟩ := List.find?_eq_some_iff_append.mp k1
    rw [e1] at htm hc
    rcases List.mem_append.mp htm with h | h
    · have := e2 _ h
      simp [mkEntry, htc] at this
    · exact cbChain_ge _ _ (cbChain_suffix pre post f 0 hc).1 _ h
  have hnone : c.cases.find? (fun e => decide (e.offset = off)) = none := by
    rw [List.find?_eq_none]
    intro x hx
    rw [k5] at hx
    have hx := (List.mem_filter.mp hx).1
    rw [← hes] at hx
    obtain ⟨s, hs, rfl⟩ := List.mem_map.mp hx
    exact fun h => hoff s hs (of_decide_eq_true h)
  simp only [CallbackCode.written]
  rw [hexp, if_pos hnd, hfrom, Nat.max_eq_left (by omega), dispatchLoop]
  split
  · rw [hnone]
  · rfl

/-- C69 is violated for writes that start inside a port: port B is written, but its callback is not
called. -/
theorem C69_inside_violated : gtWritten (gtNode [(['A'], ['S']), (['B'], ['C'])]) gtAll 1 2 = .ok (some []) := by
  decide +kernel

/-- C69 is violated for ports of length zero (an array of no elements): two cases of the `switch` have one
label; without a next port, the loop would not end. -/
theorem C69_empty_violated :
    gtWritten (gtNode [(['A'], ['C', '[', '0', ']']), (['B'], ['C'])]) gtAll 0 1 = .ok none ∧
    gtWritten (gtNode [(['B'], ['C']), (['A'], ['C', '[', '0', ']'])]) gtAll 0 2 = .ok none := by
  decide +kernel

/-- C69 is violated for names that differ only in case: their macros have one name. -/
theorem C69_case_violated :
    gtWritten (gtNode [(['a'], ['S']), (['A'], ['C'])]) gtAll 0 3 = .ok none := by decide +kernel

/-- C69 is violated if the callbacks given are for other ports: the generator raises an exception. -/
theorem C69_no_match_violated :
    gtWritten (gtNode [(['A'], ['S'])]) (fun _ => none) 0 2 = .error .attributeError := by decide +kernel

/-! ### C70 -/

/-- C70: code generated by a new generator under the node's own name for a node with bytes to receive and
callbacks for some ports of positive length assigns the function it defines as handler, and declares
exactly the callbacks of the node's ports (in their order) and a member of the union for each port with a
callback. -/
theorem C70_own_partial (n : Node) (g : Generated) (hg : generate n = .ok g) (cb : Str → Option Str)
    (hcb : ∃ s ∈ g.require, (cb s.name).isSome) (hpos : ∀ s ∈ g.require, 0 < s.packLen) :
    ∃ c f, (GenState.new.generate g none (some cb)).2 = .ok c ∧ c.handler = some f ∧ c.notify = some f ∧
      c.prototypes = g.require.filterMap (fun s => cb s.name) ∧
      c.members.Perm ((g.require.filter fun s => (cb s.name).isSome).map Signal.name) := by
  obtain ⟨n', h1, h2⟩ := bind_ok_iff.mp hg
  obtain ⟨rs, h3, h2⟩ := bind_ok_iff.mp h2
  obtain ⟨ps, h4, h2⟩ := bind_ok_iff.mp h2
  obtain ⟨ib, h5, h2⟩ := bind_ok_iff.mp h2
  obtain ⟨ob, h6, h2⟩ := bind_ok_iff.mp h2
  have hr : g.require = rs := by
    simp only [Except.ok.injEq] at h2
    rw [← h2]
  have hlen : g.inLen = totalLen g.require := by
    simp only [Except.ok.injEq] at h2
    rw [← h2]
  have hc : CbChain 0 (g.require.map (mkEntry cb)) := by
    rw [hr]
    exact genSignals_chain cb _ _ _ _ _ h3 (by rw [← hr]; exact hpos)
  have hin : 0 < g.inLen := by
    obtain ⟨s, hs, _⟩ := hcb
    rw [hlen]
    exact Nat.lt_of_lt_of_le (hpos s hs) (packLen_le_total s _ hs)
  obtain ⟨f, c, k1, k2, k3, k4, k5, k6, k7, k8, -⟩ := fresh_code g cb none 0 hc hin hcb
  refine ⟨c, _, k2, k7, k8, ?_, ?_⟩
  · rw [k5, List.filterMap_map]
    rfl
  · rw [k6]
    exact sortedByName_perm _ _

/-- C70: without callbacks, nothing of a callback is emitted, whatever the generator was used for before. -/
theorem C70_plain (st : GenState) (g : Generated) (name : Option Str) :
    ∃ c, (st.generate g name none).2 = .ok c ∧ c.prototypes = [] ∧ c.members = [] ∧ c.macros = [] ∧ c.handler = none ∧
      c.cases = [] := ⟨_, rfl, rfl, rfl, rfl, rfl, rfl⟩

/-- The callback code for the node, and the state of the generator behind it. -/
def gtCode (st : GenState) (n : Node) (name : Option Str) (cb : Str → Option Str) : Py (GenState × CallbackCode) := do
  let g ← generate n
  let c ← (st.generate g name (some cb)).2
  .ok ((st.generate g name (some cb)).1, c)

section Examples

example : (match gtCode .new (gtNode [(['B'], ['S']), (['A'], ['C']), (['D'], ['C'])]) none
      (fun s => if s = ['D'] then none else gtAll s) with
    | .ok (_, c) => decide (c.handler = some "N_inPortDataWritten".toList ∧ c.notify = c.handler ∧
        c.prototypes = [['o', 'n', 'B'], ['o', 'n', 'A']] ∧ c.members = [['A'], ['B']])
    | _ => false) = true := by decide +kernel

end Examples

/-- C70 is violated whenever the code is given another name than the node has: the handler assigned is not the function
that is defined. -/
theorem C70_every_name_violated (n : Node) (g : Generated) (hg : generate n = .ok g) (cb : Str → Option Str)
    (hcb : ∃ s ∈ g.require, (cb s.name).isSome) (hpos : ∀ s ∈ g.require, 0 < s.packLen) (m : Str)
    (hm : m ≠ g.node.name) :
    ∃ c f h, (GenState.new.generate g (some m) (some cb)).2 = .ok c ∧ c.notify = some f ∧ c.handler = some h ∧ h ≠ f := by
  obtain ⟨n', h1, h2⟩ := bind_ok_iff.mp hg
  obtain ⟨rs, h3, h2⟩ := bind_ok_iff.mp h2
  obtain ⟨ps, h4, h2⟩ := bind_ok_iff.mp h2
  obtain ⟨ib, h5, h2⟩ := bind_ok_iff.mp h2
  obtain ⟨ob, h6, h2⟩ := bind_ok_iff.mp h2
  have hr : g.require = rs := by
    simp only [Except.ok.injEq] at h2
    rw [← h2]
  have hlen : g.inLen = totalLen g.require := by
    simp only [Except.ok.injEq] at h2
    rw [← h2]
  have hc : CbChain 0 (g.require.map (mkEntry cb)) := by
    rw [hr]
    exact genSignals_chain cb _ _ _ _ _ h3 (by rw [← hr]; exact hpos)
  have hin : 0 < g.inLen := by
    obtain ⟨s, hs, _⟩ := hcb
    rw [hlen]
    exact Nat.lt_of_lt_of_le (hpos s hs) (packLen_le_total s _ hs)
  obtain ⟨f, c, k1, k2, k3, k4, k5, k6, k7, k8, -⟩ := fresh_code g cb (some m) 0 hc hin hcb
  refine ⟨c, _, _, k2, k8, k7, ?_⟩
  intro h
  unfold notifyName at h
  exact hm (List.append_cancel_right h).symm

/-- C70 is violated if the code is given another name than the node: the handler assigned is not the
function that is defined. -/
theorem C70_renamed_violated : (match gtCode .new (gtNode [(['A'], ['S'])]) (some ['M']) gtAll with
    | .ok (_, c) => decide (c.handler = some "N_inPortDataWritten".toList ∧ c.notify = some "M_inPortDataWritten".toList)
    | _ => false) = true := by decide +kernel

/-- C70 is violated for nodes without require ports: with callbacks given (for ports of other nodes, say),
a handler is assigned that is not defined. -/
theorem C70_no_ports_violated : (match gtCode .new (gtNode []) none gtAll with
    | .ok (_, c) => decide (c.handler = some "N_inPortDataWritten".toList ∧ c.notify = none)
    | _ => false) = true := by decide +kernel

/-- C70 is violated for a generator used twice: the callbacks of the first node are declared again in the
header for the second one, and the union has the members of both; for a node without require ports the
function of the first node is defined again. -/
theorem C70_again_violated : (match gtCode .new (gtNode [(['A'], ['S'])]) (some ['M']) gtAll with
    | .ok (st, _) => (match gtCode st (gtNode [(['B'], ['S'])]) none gtAll, gtCode st (gtNode []) none gtAll with
      | .ok (_, c), .ok (_, d) => decide (c.prototypes = [['o', 'n', 'A'], ['o', 'n', 'B']] ∧
          c.members = [['A'], ['B']] ∧ d.notify = some "M_inPortDataWritten".toList)
      | _, _ => false)
    | _ => false) = true := by decide +kernel

end Apx
