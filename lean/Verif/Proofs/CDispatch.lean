import Verif.Spec.CDispatch
import Verif.Proofs.CUnitFile

/-!
The text of the function that is told of received data is read as the cases it is made of.
-/

namespace Apx

/-! ### Lines -/

theorem cBlank_indent (k : Nat) (s : Str) : cBlank (indentBy k s) = cBlank s := by
  unfold indentBy
  induction k with
  | zero => rfl
  | succ k ih =>
    rw [← ih]
    unfold cBlank
    rw [List.replicate_succ, List.cons_append, List.dropWhile_cons, List.all_cons]
    simp

theorem cBlank_cons (c : Char) (s : Str) (h1 : c ≠ ' ') (h2 : c ≠ '/') : cBlank (c :: s) = false := by
  unfold cBlank
  rw [List.dropWhile_cons, List.all_cons]
  have e : "//".toList = ['/', '/'] := by decide +kernel
  rw [e]
  cases s <;> simp [h1, h2]

theorem cBlank_word (w b : Str) (h : CWord w) : cBlank (w ++ b) = false := by
  obtain ⟨h1, h2⟩ := h
  cases w with
  | nil => exact absurd rfl h1
  | cons c w =>
    have hc := h2 c (by simp)
    refine cBlank_cons c _ ?_ ?_
    · rintro rfl
      exact absurd hc (by decide +kernel)
    · rintro rfl
      exact absurd hc (by decide +kernel)

/-- The lines that are not blank, as tokens. -/
def tokLines (ls : List Str) : List (List CTok) := (ls.filter fun l => !cBlank l).map lexC

theorem tokLines_append (a b : List Str) : tokLines (a ++ b) = tokLines a ++ tokLines b := by
  simp [tokLines]

theorem tokLines_keep {l : Str} (h : cBlank l = false) (ls : List Str) (k : Nat) :
    tokLines (indentBy k l :: ls) = lexC l :: tokLines ls := by
  unfold tokLines
  rw [List.filter_cons_of_pos (by rw [cBlank_indent, h]; rfl), List.map_cons, lexC_indent]

theorem tokLines_drop {l : Str} (h : cBlank l = true) (ls : List Str) (k : Nat) :
    tokLines (indentBy k l :: ls) = tokLines ls := by
  unfold tokLines
  rw [List.filter_cons_of_neg (by rw [cBlank_indent, h]; decide)]

theorem tokLines_nil : tokLines [] = [] := rfl

theorem tokLines_empty (ls : List Str) : tokLines ([] :: ls) = tokLines ls := by
  unfold tokLines
  rw [List.filter_cons_of_neg (by decide +kernel)]

theorem tokLines_flatten : ∀ l : List (List Str), tokLines l.flatten = (l.map tokLines).flatten
  | [] => rfl
  | a :: l => by rw [List.flatten_cons, tokLines_append, tokLines_flatten l, List.map_cons, List.flatten_cons]

theorem tokLines_map {α : Type} (f : α → Str) (t : α → List CTok) (k : Nat) : ∀ l : List α,
    (∀ x ∈ l, cBlank (f x) = false ∧ lexC (f x) = t x) → tokLines (l.map fun x => indentBy k (f x)) = l.map t
  | [], _ => rfl
  | x :: l, h => by
    rw [List.map_cons, tokLines_keep (h x (by simp)).1, (h x (by simp)).2, List.map_cons,
      tokLines_map f t k l (fun y hy => h y (List.mem_cons_of_mem _ hy))]

/-! ### Members -/

/-- The tokens of a member. -/
def CMember.toks (m : CMember) : List CTok :=
  match m.arrayLen with
  | none => [.word m.typename, .word m.name, .sym ';']
  | some k => [.word m.typename, .word m.name, .sym '[', .word (natStr k), .sym ']', .sym ';']

theorem member_line (m : CMember) (h1 : CIdent m.typename) (h2 : CIdent m.name) :
    cBlank (m.text ++ [';']) = false ∧ lexC (m.text ++ [';']) = m.toks := by
  obtain ⟨n, t, a⟩ := m
  unfold CMember.text CMember.toks
  dsimp only at h1 h2 ⊢
  cases a with
  | none =>
    have e : t ++ [' '] ++ n ++ [] ++ [';'] = t ++ ' ' :: (n ++ [';']) := by simp
    rw [e]
    exact ⟨cBlank_word _ _ h1.1, by rw [lexC_blank _ _ h1.1, lexC_name n _ h2.1 (by decide +kernel), lex_semi]⟩
  | some k =>
    have e : t ++ [' '] ++ n ++ (['['] ++ natStr k ++ [']']) ++ [';'] = t ++ ' ' :: (n ++ ('[' :: (natStr k ++ [']', ';']))) := by simp
    dsimp only
    rw [e]
    refine ⟨cBlank_word _ _ h1.1, ?_⟩
    rw [lexC_blank _ _ h1.1, lexC_name n _ h2.1 (show Sep ('[' :: _) from rfl), lexC_other '[' _ (by decide +kernel), if_neg (by decide),
      lexC_name (natStr k) _ (cWord_natStr k) (by decide +kernel)]
    rfl

theorem readMember_toks (m : CMember) (h1 : CIdent m.typename) (h2 : CIdent m.name) : readMember m.toks = some m := by
  obtain ⟨n, t, a⟩ := m
  cases a with
  | none =>
    show (if _ then _ else _) = _
    rw [if_pos ⟨h1, h2⟩]
  | some k =>
    show (if _ then _ else _) = _
    rw [if_pos ⟨h1, h2⟩, cNumber_natStr]
    rfl

theorem readMembers_toks (r : List (List CTok)) : ∀ ms : List CMember, (∀ m ∈ ms, CIdent m.typename ∧ CIdent m.name) →
    readMembers (ms.map CMember.toks ++ lexC "} data;".toList :: r) = some (ms, r)
  | [], _ => by
    show readMembers (lexC "} data;".toList :: r) = _
    rw [readMembers, if_pos rfl]
  | m :: ms, h => by
    have e : (lexC "} data;".toList).head? = some (.sym '}') := by decide +kernel
    have hne : m.toks ≠ lexC "} data;".toList := by
      intro h
      rw [← h] at e
      unfold CMember.toks at e
      split at e <;> cases e
    show readMembers (m.toks :: (ms.map CMember.toks ++ lexC "} data;".toList :: r)) = _
    rw [readMembers, if_neg hne, readMember_toks m (h m (by simp)).1 (h m (by simp)).2, Option.bind_some,
      readMembers_toks r ms (fun x hx => h x (List.mem_cons_of_mem _ hx))]
    rfl

/-! ### Calls -/

/-- The tokens of a call. -/
def CDataCall.toks (c : CDataCall) : List CTok :=
  .word c.func :: .sym '(' :: ((if c.ref then [.sym '&'] else []) ++ (kw "data" :: .sym '.' :: .word c.member ::
    ((if c.first then [.sym '[', .word ['0'], .sym ']'] else []) ++ [.sym ')', .sym ';'])))

theorem call_lex (c : CDataCall) (h1 : CIdent c.func) (h2 : CIdent c.member) : lexC (c.text ++ [';']) = c.toks := by
  obtain ⟨f, ref, m, fst⟩ := c
  unfold CDataCall.text CDataCall.toks
  dsimp only at h1 h2 ⊢
  have e : f ++ ['('] ++ (if ref then ['&'] else []) ++ "data.".toList ++ m ++ (if fst then "[0]".toList else []) ++ [')'] ++ [';'] =
      f ++ ((['('] ++ (if ref then ['&'] else []) ++ "data.".toList) ++ (m ++ ((if fst then "[0]".toList else []) ++ [')', ';']))) := by
    simp
  rw [e, lexC_name f _ h1.1 (by cases ref <;> rfl), lexC_lit _ _ (by cases ref <;> decide +kernel),
    lexC_name m _ h2.1 (by cases fst <;> decide +kernel)]
  have e1 : ∀ ref : Bool, lexC (['('] ++ (if ref then ['&'] else []) ++ "data.".toList) =
      .sym '(' :: ((if ref then [.sym '&'] else []) ++ [kw "data", .sym '.']) := by decide +kernel
  have e2 : ∀ fst : Bool, lexC ((if fst then "[0]".toList else []) ++ [')', ';']) =
      (if fst then [.sym '[', .word ['0'], .sym ']'] else []) ++ [.sym ')', .sym ';'] := by decide +kernel
  rw [e1, e2]
  simp

theorem void_lex (c : CDataCall) (h1 : CIdent c.func) (h2 : CIdent c.member) :
    lexC ("(void) ".toList ++ c.text ++ [';']) = lexC "(void)".toList ++ c.toks := by
  rw [List.append_assoc, lexC_lit _ _ (by decide +kernel), call_lex c h1 h2]
  have e : lexC "(void) ".toList = lexC "(void)".toList := by decide +kernel
  rw [e]

theorem readDataCall_rest (c : CDataCall) (h1 : CIdent c.func) (h2 : CIdent c.member) :
    (match c.toks with
      | .word f :: .sym '(' :: r =>
        if CIdent f then
          if r.head? = some (.sym '&') then readDataArg f true r.tail else readDataArg f false r
        else none
      | _ => none) = some c := by
  obtain ⟨f, ref, m, fst⟩ := c
  show (if CIdent f then _ else _) = _
  rw [if_pos h1]
  have ne : ¬ (some (kw "data") = some (CTok.sym '&')) := by decide +kernel
  cases ref <;> cases fst
  · refine Eq.trans (if_neg ne) ?_
    show (if _ then _ else _) = _
    rw [if_pos ⟨rfl, h2⟩]
  · refine Eq.trans (if_neg ne) ?_
    show (if _ then _ else _) = _
    rw [if_pos ⟨rfl, h2, rfl⟩]
  · refine Eq.trans (if_pos rfl) ?_
    show (if _ then _ else _) = _
    rw [if_pos ⟨rfl, h2⟩]
  · refine Eq.trans (if_pos rfl) ?_
    show (if _ then _ else _) = _
    rw [if_pos ⟨rfl, h2, rfl⟩]

theorem void_toks : lexC "(void)".toList = [.sym '(', kw "void", .sym ')'] := by decide +kernel

theorem readDataCall_toks (c : CDataCall) (h1 : CIdent c.func) (h2 : CIdent c.member) : readDataCall c.toks = some c := by
  unfold readDataCall
  rw [if_neg (by rw [void_toks]; intro h; exact absurd (List.cons.inj h).1 (by intro h; cases h))]
  exact readDataCall_rest c h1 h2

theorem readDataCall_void (c : CDataCall) (h1 : CIdent c.func) (h2 : CIdent c.member) :
    readDataCall (lexC "(void)".toList ++ c.toks) = some c := by
  unfold readDataCall
  rw [if_pos (by rw [void_toks]; rfl)]
  have e : List.drop 3 (lexC "(void)".toList ++ c.toks) = c.toks := by rw [void_toks]; rfl
  rw [e]
  exact readDataCall_rest c h1 h2

/-! ### Cases -/

theorem inside_call (c : CDataCall) (h1 : CIdent c.func) (h2 : CIdent c.member) (label : Str) (acc : List CDataCall) (r : List (List CTok)) :
    readCases (.inside label acc) (c.toks :: r) = readCases (.inside label (acc ++ [c])) r := by
  have e : readCases (.inside label acc) (c.toks :: r) = (readDataCall c.toks).bind fun c => readCases (.inside label (acc ++ [c])) r := rfl
  rw [e, readDataCall_toks c h1 h2]
  rfl

theorem inside_void (c : CDataCall) (h1 : CIdent c.func) (h2 : CIdent c.member) (label : Str) (acc : List CDataCall) (r : List (List CTok)) :
    readCases (.inside label acc) ((lexC "(void)".toList ++ c.toks) :: r) = readCases (.inside label (acc ++ [c])) r := by
  have e : readCases (.inside label acc) ((lexC "(void)".toList ++ c.toks) :: r) =
      (readDataCall (lexC "(void)".toList ++ c.toks)).bind fun c => readCases (.inside label (acc ++ [c])) r := by
    rw [void_toks]
    rfl
  rw [e, readDataCall_void c h1 h2]
  rfl

theorem inside_calls (label : Str) (r : List (List CTok)) : ∀ (l : List CDataCall) (acc : List CDataCall),
    (∀ c ∈ l, CIdent c.func ∧ CIdent c.member) →
    readCases (.inside label acc) (l.map CDataCall.toks ++ r) = readCases (.inside label (acc ++ l)) r
  | [], acc, _ => by rw [List.append_nil]; rfl
  | c :: l, acc, h => by
    show readCases (.inside label acc) (c.toks :: (l.map CDataCall.toks ++ r)) = _
    rw [inside_call c (h c (by simp)).1 (h c (by simp)).2, inside_calls label r l _ (fun x hx => h x (List.mem_cons_of_mem _ hx)),
      List.append_assoc]
    rfl

/-- The tokens of an item of the `switch`. -/
def CSwitchItem.toks : CSwitchItem → List (List CTok)
  | .comment _ => []
  | .case p calls =>
    [[kw "case", .word ("APX_RX_OFFSET_".toList ++ macroName p), .sym ':']] ++
    (match calls with
      | [] => []
      | r :: l => (lexC "(void)".toList ++ r.toks) :: l.map CDataCall.toks) ++
    [[kw "offset", .sym '+', .sym '=', .word ("APX_RX_LEN_".toList ++ macroName p), .sym ';'], lexC "break;".toList]

/-- The case an item is. -/
def CSwitchItem.toCase : CSwitchItem → Option CCase
  | .comment _ => none
  | .case p calls => some ⟨"APX_RX_OFFSET_".toList ++ macroName p, calls, "APX_RX_LEN_".toList ++ macroName p⟩

/-- The names in an item. -/
def CSwitchItem.Idents : CSwitchItem → Prop
  | .comment _ => True
  | .case p calls => WordChars p ∧ ∀ c ∈ calls, CIdent c.func ∧ CIdent c.member

theorem offset_ident {p : Str} (h : WordChars p) : CIdent ("APX_RX_OFFSET_".toList ++ macroName p) :=
  macro_ident _ _ (by decide +kernel) (by decide +kernel) (macroName_words h)

theorem len_ident {p : Str} (h : WordChars p) : CIdent ("APX_RX_LEN_".toList ++ macroName p) :=
  macro_ident _ _ (by decide +kernel) (by decide +kernel) (macroName_words h)

theorem item_lines (i : CSwitchItem) (h : i.Idents) : tokLines i.lines = i.toks := by
  cases i with
  | comment p =>
    have hb : cBlank ("//case APX_RX_OFFSET_".toList ++ macroName p ++ [':']) = true := by
      have e : "//case APX_RX_OFFSET_".toList = '/' :: '/' :: "case APX_RX_OFFSET_".toList := by decide +kernel
      rw [e]
      unfold cBlank
      refine decide_eq_true (.inl ?_)
      show List.take 2 (List.dropWhile _ ('/' :: '/' :: _)) = _
      rw [List.dropWhile_cons_of_neg (by decide)]
      have e2 : "//".toList = ['/', '/'] := by decide +kernel
      rw [e2]
      rfl
    show tokLines [indentBy 6 _] = []
    rw [tokLines_drop hb]
    rfl
  | case p calls =>
    obtain ⟨hp, hc⟩ := h
    have hl := offset_ident hp
    have hs := len_ident hp
    have t1 : cBlank ("case APX_RX_OFFSET_".toList ++ macroName p ++ [':']) = false ∧
        lexC ("case APX_RX_OFFSET_".toList ++ macroName p ++ [':']) = [kw "case", .word ("APX_RX_OFFSET_".toList ++ macroName p), .sym ':'] := by
      have e : "case APX_RX_OFFSET_".toList ++ macroName p ++ [':'] = "case".toList ++ ' ' :: (("APX_RX_OFFSET_".toList ++ macroName p) ++ [':']) := by
        have : "case APX_RX_OFFSET_".toList = "case".toList ++ ' ' :: "APX_RX_OFFSET_".toList := by decide +kernel
        rw [this]
        simp
      rw [e]
      refine ⟨cBlank_word _ _ (by decide +kernel), ?_⟩
      rw [lexC_blank _ _ (by decide +kernel), lexC_name _ _ hl.1 (by decide +kernel)]
      rfl
    have t2 : cBlank ("offset += APX_RX_LEN_".toList ++ macroName p ++ [';']) = false ∧
        lexC ("offset += APX_RX_LEN_".toList ++ macroName p ++ [';']) =
          [kw "offset", .sym '+', .sym '=', .word ("APX_RX_LEN_".toList ++ macroName p), .sym ';'] := by
      have e : "offset += APX_RX_LEN_".toList ++ macroName p ++ [';'] = "offset += ".toList ++ (("APX_RX_LEN_".toList ++ macroName p) ++ [';']) := by
        have : "offset += APX_RX_LEN_".toList = "offset += ".toList ++ "APX_RX_LEN_".toList := by decide +kernel
        rw [this]
        simp
      have e2 : lexC "offset += ".toList = [kw "offset", .sym '+', .sym '='] := by decide +kernel
      rw [e]
      refine ⟨?_, ?_⟩
      · have e3 : "offset += ".toList = "offset".toList ++ " += ".toList := by decide +kernel
        rw [e3, List.append_assoc]
        exact cBlank_word _ _ (by decide +kernel)
      · rw [lexC_lit _ _ (by decide +kernel), lexC_name _ _ hs.1 (by decide +kernel), e2, lex_semi]
        rfl
    have t3 : tokLines [indentBy 9 ("offset += APX_RX_LEN_".toList ++ macroName p ++ [';']), indentBy 9 "break;".toList] =
        [[kw "offset", .sym '+', .sym '=', .word ("APX_RX_LEN_".toList ++ macroName p), .sym ';'], lexC "break;".toList] := by
      rw [tokLines_keep t2.1, t2.2, tokLines_keep (by decide +kernel)]
      rfl
    unfold CSwitchItem.lines CSwitchItem.toks
    rw [tokLines_append, tokLines_append, t3, tokLines_keep t1.1, t1.2]
    congr 2
    cases calls with
    | nil => rfl
    | cons r l =>
      have hr := hc r (by simp)
      dsimp only
      have e : "(void) ".toList ++ r.text ++ [';'] = '(' :: ("void) ".toList ++ r.text ++ [';']) := by
        have : "(void) ".toList = '(' :: "void) ".toList := by decide +kernel
        rw [this]
        rfl
      rw [tokLines_keep (by rw [e]; exact cBlank_cons _ _ (by decide) (by decide)), void_lex r hr.1 hr.2]
      congr 1
      refine tokLines_map (fun c : CDataCall => c.text ++ [';']) CDataCall.toks 9 l ?_
      intro x hx
      have hx' := hc x (List.mem_cons_of_mem _ hx)
      refine ⟨?_, call_lex x hx'.1 hx'.2⟩
      unfold CDataCall.text
      simp only [List.append_assoc]
      exact cBlank_word _ _ hx'.1.1

theorem readCases_items (fin : List (List CTok)) : ∀ items : List CSwitchItem, (∀ i ∈ items, i.Idents) →
    readCases .between ((items.map CSwitchItem.toks).flatten ++ fin) =
      (readCases .between fin).map fun r => items.filterMap CSwitchItem.toCase ++ r
  | [], _ => by
    show readCases .between fin = _
    cases readCases .between fin <;> rfl
  | i :: items, h => by
    have ih := readCases_items fin items (fun x hx => h x (List.mem_cons_of_mem _ hx))
    have hi := h i (by simp)
    rw [List.map_cons, List.flatten_cons, List.append_assoc]
    cases i with
    | comment p =>
      rw [List.filterMap_cons_none rfl]
      exact ih
    | case p calls =>
      obtain ⟨hp, hc⟩ := hi
      have hl := offset_ident hp
      have hs := len_ident hp
      have ef : (CSwitchItem.case p calls :: items).filterMap CSwitchItem.toCase = ⟨"APX_RX_OFFSET_".toList ++ macroName p, calls,
          "APX_RX_LEN_".toList ++ macroName p⟩ :: items.filterMap CSwitchItem.toCase := List.filterMap_cons_some (by rfl)
      rw [ef]
      generalize hR : (items.map CSwitchItem.toks).flatten ++ fin = R at ih ⊢
      have e1 : ∀ r, readCases .between ([kw "case", .word ("APX_RX_OFFSET_".toList ++ macroName p), .sym ':'] :: r) =
          readCases (.inside ("APX_RX_OFFSET_".toList ++ macroName p) []) r := by
        intro r
        have hd : [kw "case", .word ("APX_RX_OFFSET_".toList ++ macroName p), .sym ':'] ≠ lexC "default:".toList := by
          intro he
          have := congrArg List.length he
          have h2 : (lexC "default:".toList).length = 2 := by decide +kernel
          rw [h2] at this
          cases this
        refine Eq.trans (if_neg hd) ?_
        show (if "case".toList = "case".toList ∧ CIdent ("APX_RX_OFFSET_".toList ++ macroName p) then _ else _) = _
        rw [if_pos ⟨rfl, hl⟩]
      have e2 : ∀ acc, readCases (.inside ("APX_RX_OFFSET_".toList ++ macroName p) acc)
          ([[kw "offset", .sym '+', .sym '=', .word ("APX_RX_LEN_".toList ++ macroName p), .sym ';'], lexC "break;".toList] ++ R) =
          (readCases .between R).map fun r => ⟨"APX_RX_OFFSET_".toList ++ macroName p, acc, "APX_RX_LEN_".toList ++ macroName p⟩ :: r := by
        intro acc
        show (if "offset".toList = "offset".toList ∧ CIdent ("APX_RX_LEN_".toList ++ macroName p) then
          readCases (.leaving _) (lexC "break;".toList :: R) else _) = _
        rw [if_pos ⟨rfl, hs⟩, readCases, if_pos rfl]
      have e3 : readCases .between ((CSwitchItem.case p calls).toks ++ R) =
          (readCases .between R).map fun r => ⟨"APX_RX_OFFSET_".toList ++ macroName p, calls, "APX_RX_LEN_".toList ++ macroName p⟩ :: r := by
        unfold CSwitchItem.toks
        rw [List.append_assoc, List.append_assoc]
        show readCases .between ([kw "case", .word ("APX_RX_OFFSET_".toList ++ macroName p), .sym ':'] :: _) = _
        rw [e1]
        cases calls with
        | nil => exact e2 []
        | cons c l =>
          show readCases _ ((lexC "(void)".toList ++ c.toks) :: (l.map CDataCall.toks ++ _)) = _
          rw [inside_void c (hc c (by simp)).1 (hc c (by simp)).2, inside_calls _ _ l _ (fun x hx => hc x (List.mem_cons_of_mem _ hx)), e2]
          rfl
      rw [e3, ih]
      cases readCases .between fin <;> rfl

/-- The macro that bounds `offset`. -/
def boundMacro (p : Str) : Str := "APX_RX_OFFSET_".toList ++ macroName p

/-- The names in the function. -/
structure SwitchNames (ms : List CMember) (start : Option Str) (items : List CSwitchItem) : Prop where
  members : ∀ m ∈ ms, CIdent m.typename ∧ CIdent m.name
  start : ∀ p, start = some p → WordChars p
  items : ∀ i ∈ items, i.Idents

theorem readLoop_toks (items : List CSwitchItem) (h : ∀ i ∈ items, i.Idents) :
    readLoop ([lexC "while (offset < endOffset)".toList, [.sym '{'], lexC "switch(offset)".toList, [.sym '{']] ++
      ((items.map CSwitchItem.toks).flatten ++
      [lexC "default:".toList, lexC "offset = endOffset;".toList, [.sym '}'], [.sym '}']])) = some (items.filterMap CSwitchItem.toCase) := by
  unfold readLoop
  refine Eq.trans (if_pos rfl) ?_
  show readCases .between ((items.map CSwitchItem.toks).flatten ++ _) = _
  rw [readCases_items _ items h]
  have hfin : readCases .between [lexC "default:".toList, lexC "offset = endOffset;".toList, [.sym '}'], [.sym '}']] = some [] := by
    decide +kernel
  rw [hfin]
  show some (_ ++ []) = _
  rw [List.append_nil]

/-- The lines with the bound. -/
def boundLines : Option Str → List Str
  | some p => [indentBy 3 ("if (offset < APX_RX_OFFSET_".toList ++ macroName p ++ [')']), indentBy 3 ['{'],
      indentBy 6 ("offset = APX_RX_OFFSET_".toList ++ macroName p ++ [';']), indentBy 3 ['}']]
  | none => []

/-- Their tokens. -/
def boundToks : Option Str → List (List CTok)
  | some p => [[kw "if", .sym '(', kw "offset", .sym '<', .word (boundMacro p), .sym ')'], [.sym '{'],
      [kw "offset", .sym '=', .word (boundMacro p), .sym ';'], [.sym '}']]
  | none => []

theorem readBound_toks (start : Option Str) (h : ∀ p, start = some p → WordChars p) (items : List CSwitchItem) (hi : ∀ i ∈ items, i.Idents) :
    readBound (boundToks start ++
      ([lexC "while (offset < endOffset)".toList, [.sym '{'], lexC "switch(offset)".toList, [.sym '{']] ++
      ((items.map CSwitchItem.toks).flatten ++
      [lexC "default:".toList, lexC "offset = endOffset;".toList, [.sym '}'], [.sym '}']]))) =
      some (start.map boundMacro, items.filterMap CSwitchItem.toCase) := by
  cases start with
  | none =>
    have e : readBound ([lexC "while (offset < endOffset)".toList, [.sym '{'], lexC "switch(offset)".toList, [.sym '{']] ++
      ((items.map CSwitchItem.toks).flatten ++
      [lexC "default:".toList, lexC "offset = endOffset;".toList, [.sym '}'], [.sym '}']])) =
      (readLoop ([lexC "while (offset < endOffset)".toList, [.sym '{'], lexC "switch(offset)".toList, [.sym '{']] ++
      ((items.map CSwitchItem.toks).flatten ++
      [lexC "default:".toList, lexC "offset = endOffset;".toList, [.sym '}'], [.sym '}']]))).map fun c => (none, c) := by
      have : lexC "switch(offset)".toList = [kw "switch", .sym '(', kw "offset", .sym ')'] := by decide +kernel
      rw [this]
      have : lexC "while (offset < endOffset)".toList = [kw "while", .sym '(', kw "offset", .sym '<', kw "endOffset", .sym ')'] := by decide +kernel
      rw [this]
      rfl
    refine Eq.trans e ?_
    rw [readLoop_toks items hi]
    rfl
  | some p =>
    have hL := readLoop_toks items hi
    generalize ([lexC "while (offset < endOffset)".toList, [.sym '{'], lexC "switch(offset)".toList, [.sym '{']] ++
      ((items.map CSwitchItem.toks).flatten ++
      [lexC "default:".toList, lexC "offset = endOffset;".toList, [.sym '}'], [.sym '}']])) = L at hL ⊢
    show (if _ then (readLoop L).map _ else _) = _
    rw [if_pos ⟨rfl, rfl, rfl, rfl, offset_ident (h p rfl)⟩, hL]
    rfl

/-- The text of the function is read as its cases. -/
theorem readSwitch_lines (ms : List CMember) (start : Option Str) (items : List CSwitchItem) (h : SwitchNames ms start items)
    (hd : (ms.map CMember.name).Nodup) :
    readSwitch (CBody.dispatch ms start items).lines = some ⟨ms, start.map boundMacro, items.filterMap CSwitchItem.toCase⟩ := by
  have h1 : tokLines (ms.map (fun m => indentBy 6 (m.text ++ [';']))) = ms.map CMember.toks :=
    tokLines_map (fun m : CMember => m.text ++ [';']) CMember.toks 6 ms (fun m hm => member_line m (h.members m hm).1 (h.members m hm).2)
  have h2 : tokLines ((items.map CSwitchItem.lines).flatten) = (items.map CSwitchItem.toks).flatten := by
    rw [tokLines_flatten, List.map_map]
    congr 1
    exact List.map_congr_left (fun i hi => item_lines i (h.items i hi))
  have h3 : tokLines (boundLines start) = boundToks start := by
    cases start with
    | none => rfl
    | some p =>
      have hl := offset_ident (h.start p rfl)
      rw [boundLines]
      have e1 : "if (offset < APX_RX_OFFSET_".toList ++ macroName p ++ [')'] = "if (offset < ".toList ++ (boundMacro p ++ [')']) := by
        have : "if (offset < APX_RX_OFFSET_".toList = "if (offset < ".toList ++ "APX_RX_OFFSET_".toList := by decide +kernel
        rw [this]
        unfold boundMacro
        simp only [List.append_assoc]
      have e2 : "offset = APX_RX_OFFSET_".toList ++ macroName p ++ [';'] = "offset = ".toList ++ (boundMacro p ++ [';']) := by
        have : "offset = APX_RX_OFFSET_".toList = "offset = ".toList ++ "APX_RX_OFFSET_".toList := by decide +kernel
        rw [this]
        unfold boundMacro
        simp only [List.append_assoc]
      have b1 : cBlank ("if (offset < ".toList ++ (boundMacro p ++ [')'])) = false := by
        have : "if (offset < ".toList = "if".toList ++ " (offset < ".toList := by decide +kernel
        rw [this, List.append_assoc]
        exact cBlank_word _ _ (by decide +kernel)
      have b2 : cBlank ("offset = ".toList ++ (boundMacro p ++ [';'])) = false := by
        have : "offset = ".toList = "offset".toList ++ " = ".toList := by decide +kernel
        rw [this, List.append_assoc]
        exact cBlank_word _ _ (by decide +kernel)
      have l1 : lexC ("if (offset < ".toList ++ (boundMacro p ++ [')'])) =
          [kw "if", .sym '(', kw "offset", .sym '<', .word (boundMacro p), .sym ')'] := by
        have : lexC "if (offset < ".toList = [kw "if", .sym '(', kw "offset", .sym '<'] := by decide +kernel
        rw [lexC_lit _ _ (by decide +kernel), this, lexC_name (boundMacro p) _ hl.1 (by decide +kernel)]
        rfl
      have l2 : lexC ("offset = ".toList ++ (boundMacro p ++ [';'])) = [kw "offset", .sym '=', .word (boundMacro p), .sym ';'] := by
        have : lexC "offset = ".toList = [kw "offset", .sym '='] := by decide +kernel
        rw [lexC_lit _ _ (by decide +kernel), this, lexC_name (boundMacro p) _ hl.1 (by decide +kernel)]
        rfl
      rw [e1, e2, tokLines_keep b1, l1, tokLines_keep (by decide +kernel), tokLines_keep b2, l2, tokLines_keep (by decide +kernel)]
      rfl
  have h4 : tokLines [indentBy 3 "} data;".toList, indentBy 3 "uint32_t endOffset = offset + len;".toList, [],
      indentBy 3 "(void)arg;".toList, indentBy 3 "(void)nodeData;".toList, []] =
      [lexC "} data;".toList, lexC "uint32_t endOffset = offset + len;".toList, lexC "(void)arg;".toList, lexC "(void)nodeData;".toList] := by
    decide +kernel
  have h5 : tokLines [indentBy 3 "while (offset < endOffset)".toList, indentBy 3 ['{'], indentBy 6 "switch(offset)".toList,
      indentBy 6 ['{']] = [lexC "while (offset < endOffset)".toList, [.sym '{'], lexC "switch(offset)".toList, [.sym '{']] := by decide +kernel
  have h6 : tokLines [indentBy 6 "default:".toList, indentBy 9 "offset = endOffset;".toList, indentBy 6 ['}'], indentBy 3 ['}']] =
      [lexC "default:".toList, lexC "offset = endOffset;".toList, [.sym '}'], [.sym '}']] := by decide +kernel
  have h7 : tokLines [indentBy 3 "union data_tag".toList, indentBy 3 ['{']] = [lexC "union data_tag".toList, [.sym '{']] := by decide +kernel
  have ht : tokLines (CBody.dispatch ms start items).lines = lexC "union data_tag".toList :: [.sym '{'] :: (ms.map CMember.toks ++
      (lexC "} data;".toList :: ([lexC "uint32_t endOffset = offset + len;".toList, lexC "(void)arg;".toList, lexC "(void)nodeData;".toList] ++
      (boundToks start ++
      ([lexC "while (offset < endOffset)".toList, [.sym '{'], lexC "switch(offset)".toList, [.sym '{']] ++
      ((items.map CSwitchItem.toks).flatten ++
      [lexC "default:".toList, lexC "offset = endOffset;".toList, [.sym '}'], [.sym '}']])))))) := by
    have hb : (CBody.dispatch ms start items).lines = [indentBy 3 "union data_tag".toList, indentBy 3 ['{']] ++
        ms.map (fun m => indentBy 6 (m.text ++ [';'])) ++
        [indentBy 3 "} data;".toList, indentBy 3 "uint32_t endOffset = offset + len;".toList, [],
          indentBy 3 "(void)arg;".toList, indentBy 3 "(void)nodeData;".toList, []] ++ boundLines start ++
        [indentBy 3 "while (offset < endOffset)".toList, indentBy 3 ['{'], indentBy 6 "switch(offset)".toList,
          indentBy 6 ['{']] ++ (items.map CSwitchItem.lines).flatten ++
        [indentBy 6 "default:".toList, indentBy 9 "offset = endOffset;".toList, indentBy 6 ['}'], indentBy 3 ['}']] := by
      cases start <;> rfl
    rw [hb, tokLines_append, tokLines_append, tokLines_append, tokLines_append, tokLines_append, tokLines_append, h1, h2, h3, h4, h5, h6, h7]
    simp only [List.append_assoc, List.cons_append, List.nil_append]
  unfold readSwitch
  show readSwitchLines (tokLines (CBody.dispatch ms start items).lines) = _
  rw [ht]
  rw [readSwitchLines, if_pos ⟨rfl, rfl⟩, readMembers_toks _ ms h.members, Option.bind_some, if_pos ⟨hd, rfl⟩]
  show (readBound ([] ++ (_ ++ (_ ++ (_ ++ _))))).map _ = _
  rw [List.nil_append, readBound_toks start h.start items h.items]
  rfl

end Apx
