import Verif.Spec.ComText
import Verif.Model.ComPrint
import Verif.Props.GenDispatch

/-! The text of a communication layer is read as what it is meant to be. -/

namespace Apx

theorem lex_ifOpen : lexC "if (".toList = [kw "if", .sym '('] := by decide +kernel
theorem lex_differs : lexC " != ".toList = [.sym '!', .sym '='] := by decide +kernel
theorem lex_close : lexC [')'] = [.sym ')'] := by decide +kernel
theorem lex_memcmp : lexC "if (memcmp(".toList = [kw "if", .sym '(', kw "memcmp", .sym '('] := by decide +kernel
theorem lex_commaText : lexC ", ".toList = [.sym ','] := by decide +kernel
theorem lex_sizeofOpen : lexC ", sizeof(".toList = [.sym ',', kw "sizeof", .sym '('] := by decide +kernel
theorem lex_cmpEnd : lexC ")) != 0)".toList = [.sym ')', .sym ')', .sym '!', .sym '=', .word ['0'], .sym ')'] := by decide +kernel
theorem lex_memcpyOpen : lexC "memcpy(".toList = [kw "memcpy", .sym '('] := by decide +kernel
theorem lex_copyEnd : lexC "));".toList = [.sym ')', .sym ')', .sym ';'] := by decide +kernel
theorem lex_assigned : lexC " = ".toList = [.sym '='] := by decide +kernel
theorem lex_open : lexC ['('] = [.sym '('] := by decide +kernel
theorem lex_and : lexC ['&'] = [.sym '&'] := by decide +kernel
theorem lex_callEnd : lexC ");".toList = [.sym ')', .sym ';'] := by decide +kernel
theorem lex_brace : lexC ['{'] = [.sym '{'] := by decide +kernel
theorem lex_brace' : lexC ['}'] = [.sym '}'] := by decide +kernel
theorem lex_return : lexC "return E_OK;".toList = [kw "return", kw "E_OK", .sym ';'] := by decide +kernel

/-- The tokens of the comparison. -/
theorem lex_cond (a x : Str) (ha : CWord a) (hx : CWord x) : ∀ ref, lexC (comCondText a x ref) =
    if ref then [kw "if", .sym '(', kw "memcmp", .sym '(', .word a, .sym ',', .sym '&', .word x, .sym ',', kw "sizeof", .sym '(', .word x,
      .sym ')', .sym ')', .sym '!', .sym '=', .word ['0'], .sym ')']
    else [kw "if", .sym '(', .word a, .sym '!', .sym '=', .word x, .sym ')']
  | true => by
    show lexC ("if (memcmp(".toList ++ a ++ ", ".toList ++ (['&'] ++ x) ++ ", sizeof(".toList ++ x ++ ")) != 0)".toList) = _
    have e : "if (memcmp(".toList ++ a ++ ", ".toList ++ (['&'] ++ x) ++ ", sizeof(".toList ++ x ++ ")) != 0)".toList =
      "if (memcmp(".toList ++ (a ++ (", ".toList ++ (['&'] ++ (x ++ (", sizeof(".toList ++ (x ++ ")) != 0)".toList)))))) := by
      simp only [List.append_assoc]
    rw [e, lexC_lit _ _ (by decide +kernel), lexC_name a _ ha (by rfl), lexC_lit _ _ (by decide +kernel), lexC_lit ['&'] _ (by decide +kernel),
      lexC_name x _ hx (by rfl), lexC_lit _ _ (by decide +kernel), lexC_name x _ hx (by rfl), lex_memcmp, lex_commaText, lex_and,
      lex_sizeofOpen, lex_cmpEnd]
    rfl
  | false => by
    show lexC ("if (".toList ++ a ++ " != ".toList ++ x ++ [')']) = _
    have e : "if (".toList ++ a ++ " != ".toList ++ x ++ [')'] = "if (".toList ++ (a ++ (" != ".toList ++ (x ++ [')']))) := by
      simp only [List.append_assoc]
    rw [e, lexC_lit _ _ (by decide +kernel), lexC_name a _ ha (by rfl), lexC_lit _ _ (by decide +kernel), lexC_name x _ hx (by rfl),
      lex_ifOpen, lex_differs, lex_close]
    rfl

/-- The tokens of the assignment. -/
theorem lex_storeText (a x : Str) (ha : CWord a) (hx : CWord x) : ∀ ref, lexC (comStoreText a x ref) =
    if ref then [kw "memcpy", .sym '(', .sym '&', .word x, .sym ',', .word a, .sym ',', kw "sizeof", .sym '(', .word x, .sym ')', .sym ')', .sym ';']
    else [.word x, .sym '=', .word a, .sym ';']
  | true => by
    show lexC ("memcpy(".toList ++ (['&'] ++ x) ++ ", ".toList ++ a ++ ", sizeof(".toList ++ x ++ "));".toList) = _
    have e : "memcpy(".toList ++ (['&'] ++ x) ++ ", ".toList ++ a ++ ", sizeof(".toList ++ x ++ "));".toList =
      "memcpy(".toList ++ (['&'] ++ (x ++ (", ".toList ++ (a ++ (", sizeof(".toList ++ (x ++ "));".toList)))))) := by
      simp only [List.append_assoc]
    rw [e, lexC_lit _ _ (by decide +kernel), lexC_lit ['&'] _ (by decide +kernel), lexC_name x _ hx (by rfl), lexC_lit _ _ (by decide +kernel),
      lexC_name a _ ha (by rfl), lexC_lit _ _ (by decide +kernel), lexC_name x _ hx (by rfl), lex_memcpyOpen, lex_and, lex_commaText, lex_sizeofOpen, lex_copyEnd]
    rfl
  | false => by
    show lexC (x ++ " = ".toList ++ a ++ [';']) = _
    have e : x ++ " = ".toList ++ a ++ [';'] = x ++ (" = ".toList ++ (a ++ [';'])) := by simp only [List.append_assoc]
    rw [e, lexC_name x _ hx (by rfl), lexC_lit _ _ (by decide +kernel), lexC_name a _ ha (by rfl), lex_assigned, lex_semi]
    rfl

/-- The tokens of a call. -/
theorem lex_callText (f x : Str) (hf : CWord f) (hx : CWord x) : ∀ ref, lexC (comCallText f ref x) =
    if ref then [.word f, .sym '(', .sym '&', .word x, .sym ')', .sym ';'] else [.word f, .sym '(', .word x, .sym ')', .sym ';']
  | true => by
    show lexC (f ++ ['('] ++ (['&'] ++ x) ++ ");".toList) = _
    have e : f ++ ['('] ++ (['&'] ++ x) ++ ");".toList = f ++ (['('] ++ (['&'] ++ (x ++ ");".toList))) := by
      simp only [List.append_assoc]
    rw [e, lexC_name f _ hf (by rfl), lexC_lit _ _ (by decide +kernel), lexC_lit _ _ (by decide +kernel), lexC_name x _ hx (by rfl),
      lex_open, lex_and, lex_callEnd]
    rfl
  | false => by
    show lexC (f ++ ['('] ++ ([] ++ x) ++ ");".toList) = _
    have e : f ++ ['('] ++ ([] ++ x) ++ ");".toList = f ++ (['('] ++ (x ++ ");".toList)) := by
      simp only [List.append_assoc, List.nil_append]
    rw [e, lexC_name f _ hf (by rfl), lexC_lit _ _ (by decide +kernel), lexC_name x _ hx (by rfl), lex_open, lex_callEnd]
    rfl

/-- The names in a body are identifiers. -/
def ComBody.Words : ComBody → Prop
  | .send arg x _ f => CIdent arg ∧ CIdent x ∧ CIdent f
  | .receive f arg => CIdent f ∧ CIdent arg

/-- The statements of a body. -/
def ComBody.stmts : ComBody → List ComStmt
  | .send arg x true f => [.cond (.memDiffer arg x x) [.copy x arg x, .call f x true]]
  | .send arg x false f => [.cond (.differ arg x) [.assign x arg, .call f x false]]
  | .receive f arg => [.simple (.call f arg false)]

theorem ident_not_if {f : Str} (h : CIdent f) : CTok.word f ≠ kw "if" := by
  intro e
  have : f = "if".toList := by injection e
  subst this
  revert h
  decide +kernel

/-- The lines of a body, read. -/
theorem readComStmts_lines (b : ComBody) (h : b.Words) : readComStmts .outside (b.lines.map lexC) = some b.stmts := by
  cases b with
  | send arg x ref f =>
    obtain ⟨ha, hx, hf⟩ := h
    simp only [ComBody.lines, List.map_cons, List.map_nil, lexC_indent, lex_cond arg x ha.1 hx.1, lex_storeText arg x ha.1 hx.1,
      lex_callText f x hf.1 hx.1, lex_brace, lex_brace']
    cases ref with
    | true =>
      simp only [if_true]
      rw [readComStmts, if_neg (by rw [lex_return]; simp [kw]), List.head?_cons, if_pos rfl]
      simp only [readComCond, kw, ha, hx, and_self, if_true, Option.bind_some]
      rw [readComStmts, if_pos rfl, readComStmts, if_neg (by simp)]
      simp only [readComSimple, kw, ha, hx, and_self, if_true, Option.bind_some]
      rw [readComStmts, if_neg (by simp)]
      simp only [readComSimple, hf, hx, and_self, if_true, Option.bind_some]
      rw [readComStmts, if_pos rfl, readComStmts, if_pos rfl, if_pos rfl]
      rfl
    | false =>
      simp only [Bool.false_eq_true, if_false]
      rw [readComStmts, if_neg (by rw [lex_return]; simp [kw]), List.head?_cons, if_pos rfl]
      simp only [readComCond, kw, ha, hx, and_self, if_true, Option.bind_some]
      rw [readComStmts, if_pos rfl, readComStmts, if_neg (by simp)]
      simp only [readComSimple, ha, hx, and_self, if_true, Option.bind_some]
      rw [readComStmts, if_neg (by simp)]
      simp only [readComSimple, hf, hx, and_self, if_true, Option.bind_some]
      rw [readComStmts, if_pos rfl, readComStmts, if_pos rfl, if_pos rfl]
      rfl
  | receive f arg =>
    obtain ⟨hf, ha⟩ := h
    simp only [ComBody.lines, List.map_cons, List.map_nil, lexC_indent, lex_callText f arg hf.1 ha.1]
    simp only [Bool.false_eq_true, if_false]
    rw [readComStmts, if_neg (by rw [lex_return]; simp [kw]), if_neg]
    · simp only [readComSimple, hf, ha, and_self, if_true, Option.bind_some]
      rw [readComStmts, if_pos rfl, if_pos rfl]
      rfl
    · simp only [List.head?_cons, Option.some.injEq]
      exact ident_not_if hf

/-! ### The file -/

/-- These lines are read as these declarations, whatever follows. -/
def ComReads (ls : List Str) (items : List ComItem) : Prop :=
  ∀ rest, readComItems .top (ls ++ rest) = (readComItems .top rest).map fun r => items ++ r

theorem comReads_nil : ComReads [] [] := fun rest => by
  show readComItems .top rest = _
  cases readComItems .top rest <;> rfl

theorem ComReads.append {a b : List Str} {x y : List ComItem} (ha : ComReads a x) (hb : ComReads b y) : ComReads (a ++ b) (x ++ y) := by
  intro rest
  rw [List.append_assoc, ha, hb, Option.map_map]
  congr 1
  funext r
  simp

theorem comReads_skip {l : Str} (h : cSkipped l = true) : ComReads [l] [] := by
  intro rest
  show (if cSkipped l = true then readComItems .top rest else _) = _
  rw [if_pos h]
  cases readComItems .top rest <;> rfl

theorem comReads_skips : ∀ ls : List Str, (∀ l ∈ ls, cSkipped l = true) → ComReads ls []
  | [], _ => comReads_nil
  | l :: ls, h => ComReads.append (a := [l]) (comReads_skip (h l (by simp))) (comReads_skips ls (fun x hx => h x (List.mem_cons_of_mem _ hx)))

theorem comReads_flatten {α : Type} (f : α → List Str) (g : α → ComItem) : ∀ l : List α, (∀ x ∈ l, ComReads (f x) [g x]) →
    ComReads (l.map f).flatten (l.map g)
  | [], _ => comReads_nil
  | x :: l, h => (h x (by simp)).append (comReads_flatten f g l (fun y hy => h y (List.mem_cons_of_mem _ hy)))

theorem takeWhile_before {c : Char} (b : Str) : ∀ a : Str, c ∉ a → (a ++ c :: b).takeWhile (fun x => decide (x ≠ c)) = a ∧
    (a ++ c :: b).dropWhile (fun x => decide (x ≠ c)) = c :: b
  | [], _ => by simp
  | x :: a, h => by
    have hx : x ≠ c := fun e => h (by simp [e])
    obtain ⟨h1, h2⟩ := takeWhile_before b a (fun hm => h (List.mem_cons_of_mem _ hm))
    simp only [ne_eq, decide_not] at h1 h2 ⊢
    constructor
    · rw [List.cons_append, List.takeWhile_cons_of_pos (by simpa using hx), h1]
    · rw [List.cons_append, List.dropWhile_cons_of_pos (by simpa using hx), h2]

theorem word_noEq {w : Str} (h : CWord w) : '=' ∉ w := fun hm => by
  have := h.2 _ hm
  revert this
  decide

/-- A text that can stand for an initializer: it is on one line and does not begin with a blank. -/
def InitText (i : Str) : Prop := Flat i ∧ i.head? ≠ some ' '

theorem lex_static (b : Str) : lexC ("static ".toList ++ b) = kw "static" :: lexC b := by
  rw [lexC_lit _ _ (by decide +kernel), show lexC "static ".toList = [kw "static"] by decide +kernel]
  rfl

theorem readVariable_line (init : Str → Str) (x : Str × Str) (h1 : CIdent x.1) (h2 : CIdent x.2) (hi : InitText (init x.1)) :
    readVariable (comVarLine init x) = some (.var x.2 x.1 (init x.1)) := by
  obtain ⟨n, t⟩ := x
  have e : comVarLine init (n, t) = ("static ".toList ++ (t ++ ' ' :: (n ++ [' ']))) ++ '=' :: (' ' :: init n ++ [';']) := by
    unfold comVarLine
    rw [show " = ".toList = [' ', '=', ' '] by decide +kernel]
    simp
  have hne : '=' ∉ "static ".toList ++ (t ++ ' ' :: (n ++ [' '])) := by
    simp only [List.mem_append, List.mem_cons, List.not_mem_nil, or_false, not_or]
    exact ⟨by decide +kernel, word_noEq h2.1, by decide, word_noEq h1.1, by decide⟩
  obtain ⟨w1, w2⟩ := takeWhile_before (' ' :: init n ++ [';']) _ hne
  have hl : lexC ("static ".toList ++ (t ++ ' ' :: (n ++ [' ']))) = [kw "static", .word t, .word n] := by
    rw [lex_static, lexC_blank t _ h2.1, lexC_blank n [] h1.1]
    rfl
  unfold readVariable
  rw [e, w1, w2, hl]
  show (if "static".toList = "static".toList ∧ _ then _ else _) = _
  rw [if_pos ⟨rfl, h2, h1, List.getLast?_concat⟩, List.dropLast_concat]
  congr 2
  have hh := hi.2
  simp only at hh
  rw [List.dropWhile_cons_of_pos (by decide)]
  cases hc : init n with
  | nil => rfl
  | cons c r =>
    rw [hc] at hh
    rw [List.dropWhile_cons_of_neg]
    intro he
    exact hh (by simp at he; simp [he])

theorem comReads_var (init : Str → Str) (x : Str × Str) (h1 : CIdent x.1) (h2 : CIdent x.2) (hi : InitText (init x.1)) :
    ComReads [comVarLine init x] [.var x.2 x.1 (init x.1)] := by
  intro rest
  have hs : ∃ b, comVarLine init x = "static ".toList ++ b := ⟨_, by unfold comVarLine; simp only [List.append_assoc]; rfl⟩
  have hskip : cSkipped (comVarLine init x) = false := by
    obtain ⟨b, hb⟩ := hs
    rw [hb, show "static ".toList = "static".toList ++ [' '] by decide +kernel, List.append_assoc]
    exact word_not_skipped (by decide +kernel)
  have hlex : (lexC (comVarLine init x)).head? = some (kw "static") := by
    obtain ⟨b, hb⟩ := hs
    rw [hb, lex_static]
    rfl
  show (if cSkipped (comVarLine init x) = true then _ else if (lexC (comVarLine init x)).head? = some (kw "static") then
    (readVariable (comVarLine init x)).bind fun i => (readComItems .top rest).map fun r => i :: r else _) = _
  rw [if_neg (by rw [hskip]; decide), if_pos hlex, readVariable_line init x h1 h2 hi]
  rfl

theorem readComItems_body (p : CProto) (rest : List Str) : ∀ (ls acc : List Str), (∀ l ∈ ls, l ≠ ['}']) →
    readComItems (.body p acc) (ls ++ ['}'] :: rest) = (readComItems .top rest).map fun r => .func p (acc ++ ls) :: r
  | [], acc, _ => by
    show (if ['}'] = ['}'] then _ else _) = _
    rw [if_pos rfl]
    simp
  | l :: ls, acc, h => by
    have ih := readComItems_body p rest ls (acc ++ [l]) (fun x hx => h x (List.mem_cons_of_mem _ hx))
    show (if l = ['}'] then _ else readComItems (.body p (acc ++ [l])) (ls ++ ['}'] :: rest)) = _
    rw [if_neg (h l (by simp)), ih]
    simp

theorem comReads_func (p : CProto) (hp : p.Words) (ls : List Str) (h : ∀ l ∈ ls, l ≠ ['}']) :
    ComReads ([p.text, ['{']] ++ ls ++ [['}']]) [.func p ls] := by
  intro rest
  obtain ⟨s, hs⟩ := proto_text_split p
  have hskip : cSkipped p.text = false := by
    rw [hs]
    exact word_not_skipped (typeName_word hp.2.1)
  have hr := readHead_text p hp
  obtain ⟨r, h1, h2⟩ := readHead_word hr
  have hst : (lexC p.text).head? ≠ some (kw "static") := by
    rw [h1]
    simp only [List.head?_cons, ne_eq, Option.some.injEq]
    intro e
    have e : p.result.base = "static".toList := by
      have : CTok.word p.result.base = CTok.word "static".toList := e
      injection this
    rw [show ((p, ([] : List CTok)).1.result.base) = p.result.base from rfl, e] at h2
    revert h2
    decide +kernel
  show (if cSkipped p.text = true then _ else if (lexC p.text).head? = some (kw "static") then _ else
    (readHead (lexC p.text)).bind fun x => if x.2 = [] then readComItems (.head x.1) (['{'] :: (ls ++ [['}']] ++ rest)) else none) = _
  rw [if_neg (by rw [hskip]; decide), if_neg hst, hr, Option.bind_some, if_pos rfl]
  show (if ['{'] = ['{'] then readComItems (.body p []) (ls ++ [['}']] ++ rest) else _) = _
  rw [if_pos rfl, List.append_assoc]
  exact readComItems_body p rest ls [] h

theorem comBody_lines_ne (b : ComBody) : ∀ l ∈ b.lines, l ≠ ['}'] := by
  have key : ∀ n s, indentBy (n + 1) s ≠ ['}'] := fun n s e => by
    have : ' ' :: (List.replicate n ' ' ++ s) = ['}'] := e
    injection this with h
    revert h
    decide
  intro l hl
  cases b <;> simp only [ComBody.lines, List.mem_cons, List.not_mem_nil, or_false] at hl
  · rcases hl with rfl | rfl | rfl | rfl | rfl | rfl <;> exact key _ _
  · rcases hl with rfl | rfl <;> exact key _ _

theorem comReads_def (d : ComDef) (hp : d.proto.Words) : ComReads d.lines [.func d.proto d.body.lines] := by
  have := ComReads.append (a := [[]]) (comReads_skip (by decide)) (comReads_func d.proto hp d.body.lines (comBody_lines_ne d.body))
  simpa [ComDef.lines] using this

/-- The declarations of a source. -/
def ComSource.items (init : Str → Str) (s : ComSource) : List ComItem :=
  s.vars.map (fun x => .var x.2 x.1 (init x.1)) ++ s.defs.map fun d => .func d.proto d.body.lines

theorem flat_cond {a x : Str} (ha : Flat a) (hx : Flat x) : ∀ ref, Flat (comCondText a x ref)
  | true => by
    unfold comCondText comOperand
    rw [if_pos rfl]
    flat_text
  | false => by
    unfold comCondText
    flat_text

theorem flat_store {a x : Str} (ha : Flat a) (hx : Flat x) : ∀ ref, Flat (comStoreText a x ref)
  | true => by
    unfold comStoreText comOperand
    rw [if_pos rfl]
    flat_text
  | false => by
    unfold comStoreText
    flat_text

theorem flat_callText {f x : Str} (hf : Flat f) (hx : Flat x) (ref : Bool) : Flat (comCallText f ref x) := by
  have h : Flat (if ref then ['&'] else []) := by cases ref <;> decide
  unfold comCallText comOperand
  flat_text

theorem flat_body (b : ComBody) (h : b.Words) : ∀ l ∈ b.lines, Flat l := by
  intro l hl
  cases b with
  | send arg x ref f =>
    obtain ⟨ha, hx, hf⟩ := h
    have ha := flat_word ha.1
    have hx := flat_word hx.1
    have hf := flat_word hf.1
    rw [ComBody.lines] at hl
    simp only [List.mem_cons, List.not_mem_nil, or_false] at hl
    rcases hl with rfl | rfl | rfl | rfl | rfl | rfl
    · exact flat_indent _ (flat_cond ha hx ref)
    · exact flat_indent _ (by decide)
    · exact flat_indent _ (flat_store ha hx ref)
    · exact flat_indent _ (flat_callText hf hx ref)
    · exact flat_indent _ (by decide)
    · exact flat_indent _ (by decide +kernel)
  | receive f arg =>
    obtain ⟨hf, ha⟩ := h
    rw [ComBody.lines] at hl
    simp only [List.mem_cons, List.not_mem_nil, or_false] at hl
    rcases hl with rfl | rfl
    · exact flat_indent _ (flat_callText (flat_word hf.1) (flat_word ha.1) false)
    · exact flat_indent _ (by decide +kernel)

/-- Names and initializers that can be used in the source. -/
structure ComSource.Words (init : Str → Str) (s : ComSource) : Prop where
  includes : ∀ i ∈ s.includes, Flat i
  vars : ∀ x ∈ s.vars, CIdent x.1 ∧ CIdent x.2 ∧ InitText (init x.1)
  defs : ∀ d ∈ s.defs, d.proto.Words ∧ d.body.Words
  once : (s.vars.map Prod.fst ++ s.defs.map fun d => d.proto.name).Nodup

/-- The source, read. -/
theorem readComSource_text (init : Str → Str) (s : ComSource) (h : s.Words init) : readComSource (s.text init) = some (s.items init) := by
  unfold readComSource ComSource.text
  rw [cLines_fileText]
  · have h1 := comReads_skips _ (skip_commentHeader "INCLUDES".toList)
    have h2 := comReads_skips ((s.includes.take 1).map sysincludeLine) (fun l hl => by
      obtain ⟨i, -, rfl⟩ := List.mem_map.1 hl
      exact skip_sysinclude i)
    have h3 := comReads_skips ((s.includes.drop 1).map includeLine) (fun l hl => by
      obtain ⟨i, -, rfl⟩ := List.mem_map.1 hl
      exact skip_include i)
    have hb : ComReads [[]] [] := comReads_skip (by decide)
    have h4 := comReads_skips _ (skip_commentHeader "CONSTANTS AND DATA TYPES".toList)
    have h5 := comReads_skips _ (skip_commentHeader "LOCAL FUNCTION PROTOTYPES".toList)
    have h6 := comReads_skips _ (skip_commentHeader "LOCAL VARIABLES".toList)
    have h7 : ComReads (s.vars.map (comVarLine init)) (s.vars.map fun x => .var x.2 x.1 (init x.1)) := by
      have := comReads_flatten (fun x => [comVarLine init x]) (fun x => .var x.2 x.1 (init x.1)) s.vars
        (fun x hx => comReads_var init x (h.vars x hx).1 (h.vars x hx).2.1 (h.vars x hx).2.2)
      rwa [show (s.vars.map fun x => [comVarLine init x]).flatten = s.vars.map (comVarLine init) by
        clear this
        induction s.vars with
        | nil => rfl
        | cons x l ih => rw [List.map_cons, List.flatten_cons, ih]; rfl] at this
    have h8 := comReads_skips _ (skip_commentHeader "GLOBAL FUNCTIONS".toList)
    have h9 := comReads_flatten ComDef.lines (fun d => .func d.proto d.body.lines) s.defs (fun d hd => comReads_def d (h.defs d hd).1)
    have := ((((((((((((h1.append h2).append h3).append hb).append h4).append hb).append h5).append hb).append h6).append h7).append hb).append
      h8).append h9) []
    rw [List.append_nil] at this
    rw [this]
    simp only [List.nil_append, List.append_nil, readComItems, Option.map_some, Option.bind_some]
    rw [if_pos]
    · rfl
    · rw [List.map_append, List.map_map, List.map_map]
      exact h.once
  · intro l hl
    simp only [List.mem_append] at hl
    rcases hl with (((((((((((hl | hl) | hl) | hl) | hl) | hl) | hl) | hl) | hl) | hl) | hl) | hl) | hl
    · exact flat_commentHeader (by decide +kernel) l hl
    · obtain ⟨i, hm, rfl⟩ := List.mem_map.1 hl
      have := h.includes i (List.mem_of_mem_take hm)
      unfold sysincludeLine
      flat_text
    · obtain ⟨i, hm, rfl⟩ := List.mem_map.1 hl
      have := h.includes i (List.mem_of_mem_drop hm)
      unfold includeLine
      flat_text
    · rw [List.mem_singleton.1 hl]; decide
    · exact flat_commentHeader (by decide +kernel) l hl
    · rw [List.mem_singleton.1 hl]; decide
    · exact flat_commentHeader (by decide +kernel) l hl
    · rw [List.mem_singleton.1 hl]; decide
    · exact flat_commentHeader (by decide +kernel) l hl
    · obtain ⟨x, hm, rfl⟩ := List.mem_map.1 hl
      obtain ⟨k1, k2, k3, -⟩ := h.vars x hm
      have k1 := flat_word k1.1
      have k2 := flat_word k2.1
      unfold comVarLine
      flat_text
    · rw [List.mem_singleton.1 hl]; decide
    · exact flat_commentHeader (by decide +kernel) l hl
    · obtain ⟨x, hm, hl⟩ := List.mem_flatten.1 hl
      obtain ⟨d, hd, rfl⟩ := List.mem_map.1 hm
      simp only [ComDef.lines, List.mem_append, List.mem_cons, List.not_mem_nil, or_false] at hl
      rcases hl with ((rfl | rfl | rfl) | hl) | rfl
      · decide
      · exact flat_proto (h.defs d hd).1
      · decide
      · exact flat_body _ (h.defs d hd).2 l hl
      · decide

/-- The header, read. -/
theorem readComHeader_text (guard : Str) (h : ComHeader) (hg : CIdent guard) (hi : ∀ i ∈ h.includes, Flat i) (hp : ∀ p ∈ h.protos, p.Words) :
    readHeader (h.text guard) = some (guard, h.protos) := by
  have hskip : ∀ l ∈ ([] :: (commentHeader "INCLUDES".toList ++ h.includes.map includeLine ++ [[]] ++
      commentHeader "CONSTANTS AND DATA TYPES".toList ++ [[]] ++ commentHeader "GLOBAL FUNCTIONS".toList) : List Str), cSkipped l = true := by
    intro l hl
    simp only [List.mem_append, List.mem_cons, List.not_mem_nil, or_false] at hl
    rcases hl with rfl | ((((hl | hl) | rfl) | hl) | rfl) | hl
    · rfl
    · exact skip_commentHeader _ l hl
    · obtain ⟨i, -, rfl⟩ := List.mem_map.1 hl
      exact skip_include _
    · rfl
    · exact skip_commentHeader _ l hl
    · rfl
    · exact skip_commentHeader _ l hl
  unfold readHeader ComHeader.text
  rw [cLines_fileText, readGuard_guarded _ hg, Option.bind_some]
  · have e : ([] :: (commentHeader "INCLUDES".toList ++ h.includes.map includeLine ++ [[]] ++
        commentHeader "CONSTANTS AND DATA TYPES".toList ++ [[]] ++ commentHeader "GLOBAL FUNCTIONS".toList ++
        h.protos.map CProto.line) ++ [[]] : List Str) =
        ([] :: (commentHeader "INCLUDES".toList ++ h.includes.map includeLine ++ [[]] ++
        commentHeader "CONSTANTS AND DATA TYPES".toList ++ [[]] ++ commentHeader "GLOBAL FUNCTIONS".toList)) ++
        (h.protos.map CProto.line ++ [[]]) := by
      simp only [List.append_assoc, List.cons_append, List.nil_append]
    show (readProtos ([] :: (commentHeader "INCLUDES".toList ++ h.includes.map includeLine ++ [[]] ++
      commentHeader "CONSTANTS AND DATA TYPES".toList ++ [[]] ++ commentHeader "GLOBAL FUNCTIONS".toList ++
      h.protos.map CProto.line) ++ [[]])).map _ = _
    rw [e, readProtos_skips _ _ hskip, readProtos_lines _ _ hp]
    show some _ = _
    simp
  · apply flat_guarded (flat_word hg.1)
    intro x hx
    simp only [List.mem_append] at hx
    rcases hx with (((((hx | hx) | hx) | hx) | hx) | hx) | hx
    · exact flat_commentHeader (by decide +kernel) x hx
    · obtain ⟨i, hm, rfl⟩ := List.mem_map.1 hx
      have := hi i hm
      unfold includeLine
      flat_text
    · rw [List.mem_singleton.1 hx]; decide
    · exact flat_commentHeader (by decide +kernel) x hx
    · rw [List.mem_singleton.1 hx]; decide
    · exact flat_commentHeader (by decide +kernel) x hx
    · obtain ⟨p, hm, rfl⟩ := List.mem_map.1 hx
      exact flat_line (hp p hm)

end Apx
