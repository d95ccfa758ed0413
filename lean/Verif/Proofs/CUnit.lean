import Verif.Spec.CUnit
import Verif.Props.GenPrint

/-! The lines of generated source files. -/

namespace Apx

/-! ### Lines -/

/-- A text without line feed. -/
def Flat (s : Str) : Prop := '\n' ∉ s

instance (s : Str) : Decidable (Flat s) := inferInstanceAs (Decidable (_ ∉ _))

theorem flat_append {a b : Str} (ha : Flat a) (hb : Flat b) : Flat (a ++ b) := by
  intro h
  rcases List.mem_append.1 h with h | h
  · exact ha h
  · exact hb h

theorem flat_cons {c : Char} {a : Str} (hc : c ≠ '\n') (ha : Flat a) : Flat (c :: a) := by
  intro h
  rcases List.mem_cons.1 h with h | h
  · exact hc h.symm
  · exact ha h

theorem flat_wordChars {s : Str} (h : WordChars s) : Flat s := by
  intro hm
  have := h _ hm
  revert this
  decide +kernel

theorem flat_word {s : Str} (h : CWord s) : Flat s := flat_wordChars h.2

theorem flat_natStr (n : Nat) : Flat (natStr n) := flat_word (cWord_natStr n)

theorem flat_decText (n : Int) : Flat (decText n) := by
  unfold decText intStr
  split
  · exact flat_cons (c := '-') (by decide) (flat_natStr _)
  · exact flat_natStr _

theorem flat_indent (n : Nat) {s : Str} (h : Flat s) : Flat (indentBy n s) := by
  refine flat_append ?_ h
  intro hm
  have := (List.mem_replicate.1 hm).2
  revert this
  decide

theorem flat_cname (t : IntT) : Flat t.cname := flat_word (cWord_cname t)

theorem cLines_line (t : Str) : ∀ l : Str, Flat l → cLines (l ++ '\n' :: t) = l :: cLines t
  | [], _ => rfl
  | c :: l, h => by
    have hc : c ≠ '\n' := fun e => h (by rw [e]; exact List.mem_cons_self ..)
    have ih := cLines_line t l (fun hm => h (List.mem_cons_of_mem _ hm))
    show (if c = '\n' then _ else consLine c (cLines (l ++ '\n' :: t))) = _
    rw [if_neg hc, ih]
    rfl

theorem cLines_fileText : ∀ ls : List Str, (∀ l ∈ ls, Flat l) → cLines (fileText ls) = ls
  | [], _ => rfl
  | l :: ls, h => by
    have ih := cLines_fileText ls (fun x hx => h x (List.mem_cons_of_mem _ hx))
    have : fileText (l :: ls) = l ++ '\n' :: fileText ls := by simp [fileText]
    rw [this, cLines_line _ l (h l (by simp)), ih]

/-- The last line is followed by a semicolon. -/
def endSemi : List Str → List Str
  | [] => [[';']]
  | [a] => [a ++ [';']]
  | a :: b :: l => a :: endSemi (b :: l)

theorem fileText_endSemi : ∀ l : List Str, fileText [joinLines l ++ [';']] = fileText (endSemi l)
  | [] => rfl
  | [a] => rfl
  | a :: b :: l => by
    have ih := fileText_endSemi (b :: l)
    simp only [fileText, List.map_cons, List.map_nil, List.flatten_cons, List.flatten_nil, joinLines, endSemi] at *
    rw [← ih]
    simp

theorem joinLines_endSemi : ∀ l : List Str, joinLines (endSemi l) = joinLines l ++ [';']
  | [] => rfl
  | [a] => rfl
  | a :: b :: l => by
    have ih := joinLines_endSemi (b :: l)
    have hne : ∃ x y, endSemi (b :: l) = x :: y := by
      cases l <;> exact ⟨_, _, rfl⟩
    obtain ⟨x, y, hxy⟩ := hne
    show joinLines (a :: endSemi (b :: l)) = a ++ '\n' :: joinLines (b :: l) ++ [';']
    rw [hxy] at ih ⊢
    show a ++ '\n' :: joinLines (x :: y) = _
    rw [ih]
    simp

theorem endSemi_mem : ∀ (l : List Str) (x : Str), x ∈ endSemi l → x ∈ l ∨ x = [';'] ∨ ∃ y ∈ l, x = y ++ [';']
  | [], x, h => .inr (.inl (List.mem_singleton.1 h))
  | [a], x, h => .inr (.inr ⟨a, by simp, List.mem_singleton.1 h⟩)
  | a :: b :: l, x, h => by
    rcases List.mem_cons.1 h with rfl | h
    · exact .inl (by simp)
    · rcases endSemi_mem (b :: l) x h with h | h | ⟨y, h1, h2⟩
      · exact .inl (List.mem_cons_of_mem _ h)
      · exact .inr (.inl h)
      · exact .inr (.inr ⟨y, List.mem_cons_of_mem _ h1, h2⟩)

/-! ### Reading pieces of a file -/

/-- These lines are read as these declarations, whatever follows. -/
def Reads (ls : List Str) (items : List CItem) : Prop :=
  ∀ rest, readItems .top (ls ++ rest) = (readItems .top rest).map fun r => items ++ r

theorem reads_nil : Reads [] [] := fun rest => by
  show readItems .top rest = _
  cases readItems .top rest <;> rfl

theorem Reads.append {a b : List Str} {x y : List CItem} (ha : Reads a x) (hb : Reads b y) : Reads (a ++ b) (x ++ y) := by
  intro rest
  rw [List.append_assoc, ha, hb, Option.map_map]
  congr 1
  funext r
  simp

theorem Reads.cons {a : Str} {b : List Str} {x y : List CItem} (ha : Reads [a] x) (hb : Reads b y) : Reads (a :: b) (x ++ y) :=
  Reads.append (a := [a]) ha hb

theorem reads_skip {l : Str} (h : cSkipped l = true) : Reads [l] [] := by
  intro rest
  show (if cSkipped l = true then readItems .top rest else _) = _
  rw [if_pos h]
  cases readItems .top rest <;> rfl

theorem reads_skips : ∀ ls : List Str, (∀ l ∈ ls, cSkipped l = true) → Reads ls []
  | [], _ => reads_nil
  | l :: ls, h => Reads.cons (reads_skip (h l (by simp))) (reads_skips ls (fun x hx => h x (List.mem_cons_of_mem _ hx)))

theorem reads_map {α : Type} (f : α → Str) (g : α → CItem) : ∀ l : List α, (∀ x ∈ l, Reads [f x] [g x]) → Reads (l.map f) (l.map g)
  | [], _ => reads_nil
  | x :: l, h => Reads.cons (h x (by simp)) (reads_map f g l (fun y hy => h y (List.mem_cons_of_mem _ hy)))

theorem reads_flatten {α : Type} (f : α → List Str) (g : α → CItem) : ∀ l : List α, (∀ x ∈ l, Reads (f x) [g x]) →
    Reads (l.map f).flatten (l.map g)
  | [], _ => reads_nil
  | x :: l, h => (h x (by simp)).append (reads_flatten f g l (fun y hy => h y (List.mem_cons_of_mem _ hy)))

theorem reads_item {l : Str} {i : CItem} (h1 : cSkipped l = false) (h2 : readDecl (lexC l) = some (.inr i)) : Reads [l] [i] := by
  intro rest
  show (if cSkipped l = true then _ else match readDecl (lexC l) with
    | some (.inl p) => readItems p rest
    | some (.inr i) => (readItems .top rest).map fun r => i :: r
    | none => none) = _
  rw [if_neg (by rw [h1]; decide), h2]
  rfl

theorem readItems_place {l : Str} {p : CPlace} (h1 : cSkipped l = false) (h2 : readDecl (lexC l) = some (.inl p)) (rest : List Str) :
    readItems .top (l :: rest) = readItems p rest := by
  show (if cSkipped l = true then _ else match readDecl (lexC l) with
    | some (.inl p) => readItems p rest
    | some (.inr i) => (readItems .top rest).map fun r => i :: r
    | none => none) = _
  rw [if_neg (by rw [h1]; decide), h2]

theorem readItems_body (p : CProto) (rest : List Str) : ∀ (ls acc : List Str), (∀ l ∈ ls, l ≠ ['}']) →
    readItems (.body p acc) (ls ++ ['}'] :: rest) = (readItems .top rest).map fun r => .func p (acc ++ ls) :: r
  | [], acc, _ => by
    show (if ['}'] = ['}'] then _ else _) = _
    rw [if_pos rfl]
    simp
  | l :: ls, acc, h => by
    have ih := readItems_body p rest ls (acc ++ [l]) (fun x hx => h x (List.mem_cons_of_mem _ hx))
    show (if l = ['}'] then _ else readItems (.body p (acc ++ [l])) (ls ++ ['}'] :: rest)) = _
    rw [if_neg (h l (by simp)), ih]
    simp

/-- A line that begins with a letter is read. -/
theorem not_skipped {l : Str} (h : ∃ c s, l = c :: s ∧ c ≠ '/' ∧ (c = '#' → s.head? ≠ some 'i')) : cSkipped l = false := by
  obtain ⟨c, s, rfl, h1, h2⟩ := h
  have e1 : "//".toList = ['/', '/'] := by decide +kernel
  have e2 : "#include ".toList = ['#', 'i', 'n', 'c', 'l', 'u', 'd', 'e', ' '] := by decide +kernel
  have e3 : "/*".toList = ['/', '*'] := by decide +kernel
  simp only [cSkipped, decide_eq_false_iff_not]
  rintro (h | h | h | ⟨h, -⟩)
  · cases h
  · rw [e1] at h
    cases s with
    | nil => simp at h
    | cons d s => simp at h; exact h1 h.1
  · rw [e2] at h
    cases s with
    | nil => simp at h
    | cons d s =>
      simp at h
      exact h2 h.1 (by simp [h.2.1])
  · rw [e3] at h
    cases s with
    | nil => simp at h
    | cons d s => simp at h; exact h1 h.1

theorem word_not_skipped {w s : Str} (h : CWord w) : cSkipped (w ++ s) = false := by
  obtain ⟨h1, h2⟩ := h
  cases w with
  | nil => exact absurd rfl h1
  | cons c w =>
    have hc := h2 c (by simp)
    refine not_skipped ⟨c, w ++ s, rfl, ?_, ?_⟩
    · rintro rfl
      revert hc
      decide +kernel
    · rintro rfl
      exact absurd hc (by decide +kernel)

theorem proto_text_split (p : CProto) : ∃ s, p.text = p.result.base ++ s := by
  refine ⟨(if p.result.pointer then " * ".toList else " ".toList) ++ p.name ++ ['('] ++
    (if p.params = [] then "void".toList else joinItems (p.params.map CParam.text)) ++ [')'], ?_⟩
  simp [CProto.text]

theorem readHead_word {ts : List CTok} {x : CProto × List CTok} (h : readHead ts = some x) :
    ∃ r, ts = .word x.1.result.base :: r ∧ CTypeName x.1.result.base := by
  unfold readHead at h
  have key : ∀ {y : CTy × List CTok}, readType ts = some y → ∃ r, ts = .word y.1.base :: r ∧ CTypeName y.1.base := by
    intro y hy
    unfold readType at hy
    split at hy
    · split at hy
      · rename_i ht
        cases hy
        exact ⟨_, rfl, ht⟩
      · cases hy
    · split at hy
      · rename_i ht
        cases hy
        exact ⟨_, rfl, ht⟩
      · cases hy
    · cases hy
  obtain ⟨⟨t, r⟩, h1, h⟩ := Option.bind_eq_some_iff.1 h
  obtain ⟨q, k1, k2⟩ := key h1
  dsimp only at h k1 k2
  have : x.1.result = t := by
    split at h
    · split at h
      · split at h
        · cases h
          rfl
        · obtain ⟨a, _, h⟩ := Option.bind_eq_some_iff.1 h
          cases h
          rfl
      · cases h
    · cases h
  rw [this]
  exact ⟨q, k1, k2⟩

theorem readDecl_proto (p : CProto) (h : p.Words) : readDecl (lexC p.text) = some (.inl (.head p)) := by
  have hr := readHead_text p h
  obtain ⟨r, h1, h2⟩ := readHead_word hr
  unfold readDecl
  rw [if_neg (by rw [h1]; simp), if_neg, hr]
  · rfl
  · rw [h1]
    simp only [List.head?_cons, Option.some.injEq]
    intro e
    have e : p.result.base = "static".toList := by
      have : CTok.word p.result.base = CTok.word "static".toList := e
      injection this
    rw [show ((p, ([] : List CTok)).1.result.base) = p.result.base from rfl, e] at h2
    revert h2
    decide +kernel

/-- A function is read with its head and the lines between its braces. -/
theorem reads_func (p : CProto) (hp : p.Words) (ls : List Str) (h : ∀ l ∈ ls, l ≠ ['}']) :
    Reads ([p.text, ['{']] ++ ls ++ [['}']]) [.func p ls] := by
  intro rest
  obtain ⟨s, hs⟩ := proto_text_split p
  have hskip : cSkipped p.text = false := by
    rw [hs]
    exact word_not_skipped (typeName_word hp.2.1)
  show readItems .top (p.text :: ['{'] :: (ls ++ [['}']] ++ rest)) = _
  rw [readItems_place hskip (readDecl_proto p hp)]
  show (if ['{'] = ['{'] then readItems (.body p []) (ls ++ [['}']] ++ rest) else _) = _
  rw [if_pos rfl, List.append_assoc]
  exact readItems_body p rest ls [] h

/-! ### Macros, arrays, literals -/

theorem readUnsigned_natStr (n : Nat) : readUnsigned (natStr n ++ ['u']) = some n := by
  unfold readUnsigned
  rw [if_pos (by simp), List.dropLast_concat, cNumber_natStr]

theorem cWord_unsigned (n : Nat) : CWord (natStr n ++ ['u']) := by
  have h := cWord_natStr n
  refine ⟨by simp, ?_⟩
  intro c hc
  rcases List.mem_append.1 hc with hc | hc
  · exact h.2 c hc
  · cases List.mem_singleton.1 hc
    decide +kernel

theorem reads_define (name : Str) (n : Nat) (h : CIdent name) : Reads [defineLine name n] [.define name n] := by
  have hl : lexC (defineLine name n) = [.sym '#', .word "define".toList, .word name, .word (natStr n ++ ['u'])] := by
    unfold defineLine
    have e : lexC "#define ".toList = [.sym '#', .word "define".toList] := by decide +kernel
    have e2 : lexC [' '] = [] := by decide +kernel
    simp only [List.append_assoc]
    rw [lexC_lit _ _ (by decide +kernel), e, lexC_name name _ h.1 (sep_append _ _ (by simp) (by decide +kernel)),
      lexC_lit _ _ (by decide +kernel), e2, List.nil_append, lexC_word _ (cWord_unsigned n)]
    rfl
  refine reads_item ?_ ?_
  · refine not_skipped ⟨'#', "define ".toList ++ name ++ [' '] ++ natStr n ++ ['u'], ?_, by decide, ?_⟩
    · unfold defineLine
      have : "#define ".toList = '#' :: "define ".toList := by decide +kernel
      rw [this]
      simp
    · intro _
      have : "define ".toList = 'd' :: "efine ".toList := by decide +kernel
      rw [this]
      simp
  · rw [hl]
    show (if "define".toList = "define".toList ∧ CIdent name then _ else _) = _
    rw [if_pos ⟨rfl, h⟩, readUnsigned_natStr]
    rfl

theorem flat_define (name : Str) (n : Nat) (h : Flat name) : Flat (defineLine name n) := by
  unfold defineLine
  exact flat_append (flat_append (flat_append (flat_append (by decide +kernel) h) (by decide +kernel)) (flat_natStr n)) (by decide +kernel)

/-- The tokens of numbers with commas between them. -/
def numberToks : List Nat → List CTok
  | [] => []
  | [a] => [.word (natStr a)]
  | a :: b :: l => .word (natStr a) :: .sym ',' :: numberToks (b :: l)

theorem readNumbers_toks : ∀ l : List Nat, l ≠ [] → readNumbers (numberToks l) = some l
  | [], h => (h rfl).elim
  | [a], _ => by
    show (cNumber (natStr a)).map _ = _
    rw [cNumber_natStr]
    rfl
  | a :: b :: l, _ => by
    have ih := readNumbers_toks (b :: l) (by simp)
    show (cNumber (natStr a)).bind _ = _
    rw [cNumber_natStr]
    show (readNumbers (numberToks (b :: l))).map _ = _
    rw [ih]
    rfl

theorem lexC_items (b : Str) (hb : Sep b) : ∀ l : List Nat, l ≠ [] → lexC (joinItems (l.map natStr) ++ b) = numberToks l ++ lexC b
  | [], h => (h rfl).elim
  | [a], _ => lexC_name _ _ (cWord_natStr a) hb
  | a :: c :: l, _ => by
    have ih := lexC_items b hb (c :: l) (by simp)
    show lexC (natStr a ++ ([',', ' '] ++ joinItems ((c :: l).map natStr)) ++ b) = _
    simp only [List.append_assoc]
    rw [lexC_name _ _ (cWord_natStr a) (sep_append _ _ (by simp) (by decide +kernel)), lexC_lit _ _ (by decide +kernel), lex_comma, ih]
    simp [numberToks]

theorem numberToks_append : ∀ (a b : List Nat), a ≠ [] → b ≠ [] → numberToks a ++ .sym ',' :: numberToks b = numberToks (a ++ b)
  | [], _, h, _ => (h rfl).elim
  | [x], b, _, hb => by
    cases b with
    | nil => exact (hb rfl).elim
    | cons y b => rfl
  | x :: y :: a, b, _, hb => by
    have ih := numberToks_append (y :: a) b (by simp) hb
    show .word (natStr x) :: .sym ',' :: (numberToks (y :: a) ++ .sym ',' :: numberToks b) = _
    rw [ih]
    rfl

theorem not_end (a : Nat) (l : List Nat) (ts : List CTok) : numberToks (a :: l) ++ ts ≠ lexC "};".toList := by
  have e : lexC "};".toList = [.sym '}', .sym ';'] := by decide +kernel
  rw [e]
  cases l <;> simp [numberToks]

/-- What has been read of an initializer before the next line. -/
def numbersBefore (acc : List Nat) : List CTok := if acc = [] then [] else numberToks acc ++ [.sym ',']

theorem readItems_numbers (n s : Str) (rest : List Str) : ∀ (items acc : List Nat), items ≠ [] →
    readItems (.numbers n s (numbersBefore acc)) (initLines (items.map natStr) ++ "};".toList :: rest) =
      (readItems .top rest).map fun r => .array n s (some (acc ++ items)) :: r := by
  intro items
  induction hk : items.length using Nat.strongRecOn generalizing items with
  | _ k ih =>
    intro acc hne
    obtain ⟨x, xs, hx⟩ : ∃ x xs, items = x :: xs := by
      cases items with
      | nil => exact (hne rfl).elim
      | cons x xs => exact ⟨x, xs, rfl⟩
    rw [initLines]
    by_cases hlen : (items.map natStr).length > 32
    · rw [if_pos hlen]
      have hlen' : 32 < items.length := by simpa using hlen
      have htake : items.take 32 ≠ [] := by rw [hx]; simp
      have hdrop : items.drop 32 ≠ [] := by
        intro e
        have := congrArg List.length e
        simp at this
        omega
      have hl : lexC (' ' :: ' ' :: ' ' :: (joinItems ((items.map natStr).take 32) ++ [','])) = numberToks (items.take 32) ++ [.sym ','] := by
        rw [lexC_other _ _ (by decide), if_pos rfl, lexC_other _ _ (by decide), if_pos rfl, lexC_other _ _ (by decide), if_pos rfl,
          ← List.map_take, lexC_items _ (by decide +kernel) _ htake]
        rfl
      have hend : lexC (' ' :: ' ' :: ' ' :: (joinItems ((items.map natStr).take 32) ++ [','])) ≠ lexC "};".toList := by
        rw [hl, hx]
        exact not_end _ _ _
      rw [List.cons_append]
      show (if lexC _ = lexC "};".toList then _ else readItems (.numbers n s ((numbersBefore acc) ++ lexC _)) _) = _
      rw [if_neg hend, hl, ← List.map_drop]
      have e : numbersBefore acc ++ (numberToks (items.take 32) ++ [.sym ',']) =
          numbersBefore (acc ++ items.take 32) := by
        unfold numbersBefore
        rw [if_neg (show ¬ acc ++ items.take 32 = [] from fun h => htake (List.append_eq_nil_iff.1 h).2)]
        by_cases ha : acc = []
        · subst ha
          simp
        · rw [if_neg ha, ← numberToks_append acc _ ha htake]
          simp
      rw [e, ih (items.drop 32).length (by rw [List.length_drop]; omega) (items.drop 32) rfl _ hdrop, List.append_assoc, List.take_append_drop]
    · rw [if_neg hlen, if_pos (by rw [hx]; simp)]
      have hl : lexC (' ' :: ' ' :: ' ' :: joinItems (items.map natStr)) = numberToks items := by
        rw [lexC_other _ _ (by decide), if_pos rfl, lexC_other _ _ (by decide), if_pos rfl, lexC_other _ _ (by decide), if_pos rfl]
        have := lexC_items [] (by decide +kernel) items hne
        rw [List.append_nil] at this
        rw [this]
        simp [lexC]
      have hend : lexC (' ' :: ' ' :: ' ' :: joinItems (items.map natStr)) ≠ lexC "};".toList := by
        rw [hl, hx]
        have := not_end x xs []
        rwa [List.append_nil] at this
      show (if lexC _ = lexC "};".toList then _ else
        (if lexC "};".toList = lexC "};".toList then (readNumbers ((numbersBefore acc) ++ lexC _)).bind _ else _)) = _
      rw [if_neg hend, if_pos rfl, hl]
      have e : numbersBefore acc ++ numberToks items = numberToks (acc ++ items) := by
        unfold numbersBefore
        by_cases ha : acc = []
        · subst ha
          simp
        · rw [if_neg ha, ← numberToks_append acc _ ha hne]
          simp
      rw [e, readNumbers_toks _ (by simp [hne])]
      rfl

end Apx
