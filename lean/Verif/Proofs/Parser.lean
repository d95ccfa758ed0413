import Verif.Spec.Parser
import Verif.Props.Node

namespace Apx

/-! ### Lines -/

theorem stripCommentGo_true (s : Str) (h : '\n' ∉ s) : stripCommentGo true s = [] := by
  induction s with
  | nil => rfl
  | cons c s ih =>
    simp only [List.mem_cons, not_or] at h
    simp only [stripCommentGo]
    rw [if_neg (fun e => h.1 e.symm), ih h.2]

theorem stripComment_line (s : Str) (h : '\n' ∉ s) : stripComment s = s.takeWhile (· != '#') := by
  unfold stripComment
  induction s with
  | nil => rfl
  | cons c s ih =>
    simp only [List.mem_cons, not_or] at h
    simp only [stripCommentGo]
    by_cases hc : c = '#'
    · subst hc
      rw [if_pos rfl, stripCommentGo_true s h.2]
      simp
    · rw [if_neg hc, ih h.2, List.takeWhile_cons_of_pos (by simpa using hc)]

theorem dropWhile_congr {α : Type} (p q : α → Bool) (l : List α) (h : ∀ x ∈ l, p x = q x) :
    l.dropWhile p = l.dropWhile q := by
  induction l with
  | nil => rfl
  | cons x l ih =>
    simp only [List.dropWhile_cons, h x (by simp), ih (fun y hy => h y (by simp [hy]))]

theorem rstrip_meaning (s : Str) (h : '\n' ∉ s) : rstripP isTrail (stripComment s) = meaning s := by
  rw [stripComment_line s h]
  unfold rstripP meaning rstripP
  congr 1
  apply dropWhile_congr
  intro x hx
  have hx : x ∈ s := by
    rw [List.mem_reverse] at hx
    exact (List.takeWhile_subset _) hx
  have : x ≠ '\n' := fun e => h (e ▸ hx)
  simp [isTrail, this]

/-- What the splitter makes of a line only depends on what it says. -/
def splitMeaning (m : Str) : Line :=
  if m.length = 0 then .blank
  else
    let kind := m.takeWhile isLineType
    if kind.isEmpty then .other m else splitRest kind (m.dropWhile isLineType)

theorem splitLine_meaning (s : Str) (h : '\n' ∉ s) : splitLine s = splitMeaning (meaning s) := by
  unfold splitLine
  simp only [rstrip_meaning s h]
  rfl

theorem splitRest_ne_blank (k r : Str) : splitRest k r ≠ .blank := by
  unfold splitRest
  simp only
  split
  · split <;> simp
  · simp

theorem splitMeaning_blank (m : Str) : splitMeaning m = .blank ↔ m = [] := by
  unfold splitMeaning
  by_cases h : m.length = 0
  · simp [List.length_eq_zero_iff.mp h]
  · rw [if_neg h]
    simp only
    constructor
    · intro he
      split at he
      · simp at he
      · exact absurd he (splitRest_ne_blank _ _)
    · intro he; simp [he] at h

theorem meaning_takeWhile (s : Str) : ∀ c ∈ meaning s, c ∈ s := by
  intro c hc
  unfold meaning rstripP at hc
  rw [List.mem_reverse] at hc
  have := (List.dropWhile_subset _) hc
  rw [List.mem_reverse] at this
  exact (List.takeWhile_subset _) this

theorem dropWhile_dropWhile {α : Type} (p q : α → Bool) (l : List α) (h : ∀ x, p x = true → q x = true) :
    (l.dropWhile p).dropWhile q = l.dropWhile q := by
  induction l with
  | nil => rfl
  | cons x l ih =>
    by_cases hp : p x = true
    · rw [List.dropWhile_cons_of_pos hp, ih, List.dropWhile_cons_of_pos (h x hp)]
    · rw [List.dropWhile_cons_of_neg hp]

theorem rstripP_append (p : Char → Bool) (a b : Str) (h : ∀ c ∈ b, p c = true) :
    rstripP p (a ++ b) = rstripP p a := by
  unfold rstripP
  rw [List.reverse_append]
  congr 1
  have hb : ∀ c ∈ b.reverse, p c = true := fun c hc => h c (List.mem_reverse.mp hc)
  generalize b.reverse = d at hb
  induction d with
  | nil => rfl
  | cons c d ih =>
    rw [List.cons_append, List.dropWhile_cons_of_pos (hb c (by simp)), ih (fun x hx => hb x (by simp [hx]))]

theorem takeWhile_append_all {α : Type} (p : α → Bool) (a b : List α) (h : ∀ x ∈ a, p x = true) :
    (a ++ b).takeWhile p = a ++ b.takeWhile p := by
  induction a with
  | nil => rfl
  | cons x a ih =>
    rw [List.cons_append, List.takeWhile_cons_of_pos (h x (by simp)), ih (fun y hy => h y (by simp [hy]))]
    rfl

theorem takeWhile_append_some {α : Type} (p : α → Bool) (a b : List α) (h : ∃ x ∈ a, p x = false) :
    (a ++ b).takeWhile p = a.takeWhile p := by
  induction a with
  | nil => simp at h
  | cons x a ih =>
    by_cases hp : p x = true
    · rw [List.cons_append, List.takeWhile_cons_of_pos hp, List.takeWhile_cons_of_pos hp]
      rw [ih]
      obtain ⟨y, hy, hpy⟩ := h
      rcases List.mem_cons.mp hy with rfl | hy
      · rw [hp] at hpy; simp at hpy
      · exact ⟨y, hy, hpy⟩
    · rw [List.cons_append, List.takeWhile_cons_of_neg hp, List.takeWhile_cons_of_neg hp]

/-- Blanks at the end of a line say nothing. -/
theorem meaning_blanks (l b : Str) (h : ∀ c ∈ b, c = ' ' ∨ c = '\r') : meaning (l ++ b) = meaning l := by
  unfold meaning
  by_cases hh : ∃ x ∈ l, (x != '#') = false
  · rw [takeWhile_append_some _ _ _ hh]
  · have hl : ∀ x ∈ l, (x != '#') = true := by
      intro x hx
      cases e : (x != '#') with
      | true => rfl
      | false => exact absurd ⟨x, hx, e⟩ hh
    have hb : ∀ x ∈ b, (x != '#') = true := by
      intro x hx
      rcases h x hx with rfl | rfl <;> rfl
    rw [takeWhile_append_all _ _ _ hl]
    have e1 : b.takeWhile (· != '#') = b := by simpa using takeWhile_append_all _ b [] hb
    have e2 : l.takeWhile (· != '#') = l := by simpa using takeWhile_append_all _ l [] hl
    rw [e1, e2, rstripP_append]
    intro c hc
    rcases h c hc with rfl | rfl <;> rfl

/-- A comment says nothing. -/
theorem meaning_comment (l c : Str) : meaning (l ++ '#' :: c) = meaning l := by
  unfold meaning
  by_cases hh : ∃ x ∈ l, (x != '#') = false
  · rw [takeWhile_append_some _ _ _ hh]
  · have hl : ∀ x ∈ l, (x != '#') = true := by
      intro x hx
      cases e : (x != '#') with
      | true => rfl
      | false => exact absurd ⟨x, hx, e⟩ hh
    have e2 : l.takeWhile (· != '#') = l := by simpa using takeWhile_append_all _ l [] hl
    rw [takeWhile_append_all _ _ _ hl, e2]
    simp

theorem rstripP_suffix (p : Char → Bool) (s : Str) : ∃ b, s = rstripP p s ++ b ∧ ∀ c ∈ b, p c = true := by
  unfold rstripP
  refine ⟨(s.reverse.takeWhile p).reverse, ?_, ?_⟩
  · rw [← List.reverse_append, List.takeWhile_append_dropWhile, List.reverse_reverse]
  · intro c hc
    rw [List.mem_reverse] at hc
    have : ∀ l : Str, ∀ c ∈ l.takeWhile p, p c = true := by
      intro l
      induction l with
      | nil => simp
      | cons x l ih =>
        intro c hc
        by_cases hx : p x = true
        · rw [List.takeWhile_cons_of_pos hx] at hc
          rcases List.mem_cons.mp hc with rfl | hc
          · exact hx
          · exact ih c hc
        · rw [List.takeWhile_cons_of_neg hx] at hc; simp at hc
    exact this _ c hc

theorem splitLine_rstripNewline (l : Str) (h : '\n' ∉ l) : splitLine (rstripNewline l) = splitLine l := by
  obtain ⟨b, hb, hp⟩ := rstripP_suffix isNewline l
  unfold rstripNewline
  have hn : '\n' ∉ rstripP isNewline l := fun hm => h (hb ▸ List.mem_append_left _ hm)
  rw [splitLine_meaning _ hn, splitLine_meaning _ h]
  have : meaning l = meaning (rstripP isNewline l ++ b) := by rw [← hb]
  rw [this, meaning_blanks]
  intro c hc
  have := hp c hc
  have hcl : c ≠ '\n' := fun e => h (hb ▸ List.mem_append_right _ (e ▸ hc))
  simp [isNewline, hcl] at this
  exact Or.inr this

/-! ### Lists of lines -/

theorem splitOn_ne_nil (c : Char) (s : Str) : splitOn c s ≠ [] := by
  cases s with
  | nil => simp [splitOn]
  | cons x s =>
    simp only [splitOn]
    split
    · simp
    · split <;> simp

theorem splitOn_oneLiners (s : Str) : OneLiners (splitOn '\n' s) := by
  induction s with
  | nil => intro l hl; simp [splitOn] at hl; subst hl; simp
  | cons c s ih =>
    intro l hl
    simp only [splitOn] at hl
    split at hl
    · rcases List.mem_cons.mp hl with rfl | hl
      · simp
      · exact ih l hl
    · rename_i hc
      split at hl
      · rename_i he; exact absurd he (splitOn_ne_nil _ _)
      · rename_i x xs he
        rw [he] at ih
        rcases List.mem_cons.mp hl with rfl | hl
        · have := ih x (by simp)
          simp only [List.mem_cons, not_or]
          exact ⟨fun e => hc e.symm, this⟩
        · exact ih l (by simp [hl])

theorem splitOn_joinLines (ls : List Str) (hne : ls ≠ []) (h : OneLiners ls) : splitOn '\n' (joinLines ls) = ls := by
  match ls with
  | [] => exact absurd rfl hne
  | [l] => exact splitOn_none _ _ (h l (by simp))
  | l :: m :: r =>
    simp only [joinLines]
    rw [splitOn_append _ _ _ (h l (by simp)), splitOn_joinLines (m :: r) (by simp)
      (fun x hx => h x (by simp only [List.mem_cons] at hx ⊢; exact Or.inr hx))]

theorem joinLines_snoc (ls : List Str) (hne : ls ≠ []) : joinLines (ls ++ [[]]) = joinLines ls ++ ['\n'] := by
  match ls with
  | [] => exact absurd rfl hne
  | [l] => rfl
  | l :: m :: r =>
    have := joinLines_snoc (m :: r) (by simp)
    simp only [List.cons_append, joinLines] at this ⊢
    rw [this]; simp

theorem joinLines_splitOn (s : Str) : joinLines (splitOn '\n' s) = s := by
  induction s with
  | nil => rfl
  | cons c s ih =>
    simp only [splitOn]
    split
    · rename_i hc
      cases hs : splitOn '\n' s with
      | nil => exact absurd hs (splitOn_ne_nil _ _)
      | cons x xs => rw [hs] at ih; simp [joinLines, ih, hc]
    · cases hs : splitOn '\n' s with
      | nil => exact absurd hs (splitOn_ne_nil _ _)
      | cons x xs =>
        rw [hs] at ih
        cases xs with
        | nil => simp only [joinLines] at ih ⊢; rw [ih]
        | cons y ys => simp only [joinLines] at ih ⊢; rw [← ih]; rfl

theorem isDigitChar_iff (c : Char) : isDigitChar c = true ↔ c ∈ "0123456789".toList := by
  show _ ↔ c ∈ ['0', '1', '2', '3', '4', '5', '6', '7', '8', '9']
  constructor
  · intro h
    simp only [isDigitChar, Bool.and_eq_true, decide_eq_true_eq] at h
    have hc : c = Char.ofNat c.toNat := (Char.ofNat_toNat c).symm
    generalize c.toNat = n at h hc
    obtain ⟨h1, h2⟩ := h
    have : n = 48 ∨ n = 49 ∨ n = 50 ∨ n = 51 ∨ n = 52 ∨ n = 53 ∨ n = 54 ∨ n = 55 ∨ n = 56 ∨ n = 57 := by omega
    rcases this with rfl | rfl | rfl | rfl | rfl | rfl | rfl | rfl | rfl | rfl <;> subst hc <;> decide
  · intro h
    simp only [List.mem_cons, List.not_mem_nil, or_false] at h
    rcases h with rfl | rfl | rfl | rfl | rfl | rfl | rfl | rfl | rfl | rfl <;> decide

theorem parseHeaderLine_iff (l : Str) : parseHeaderLine l ≠ none ↔ HeaderLine l := by
  unfold parseHeaderLine HeaderLine
  split
  · rename_i a b rest
    constructor
    · intro h
      split at h
      · rename_i hd
        simp only [Bool.and_eq_true] at hd
        exact ⟨a, b, rest, (isDigitChar_iff a).1 hd.1, (isDigitChar_iff b).1 hd.2, rfl⟩
      · simp at h
    · rintro ⟨a', b', rest', h1, h2, he⟩
      simp only [List.cons.injEq, true_and] at he
      obtain ⟨rfl, rfl, _⟩ := he
      rw [← isDigitChar_iff] at h1 h2
      simp [h1, h2]
  · rename_i hn
    constructor
    · intro h; simp at h
    · rintro ⟨a', b', rest', h1, h2, he⟩
      exact absurd he (hn a' b' rest')

/-! ### The state machine -/

theorem processLines_append (st : Parser) (a b : List Str) :
    st.processLines (a ++ b) = match st.processLines a with
      | (st', .ok ()) => st'.processLines b
      | (st', .error x) => (st', .error x) := by
  induction a generalizing st with
  | nil => rfl
  | cons l a ih =>
    simp only [List.cons_append, Parser.processLines]
    cases h : st.processLine l with
    | mk st' r =>
      cases r with
      | ok u => exact ih st'
      | error x => rfl

theorem processParts_blank (st : Parser) : st.processParts .blank = (st, .ok ()) := by
  unfold Parser.processParts; rw [if_pos rfl]

/-- The loop over split lines. -/
def Parser.processAll (st : Parser) : List Line → Parser × Py Unit
  | [] => (st, .ok ())
  | l :: ls =>
    match st.processParts l with
    | (st, .ok ()) => st.processAll ls
    | (st, .error x) => (st, .error x)

theorem processLines_eq (st : Parser) (ls : List Str) :
    st.processLines ls = st.processAll ((ls.map splitLine).filter (· ≠ .blank)) := by
  induction ls generalizing st with
  | nil => rfl
  | cons l ls ih =>
    simp only [Parser.processLines, Parser.processLine, List.map_cons]
    by_cases h : splitLine l = .blank
    · rw [h, processParts_blank, List.filter_cons_of_neg (by simp)]
      exact ih st
    · rw [List.filter_cons_of_pos (by simpa using h)]
      simp only [Parser.processAll]
      cases h : st.processParts (splitLine l) with
      | mk st' r =>
        cases r with
        | ok u => exact ih st'
        | error x => rfl

theorem lines_sayings (ls : List Str) (h : OneLiners ls) :
    (ls.map splitLine).filter (· ≠ .blank) = (sayings ls).map splitMeaning := by
  induction ls with
  | nil => rfl
  | cons l ls ih =>
    have hl := h l (by simp)
    have ih := ih (fun x hx => h x (by simp [hx]))
    unfold sayings at ih ⊢
    simp only [List.map_cons]
    rw [splitLine_meaning l hl]
    by_cases he : meaning l = []
    · rw [List.filter_cons_of_neg (by simp [splitMeaning_blank, he]), List.filter_cons_of_neg (by simp [he]), ih]
    · rw [List.filter_cons_of_pos (by simp [splitMeaning_blank, he]), List.filter_cons_of_pos (by simpa using he),
        List.map_cons, ih]

theorem processLines_sayings (st : Parser) (ls ls' : List Str) (h : OneLiners ls) (h' : OneLiners ls')
    (he : sayings ls = sayings ls') : st.processLines ls = st.processLines ls' := by
  rw [processLines_eq, processLines_eq, lines_sayings ls h, lines_sayings ls' h', he]

end Apx
