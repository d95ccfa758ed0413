import Verif.Props.JoinRefuse

/-! C77: files without a definition, and files that cannot be loaded, among the files to be joined. -/

namespace Apx

theorem fileLines_no_newline {text l : Str} (h : l ∈ fileLines text) : '\n' ∉ l := by
  have h0 := splitOn_oneLiners text
  unfold fileLines at h
  split at h
  · rename_i ls he
    have : l ∈ (splitOn '\n' text).reverse := by rw [he]; exact List.mem_cons_of_mem _ (List.mem_reverse.mp h)
    exact h0 l (List.mem_reverse.mp this)
  · exact h0 l (by simpa using h)

theorem takeWhile_prefix_mem {α : Type} {p : α → Bool} {a b : List α} {c : α} (h : c ∈ a.takeWhile p) :
    c ∈ (a ++ b).takeWhile p := by
  induction a with
  | nil => simp at h
  | cons x a ih =>
    simp only [List.cons_append, List.takeWhile_cons] at h ⊢
    split at h
    · rename_i hx
      rw [if_pos hx]
      simp only [List.mem_cons] at h ⊢
      exact h.imp id ih
    · simp at h

theorem takeWhile_mem_append {α : Type} {p : α → Bool} {a b : List α} {c : α} (h : c ∈ (a ++ b).takeWhile p) :
    c ∈ a.takeWhile p ∨ c ∈ b := by
  induction a with
  | nil => exact .inr ((List.takeWhile_sublist _).subset h)
  | cons x a ih =>
    simp only [List.cons_append, List.takeWhile_cons] at h ⊢
    split at h
    · rename_i hx
      simp only [List.mem_cons] at h
      rcases h with rfl | h
      · simp [hx]
      · rcases ih h with h | h
        · simp [hx, h]
        · exact .inr h
    · simp at h

theorem rstripP_eq_nil {p : Char → Bool} {s : Str} : rstripP p s = [] ↔ ∀ c ∈ s, p c = true := by
  have key : ∀ l : Str, l.dropWhile p = [] ↔ ∀ c ∈ l, p c = true := by
    intro l
    induction l with
    | nil => simp
    | cons c l ih =>
      rw [List.dropWhile_cons]
      split
      · rename_i h; simp [h, ih]
      · rename_i h; simp [h]
  rw [rstripP, List.reverse_eq_nil_iff, key]
  simp

theorem line_blank {l : Str} (h : '\n' ∉ l) :
    splitLine (rstripNewline l) = .blank ↔ ∀ c ∈ l.takeWhile (· != '#'), c = ' ' ∨ c = '\r' := by
  obtain ⟨b, hb, hb'⟩ := rstripP_suffix isNewline l
  change l = rstripNewline l ++ b at hb
  generalize rstripNewline l = r at hb ⊢
  subst hb
  simp only [List.mem_append, not_or] at h
  have h1 : splitLine r = .blank ↔ rstripP isTrail (stripComment r) = [] := by
    unfold splitLine
    simp only [List.length_eq_zero_iff]
    split
    · simp [*]
    · rename_i hne
      simp only [hne, iff_false]
      split
      · simp
      · unfold splitRest
        simp only
        split
        · split <;> simp
        · simp
  rw [h1, rstripP_eq_nil, stripComment_line r h.1]
  constructor
  · intro h2 c hc
    rcases takeWhile_mem_append hc with hc | hc
    · have := h2 c hc
      simp only [isTrail, Bool.or_eq_true, decide_eq_true_eq] at this
      rcases this with (h3 | h3) | h3
      · exact .inl h3
      · exact .inr h3
      · exact absurd ((List.takeWhile_sublist _).subset hc) (h3 ▸ h.1)
    · have := hb' c hc
      simp only [isNewline, Bool.or_eq_true, decide_eq_true_eq] at this
      rcases this with h3 | h3
      · exact .inr h3
      · exact absurd hc (h3 ▸ h.2)
  · intro h2 c hc
    have := h2 c (takeWhile_prefix_mem hc)
    simp only [isTrail, Bool.or_eq_true, decide_eq_true_eq]
    exact .inl this

theorem noDefinition_iff (text : Str) :
    NoDefinition text ↔ ∀ l ∈ (fileLines text).tail.map rstripNewline, splitLine l = .blank := by
  simp only [NoDefinition, List.mem_map, forall_exists_index, and_imp, forall_apply_eq_imp_iff₂]
  constructor
  · intro h l hl
    exact (line_blank (fileLines_no_newline (List.mem_of_mem_tail hl))).mpr (h l hl)
  · intro h l hl
    exact (line_blank (fileLines_no_newline (List.mem_of_mem_tail hl))).mp (h l hl)

theorem processLines_blank (ls : List Str) (st : Parser) (h : ∀ l ∈ ls, splitLine l = .blank) :
    st.processLines ls = (st, .ok ()) := by
  induction ls with
  | nil => rfl
  | cons l ls ih =>
    simp only [Parser.processLines, Parser.processLine, Parser.processParts, h l (by simp), if_pos]
    exact ih fun l hl => h l (by simp [hl])

theorem processLines_start_blank (ls : List Str) (a b : Option Node) :
    Parser.processLines ⟨a, .start⟩ ls = Parser.processLines ⟨b, .start⟩ ls ∨
      (∃ x, (Parser.processLines ⟨a, .start⟩ ls).2 = .error x) ∨ ∀ l ∈ ls, splitLine l = .blank := by
  induction ls with
  | nil => exact .inr (.inr (by simp))
  | cons l ls ih =>
    by_cases h1 : splitLine l = .blank
    · simpa [Parser.processLines, Parser.processLine, Parser.processParts, h1] using ih
    · by_cases h2 : (splitLine l).kind = some ['N']
      · left
        simp only [Parser.processLines, Parser.processLine, Parser.processParts, h1, if_false, h2, if_pos]
      · right; left
        simp only [Parser.processLines, Parser.processLine, Parser.processParts, h1, if_false, h2]
        exact ⟨_, rfl⟩

/-- A text with something in it that a new parser cannot load, no parser can load. -/
theorem load_any_error {text : Str} {x : PyErr} (h : parseFile text = .error x) (hd : ¬ NoDefinition text) (st : Parser) :
    ∃ y, (st.load text).2 = .error y := by
  revert h
  unfold parseFile Parser.load
  simp only
  split
  · intro _; exact ⟨_, rfl⟩
  · unfold Parser.parseV12
    rcases processLines_start_blank ((fileLines text).tail.map rstripNewline) st.node Parser.new.node with h | ⟨y, h⟩ | h
    · rw [h]; exact fun h => ⟨x, h⟩
    · intro _
      split
      · exact ⟨_, rfl⟩
      · rename_i he
        rw [he] at h
        cases h
    · exact absurd ((noDefinition_iff text).mpr h) hd

theorem parseFiles_error {texts : List Str} {text : Str} (hm : text ∈ texts) {x : PyErr} (h : parseFile text = .error x)
    (hd : ¬ NoDefinition text) (st : Parser) : ∃ y, parseFiles st texts = .error y := by
  induction texts generalizing st with
  | nil => simp at hm
  | cons t texts ih =>
    simp only [parseFiles]
    cases hl : st.load t with
    | mk st' r =>
      cases r with
      | error y => exact ⟨y, rfl⟩
      | ok n =>
        simp only
        rcases List.mem_cons.mp hm with rfl | hm
        · obtain ⟨y, hy⟩ := load_any_error h hd st
          rw [hl] at hy
          cases hy
        · obtain ⟨y, hy⟩ := ih hm st'
          exact ⟨y, by rw [hy]; rfl⟩

/-- C77: if one of the files cannot be loaded, nothing is written. Missing: files without a definition that are not the
first file. -/
theorem C77_unreadable_partial (name : Str) (sort normalize : Bool) (texts : List Str) (text : Str) (hm : text ∈ texts)
    (x : PyErr) (hx : parseFile text = .error x) (hd : ¬ NoDefinition text ∨ texts.head? = some text) :
    ∃ y, apxJoin name sort normalize texts = ⟨[], .error y⟩ := by
  obtain ⟨y, hy⟩ : ∃ y, parseFiles Parser.new texts = .error y := by
    rcases hd with hd | hd
    · exact parseFiles_error hm hx hd _
    · cases texts with
      | nil => simp at hd
      | cons t texts =>
        simp only [List.head?_cons, Option.some.injEq] at hd
        subst hd
        simp only [parseFile] at hx
        refine ⟨x, ?_⟩
        simp only [parseFiles]
        generalize hl : Parser.new.load t = r at hx
        obtain ⟨st, r⟩ := r
        simp only at hx
        subst hx
        rfl
  exact ⟨y, by simp only [apxJoin, hy, ToolRun.raised]⟩

theorem load_node {st st' : Parser} {text : Str} {n : Node} (h : st.load text = (st', .ok n)) : st'.node = some n := by
  unfold Parser.load at h
  simp only at h
  split at h
  · cases h
  · unfold Parser.parseV12 at h
    split at h
    · cases h
    · unfold Parser.finish at h
      split at h
      · cases h
      · split at h
        · cases h; rfl
        · cases h

theorem load_empty {text : Str} {x : PyErr} (hx : parseFile text = .error x) (hxa : x ≠ .notImplemented)
    (hd : NoDefinition text) {st : Parser} {n : Node} (hn : st.node = some n) (hr : n.resolveTypes = .ok n) :
    (st.load text).2 = .ok n := by
  revert hx
  unfold parseFile Parser.load
  simp only
  split
  · intro h; cases h; exact absurd rfl hxa
  · intro _
    unfold Parser.parseV12
    rw [processLines_blank _ _ ((noDefinition_iff text).mp hd)]
    simp only [Parser.finish, hn, hr]

theorem parseFiles_empty {text : Str} {x : PyErr} (hx : parseFile text = .error x) (hxa : x ≠ .notImplemented)
    (hd : NoDefinition text) (texts : List Str) (st : Parser) (srcs : List Node) (h : mapPy parseFile texts = .ok srcs)
    (k : Node) (hk : srcs.getLast? = some k) : parseFiles st (texts ++ [text]) = .ok (srcs ++ [k]) := by
  induction texts generalizing st srcs with
  | nil => cases h; simp at hk
  | cons t texts ih =>
    simp only [mapPy, bind_ok_iff, Except.ok.injEq] at h
    obtain ⟨n, h1, r, h2, rfl⟩ := h
    have hl := load_any h1 st
    simp only [List.cons_append, parseFiles]
    generalize hs : st.load t = q at hl
    obtain ⟨st', q⟩ := q
    simp only at hl
    subst hl
    simp only
    cases texts with
    | nil =>
      cases h2
      simp only [List.getLast?_singleton, Option.some.injEq] at hk
      subst hk
      have hid : n.resolveTypes = .ok n := resolveTypes_id n n.named (parseFile_built h1).1.inv.ports
      have he := load_empty hx hxa hd (load_node hs) hid
      simp only [List.nil_append, parseFiles]
      generalize st'.load text = q at he
      obtain ⟨st2, q⟩ := q
      simp only at he
      subst he
      rfl
    | cons t' texts =>
      have hr : r ≠ [] := by
        rintro rfl
        simp only [mapPy, bind_ok_iff] at h2
        obtain ⟨_, _, _, _, h3⟩ := h2
        cases h3
      rw [ih st' r h2 (by rw [← hk]; cases r with | nil => exact absurd rfl hr | cons => simp)]
      rfl

/-- C77 is violated by files without a definition, for example empty ones: such a file cannot be loaded, but after a file
that can be it is joined silently. It is taken for a second copy of the file before it. -/
theorem C77_empty_violated (name : Str) (sort normalize : Bool) (texts : List Str) (srcs : List Node)
    (hsrc : mapPy parseFile texts = .ok srcs) (hne : texts ≠ []) (hw : ∀ m ∈ srcs, m.Writable) (text : Str)
    (hd : NoDefinition text) (x : PyErr) (hx : parseFile text = .error x) (hxa : x ≠ .notImplemented) :
    apxJoin name sort normalize (texts ++ [text]) = apxJoin name sort normalize texts := by
  have hb : ∀ m ∈ srcs, NodeInv m := fun m hm =>
    (parseFiles_built texts Parser.new (by intro n hn; cases hn) srcs (parseFiles_each hsrc Parser.new) m hm).1.inv
  obtain ⟨k, hk⟩ : ∃ k, srcs.getLast? = some k := by
    cases texts with
    | nil => exact absurd rfl hne
    | cons t texts =>
      simp only [mapPy, bind_ok_iff, Except.ok.injEq] at hsrc
      obtain ⟨n, _, r, _, rfl⟩ := hsrc
      exact ⟨_, List.getLast?_eq_some_getLast (by simp)⟩
  have hkm : k ∈ srcs := List.mem_of_getLast? hk
  have hj := joinNodes_common name srcs hb hw k (hw k hkm) fun side p hp => ⟨k, hkm, p, hp, rfl⟩
  simp only [apxJoin, parseFiles_each hsrc Parser.new, parseFiles_empty hx hxa hd texts Parser.new srcs hsrc k hk, joinedNode, hj]

/-- The empty file, and one with a header and a comment. -/
example : (NoDefinition [] ∧ parseFile [] = .error .attributeError) ∧
    NoDefinition "APX/1.2\n# later\n \n".toList ∧
    (parseFile "APX/1.2\n# later\n \n".toList).toOption.isNone := by
  refine ⟨⟨by unfold NoDefinition; decide, rfl⟩, by unfold NoDefinition; decide, by decide +kernel⟩

/-- A file with something else in it. -/
example : ¬ NoDefinition "APX/1.2\nP\"p\"C\n".toList ∧ (parseFile "APX/1.2\nP\"p\"C\n".toList).toOption.isNone := by
  refine ⟨by unfold NoDefinition; decide, by decide +kernel⟩

end Apx
