import Verif.Props.Parser
import Verif.Proofs.Again

/-! C48, C49, C50: where the parser fails, for all texts. -/

namespace Apx

/-! ### The kind of a line -/

theorem takeWhile_lineType (k r : Str) (hk : ∀ c ∈ k, c ∈ kindChars) (hr : ∀ c, r.head? = some c → c ∉ kindChars) :
    (k ++ r).takeWhile isLineType = k := by
  rw [List.takeWhile_append_of_pos (fun c hc => (isLineType_iff c).mpr (hk c hc))]
  cases r with
  | nil => simp
  | cons c r =>
    have : ¬ isLineType c = true := fun hc => hr c rfl ((isLineType_iff c).mp hc)
    simp [List.takeWhile_cons, this]

theorem head_dropWhile {p : Char → Bool} {l : Str} {c : Char} (h : (l.dropWhile p).head? = some c) : p c = false := by
  induction l with
  | nil => simp at h
  | cons x l ih =>
    rw [List.dropWhile_cons] at h
    split at h
    · exact ih h
    · rename_i hx
      simp only [List.head?_cons, Option.some.injEq] at h
      subst h
      simpa using hx

theorem lineKind_iff {l k : Str} (h : '\n' ∉ l) (hk : k ≠ []) : (splitLine l).kind = some k ↔ LineKind l k := by
  constructor
  · intro he
    have h1 : LineKind l ((meaning l).takeWhile isLineType) := by
      refine ⟨(meaning l).dropWhile isLineType, List.takeWhile_append_dropWhile.symm, ?_, ?_⟩
      · intro c hc
        exact (isLineType_iff c).mp (List.all_eq_true.mp List.all_takeWhile c hc)
      · intro c hc hm
        have := head_dropWhile hc
        rw [(isLineType_iff c).mpr hm] at this
        cases this
    obtain ⟨r, h2, h3, h4⟩ := h1
    have h5 := C50_kind l _ r h h2 h3 h4
    rw [h5] at he
    split at he
    · cases he
    · simp only [Option.some.injEq] at he
      subst he
      exact ⟨r, h2, h3, h4⟩
  · rintro ⟨r, h2, h3, h4⟩
    rw [C50_kind l k r h h2 h3 h4, if_neg hk]

/-! ### C48 -/

theorem says_ne_blank {l : Str} (h : '\n' ∉ l) (hm : meaning l ≠ []) : splitLine l ≠ .blank := by
  rw [splitLine_meaning _ h]
  unfold splitMeaning
  rw [if_neg (by simpa using hm)]
  dsimp only
  split
  · simp
  · exact splitRest_ne_blank _ _

/-- C48 is violated by every text without a version line that `loads` accepts and whose first line says something:
`load` passes over that line, which is the node line, and refuses the text. -/
theorem C48_no_header_violated (t : Str) (n : Node) (h : ¬ HeaderLine (firstLine t)) (hm : meaning (firstLine t) ≠ [])
    (hl : (Parser.new.loads t).2 = .ok n) : ∃ x, (Parser.new.load t).2 = .error x := by
  have hnl : '\n' ∉ firstLine t := splitOn_oneLiners t _ (by rw [lines_eq]; simp)
  have hfb : splitLine (firstLine t) ≠ .blank := says_ne_blank hnl hm
  obtain ⟨nl, ts, ps, h1, h2, h3, h4, -⟩ := C50_sections_partial Parser.new t n hl _ rfl (by
    rw [if_neg h, List.map_cons, List.filter_cons_of_pos (by simpa using hfb)]
    simp)
  rw [if_neg h, List.map_cons, List.filter_cons_of_pos (by simpa using hfb)] at h1
  simp only [List.cons.injEq] at h1
  rw [load_eq, (header_iff _).mpr h]
  simp only [ne_eq, not_true, false_and, if_false]
  rw [processLines_eq, h1.2]
  cases hls : ts ++ ps with
  | nil => exact ⟨_, rfl⟩
  | cons l ls =>
    have hk : l.kind ≠ some ['N'] := by
      intro hk
      cases ts with
      | cons a ts =>
        simp only [List.cons_append, List.cons.injEq] at hls
        have := h3 a (by simp)
        rw [hls.1, hk] at this
        exact absurd this (by decide)
      | nil =>
        simp only [List.nil_append] at hls
        subst hls
        cases h4 with
        | provide _ _ _ h _ => rw [hk] at h; exact absurd h (by decide)
        | require _ _ _ h _ => rw [hk] at h; exact absurd h (by decide)
    have hb : l ≠ .blank := by
      have : l ∈ ((otherLines t).map splitLine).filter (fun l => decide (l ≠ .blank)) := by
        rw [h1.2, hls]; simp
      simpa using (List.mem_filter.mp this).2
    simp only [Parser.processAll, Parser.processParts, if_neg hb, if_neg hk]
    exact ⟨_, rfl⟩

example : ¬ HeaderLine (firstLine psNodeLine) ∧ meaning (firstLine psNodeLine) ≠ [] ∧
    (Parser.new.loads psNodeLine).2.toOption.isSome := by
  refine ⟨?_, by decide +kernel, by decide +kernel⟩
  rw [← header_iff]
  decide +kernel

/-! ### C49 -/

theorem resolvePort_again {types : List NamedType} {p q : Port} (h : resolvePort types p = .ok q) :
    resolvePort types q = .ok q := by
  unfold resolvePort at h
  split at h
  · rw [bind_ok_iff] at h
    obtain ⟨e, he, h⟩ := h
    simp only [Except.ok.injEq] at h
    subst h
    simp only [resolveDsg, bind_ok_iff, Except.ok.injEq] at he
    obtain ⟨e', h1, d, h2, rfl⟩ := he
    unfold resolvePort
    split
    · simp only [resolveDsg, Elem.resolve_again _ _ _ h1, ok_bind, h2]
    · rfl
  · rename_i hr
    simp only [Except.ok.injEq] at h
    subst h
    unfold resolvePort
    rw [if_neg hr]

theorem resolveTypes_again {n n' : Node} (h : n.resolveTypes = .ok n') : n'.resolveTypes = .ok n' := by
  obtain ⟨_, _, h1, h2⟩ := resolveTypes_ok n n' h
  have hn : n'.named = n.named := by unfold Node.named; rw [h1]
  have key : ∀ side, ∀ p ∈ n'.ports side, resolvePort n'.named p = .ok p := by
    intro side p hp
    obtain ⟨q, _, hq⟩ := map_ok_mem (h2 side) hp
    rw [hn]
    exact resolvePort_again hq
  unfold Node.resolveTypes
  rw [mapPy_id _ n'.requires (key .require), mapPy_id _ n'.provides (key .provide)]
  rfl

theorem finish_node {st st' : Parser} {x : PyErr} {n : Node} (h : st.finish x = (st', .ok n)) :
    st'.node = some n ∧ n.resolveTypes = .ok n := by
  unfold Parser.finish at h
  split at h
  · cases h
  · split at h
    · rename_i hr
      cases h
      exact ⟨rfl, resolveTypes_again hr⟩
    · cases h

theorem loads_node {st : Parser} {t : Str} {n : Node} (h : (st.loads t).2 = .ok n) :
    (st.loads t).1.node = some n ∧ n.resolveTypes = .ok n := by
  unfold Parser.loads at h ⊢
  simp only at h ⊢
  split
  · rename_i hv; rw [if_pos hv] at h; cases h
  · rename_i hv
    rw [if_neg hv] at h
    split
    · rename_i he; rw [he] at h; cases h
    · rename_i st1 he
      rw [he] at h
      simp only at h ⊢
      generalize hf : st1.finish .runtimeError = r at h ⊢
      obtain ⟨st2, r⟩ := r
      simp only at h
      subst h
      exact finish_node hf

theorem load_node_resolved {st : Parser} {t : Str} {n : Node} (h : (st.load t).2 = .ok n) :
    (st.load t).1.node = some n ∧ n.resolveTypes = .ok n := by
  unfold Parser.load Parser.parseV12 at h ⊢
  simp only at h ⊢
  split
  · rename_i hv; rw [if_pos hv] at h; cases h
  · rename_i hv
    rw [if_neg hv] at h
    split
    · rename_i he; rw [he] at h; cases h
    · rename_i st1 he
      rw [he] at h
      simp only at h ⊢
      generalize hf : st1.finish .attributeError = r at h ⊢
      obtain ⟨st2, r⟩ := r
      simp only at h
      subst h
      exact finish_node hf

/-- A text that says nothing: a version line or a line that says nothing, and then only lines that say nothing. -/
def SaysNothing (t : Str) : Prop :=
  ((∃ r, firstLine t = "APX/1.2".toList ++ r) ∨ ¬ HeaderLine (firstLine t) ∧ meaning (firstLine t) = []) ∧
    ∀ l ∈ otherLines t, meaning l = []

theorem sayings_nothing {ls : List Str} (h : ∀ l ∈ ls, meaning l = []) : sayings ls = [] := by
  unfold sayings
  rw [List.filter_eq_nil_iff]
  intro m hm
  obtain ⟨l, hl, rfl⟩ := List.mem_map.mp hm
  simp [h l hl]

theorem rstripNewline_header (r : Str) : ∃ r', rstripNewline ("APX/1.2".toList ++ r) = "APX/1.2".toList ++ r' := by
  obtain ⟨b, hb, hb'⟩ := rstripP_suffix isNewline ("APX/1.2".toList ++ r)
  change _ = rstripNewline _ ++ b at hb
  generalize rstripNewline ("APX/1.2".toList ++ r) = s at hb ⊢
  rw [List.append_eq_append_iff] at hb
  rcases hb with ⟨a, rfl, _⟩ | ⟨a, ha, rfl⟩
  · exact ⟨a, rfl⟩
  · cases hc : a with
    | nil => subst hc; simp only [List.append_nil] at ha; exact ⟨[], by simp [ha]⟩
    | cons c a' =>
      exfalso
      have h1 : ∀ x ∈ a, isNewline x = true := fun x hx => hb' x (by simp [hx])
      have h2 : ∀ x ∈ "APX/1.2".toList, isNewline x = false := by decide
      have h3 : c ∈ "APX/1.2".toList := by rw [ha, hc]; simp
      have := h1 c (by rw [hc]; simp)
      rw [h2 c h3] at this
      cases this

theorem saysNothing_version {t : Str} (h : SaysNothing t) :
    ¬ (parseHeaderLine (rstripNewline (firstLine t)) ≠ none ∧ parseHeaderLine (rstripNewline (firstLine t)) ≠ some ('1', '2')) := by
  rcases h.1 with ⟨r, hr⟩ | ⟨h1, _⟩
  · obtain ⟨r', hr'⟩ := rstripNewline_header r
    rw [hr, hr']
    intro hc
    exact hc.2 rfl
  · rw [(header_iff _).mpr h1]
    simp

theorem loads_nothing {t : Str} (h : SaysNothing t) (st : Parser) :
    st.loads t = Parser.finish ⟨st.node, .start⟩ .runtimeError ∧ st.load t = Parser.finish ⟨st.node, .start⟩ .attributeError := by
  have hv := saysNothing_version h
  constructor
  · rw [loads_eq, if_neg hv]
    have hp : Parser.processLines ⟨st.node, .start⟩ (if parseHeaderLine (rstripNewline (firstLine t)) = none
        then firstLine t :: otherLines t else otherLines t) = Parser.processLines ⟨st.node, .start⟩ [] := by
      apply processLines_sayings
      · split
        · rw [← lines_eq]; exact splitOn_oneLiners t
        · exact oneLiners_other t
      · intro l hl; simp at hl
      · split
        · rename_i hn
          rcases h.1 with ⟨r, hr⟩ | ⟨_, h1⟩
          · rw [header_iff] at hn
            exact absurd ⟨'1', '2', r, by decide, by decide, hr⟩ hn
          · apply sayings_nothing
            intro l hl
            rcases List.mem_cons.mp hl with rfl | hl
            · exact h1
            · exact h.2 l hl
        · exact sayings_nothing h.2
    rw [hp]
    rfl
  · rw [load_eq, if_neg hv]
    have hp : Parser.processLines ⟨st.node, .start⟩ (otherLines t) = Parser.processLines ⟨st.node, .start⟩ [] := by
      apply processLines_sayings _ _ _ (oneLiners_other t)
      · intro l hl; simp at hl
      · exact sayings_nothing h.2
    rw [hp]
    rfl

/-- C49 is violated by every text that says nothing: a new parser raises an exception, but one that has just loaded
another text, in either way, returns the node of that text again, in either way. -/
theorem C49_empty_text_violated (q : Str) (hq : SaysNothing q) :
    (∃ x y, (Parser.new.loads q).2 = .error x ∧ (Parser.new.load q).2 = .error y) ∧
    ∀ (st : Parser) (t : Str) (n : Node),
      ((st.loads t).2 = .ok n → ((st.loads t).1.loads q).2 = .ok n ∧ ((st.loads t).1.load q).2 = .ok n) ∧
      ((st.load t).2 = .ok n → ((st.load t).1.loads q).2 = .ok n ∧ ((st.load t).1.load q).2 = .ok n) := by
  constructor
  · rw [(loads_nothing hq _).1, (loads_nothing hq _).2]
    exact ⟨_, _, rfl, rfl⟩
  · intro st t n
    constructor
    · intro h
      obtain ⟨h1, h2⟩ := loads_node h
      rw [(loads_nothing hq _).1, (loads_nothing hq _).2]
      simp only [Parser.finish, h1, h2, and_self]
    · intro h
      obtain ⟨h1, h2⟩ := load_node_resolved h
      rw [(loads_nothing hq _).1, (loads_nothing hq _).2]
      simp only [Parser.finish, h1, h2, and_self]

example : SaysNothing [] ∧ SaysNothing "APX/1.2\n# nothing here\n".toList := by
  constructor
  · refine ⟨.inr ⟨?_, rfl⟩, by simp [otherLines, splitOn]⟩
    rintro ⟨a, b, r, _, _, h⟩
    cases h
  · exact ⟨.inl ⟨[], by decide +kernel⟩, by decide +kernel⟩

/-! ### C50 -/

theorem splitOn_append_any (a b : Str) : splitOn '\n' (a ++ '\n' :: b) = splitOn '\n' a ++ splitOn '\n' b := by
  induction a with
  | nil => simp [splitOn]
  | cons c a ih =>
    simp only [List.cons_append, splitOn]
    split
    · rw [ih]; rfl
    · rw [ih]
      cases h : splitOn '\n' a with
      | nil => exact absurd h (splitOn_ne_nil _ _)
      | cons x xs => rfl

theorem lines_append (t : Str) (extra : List Str) (he : extra ≠ []) (ho : OneLiners extra) :
    firstLine (t ++ '\n' :: joinLines extra) = firstLine t ∧
      otherLines (t ++ '\n' :: joinLines extra) = otherLines t ++ extra := by
  have h := splitOn_append_any t (joinLines extra)
  rw [splitOn_joinLines extra he ho, lines_eq, lines_eq t, List.cons_append, List.cons.injEq] at h
  exact h

theorem portLine_cs {st st' : Parser} {side : Side} {l : Line} (h : st.portLine side l = (st', .ok ())) : st'.cs = st.cs := by
  unfold Parser.portLine at h
  split at h
  · cases h; rfl
  · cases h

theorem provide_cs {st st' : Parser} {l : Line} (hk : l.kind = some ['P']) (h : st.processParts l = (st', .ok ())) :
    st'.cs = .provide := by
  have hb : l ≠ .blank := by rintro rfl; cases hk
  unfold Parser.processParts at h
  rw [if_neg hb, hk] at h
  simp only [Option.some.injEq, List.cons.injEq, and_true, Char.reduceEq, if_true, if_false] at h
  split at h
  · cases h
  · exact portLine_cs h
  · exact portLine_cs h
  · rename_i hc; exact (portLine_cs h).trans hc
  · exact portLine_cs h

theorem dropped_lines (ls : List Str) (st : Parser) (hc : st.cs = .provide)
    (h : ∀ l ∈ ls, (splitLine l).kind ≠ some ['P'] ∧ (splitLine l).kind ≠ some ['R']) : st.processLines ls = (st, .ok ()) := by
  induction ls with
  | nil => rfl
  | cons l ls ih =>
    obtain ⟨h1, h2⟩ := h l (by simp)
    have : st.processLine l = (st, .ok ()) := by
      unfold Parser.processLine Parser.processParts
      simp only [hc, h1, h2, if_false]
      split <;> rfl
    simp only [Parser.processLines, this]
    exact ih fun l hl => h l (by simp [hl])

theorem nothing_lines (ls : List Str) (ho : OneLiners ls) (st : Parser) (h : ∀ l ∈ ls, meaning l = []) :
    st.processLines ls = (st, .ok ()) := by
  rw [processLines_sayings st ls [] ho (by intro l hl; simp at hl) (sayings_nothing h)]
  rfl

/-- C50 is violated by every accepted text whose last line that says something is a provide port: any lines that are
not ports can be added to it, type lines, node lines or nonsense, and the text is loaded to the same node. -/
theorem C50_dropped_violated (st : Parser) (t : Str) (n : Node) (h : (st.loads t).2 = .ok n) (pre post : List Str) (p : Str)
    (hl : otherLines t = pre ++ p :: post) (hp : LineKind p ['P']) (hpost : ∀ l ∈ post, meaning l = [])
    (extra : List Str) (ho : OneLiners extra) (he : extra ≠ []) (hx : ∀ l ∈ extra, ¬ LineKind l ['P'] ∧ ¬ LineKind l ['R']) :
    (st.loads (t ++ '\n' :: joinLines extra)).2 = .ok n := by
  obtain ⟨e1, e2⟩ := lines_append t extra he ho
  have hol := oneLiners_other t
  rw [hl] at hol
  rw [loads_eq] at h ⊢
  rw [e1, e2]
  split at h
  · cases h
  rename_i hv
  rw [if_neg hv]
  have hls : ∀ a : List Str, (if parseHeaderLine (rstripNewline (firstLine t)) = none then firstLine t :: (otherLines t ++ a)
      else otherLines t ++ a) = (if parseHeaderLine (rstripNewline (firstLine t)) = none then firstLine t :: otherLines t
      else otherLines t) ++ a := by intro a; split <;> rfl
  rw [hls]
  generalize hq : (if parseHeaderLine (rstripNewline (firstLine t)) = none then firstLine t :: otherLines t
      else otherLines t) = q at h ⊢
  have hq' : ∃ a, q = a ++ (p :: post) := by
    rw [← hq, hl]
    split
    · exact ⟨firstLine t :: pre, rfl⟩
    · exact ⟨pre, rfl⟩
  obtain ⟨a, rfl⟩ := hq'
  rw [processLines_append]
  cases hr : Parser.processLines ⟨st.node, .start⟩ (a ++ p :: post) with
  | mk s r =>
    rw [hr] at h
    cases r with
    | error x => cases h
    | ok u =>
      simp only
      have hc : s.cs = .provide := by
        rw [processLines_append] at hr
        split at hr
        · rename_i s1 _
          simp only [Parser.processLines] at hr
          split at hr
          · rename_i s2 h2
            have h3 := nothing_lines post (fun l hl' => hol l (by simp [hl'])) s2 hpost
            rw [h3] at hr
            cases hr
            exact provide_cs ((lineKind_iff (hol p (by simp)) (by simp)).mpr hp) h2
          · cases hr
        · cases hr
      rw [dropped_lines extra s hc (fun l hl' =>
        ⟨fun hk => (hx l hl').1 ((lineKind_iff (ho l hl') (by simp)).mp hk),
          fun hk => (hx l hl').2 ((lineKind_iff (ho l hl') (by simp)).mp hk)⟩)]
      exact h

theorem require_cs {st st' : Parser} {l : Line} (hk : l.kind = some ['R']) (h : st.processParts l = (st', .ok ())) :
    st'.cs = .require := by
  have hb : l ≠ .blank := by rintro rfl; cases hk
  unfold Parser.processParts at h
  rw [if_neg hb, hk] at h
  simp only [Option.some.injEq, List.cons.injEq, and_true, Char.reduceEq, if_true, if_false] at h
  split at h
  · cases h
  · exact portLine_cs h
  · exact portLine_cs h
  · exact portLine_cs h
  · rename_i hc; exact (portLine_cs h).trans hc

/-- After a require port the same lines are refused. -/
theorem C50_after_require (st : Parser) (t : Str) (n : Node) (h : (st.loads t).2 = .ok n) (pre post : List Str) (p : Str)
    (hl : otherLines t = pre ++ p :: post) (hp : LineKind p ['R']) (hpost : ∀ l ∈ post, meaning l = [])
    (x : Str) (extra : List Str) (ho : OneLiners (x :: extra)) (hm : meaning x ≠ []) (hx : ¬ LineKind x ['P'] ∧ ¬ LineKind x ['R']) :
    (st.loads (t ++ '\n' :: joinLines (x :: extra))).2 = .error .parseError := by
  obtain ⟨e1, e2⟩ := lines_append t (x :: extra) (by simp) ho
  have hol := oneLiners_other t
  rw [hl] at hol
  rw [loads_eq] at h ⊢
  rw [e1, e2]
  split at h
  · cases h
  rename_i hv
  rw [if_neg hv]
  have hls : ∀ a : List Str, (if parseHeaderLine (rstripNewline (firstLine t)) = none then firstLine t :: (otherLines t ++ a)
      else otherLines t ++ a) = (if parseHeaderLine (rstripNewline (firstLine t)) = none then firstLine t :: otherLines t
      else otherLines t) ++ a := by intro a; split <;> rfl
  rw [hls]
  generalize hq : (if parseHeaderLine (rstripNewline (firstLine t)) = none then firstLine t :: otherLines t
      else otherLines t) = q at h ⊢
  have hq' : ∃ a, q = a ++ (p :: post) := by
    rw [← hq, hl]
    split
    · exact ⟨firstLine t :: pre, rfl⟩
    · exact ⟨pre, rfl⟩
  obtain ⟨a, rfl⟩ := hq'
  rw [processLines_append]
  cases hr : Parser.processLines ⟨st.node, .start⟩ (a ++ p :: post) with
  | mk s r =>
    rw [hr] at h
    cases r with
    | error x => cases h
    | ok u =>
      simp only
      have hc : s.cs = .require := by
        rw [processLines_append] at hr
        split at hr
        · rename_i s1 _
          simp only [Parser.processLines] at hr
          split at hr
          · rename_i s2 h2
            have h3 := nothing_lines post (fun l hl' => hol l (by simp [hl'])) s2 hpost
            rw [h3] at hr
            cases hr
            exact require_cs ((lineKind_iff (hol p (by simp)) (by simp)).mpr hp) h2
          · cases hr
        · cases hr
      have hxn : '\n' ∉ x := ho x (by simp)
      have h1 : (splitLine x).kind ≠ some ['P'] := fun hk => hx.1 ((lineKind_iff hxn (by simp)).mp hk)
      have h2 : (splitLine x).kind ≠ some ['R'] := fun hk => hx.2 ((lineKind_iff hxn (by simp)).mp hk)
      have hb := says_ne_blank hxn hm
      have hpl : s.processLine x = (s, .error .parseError) := by
        unfold Parser.processLine Parser.processParts
        simp only [hc, h1, h2, hb, if_false]
      simp only [Parser.processLines, hpl]

/-- C50 is violated by comments and blank lines before the version line: however many there are and whatever follows,
the text is refused, because the version line is then taken for an ordinary line. -/
theorem C50_comment_violated (st : Parser) (before rest : List Str) (v : Str) (hb : before ≠ []) (ho : OneLiners (before ++ v :: rest))
    (hm : ∀ l ∈ before, meaning l = [] ∧ ¬ HeaderLine l) (hv : HeaderLine v) :
    (st.loads (joinLines (before ++ v :: rest))).2 = .error .parseError := by
  have hs := splitOn_joinLines (before ++ v :: rest) (by simp) ho
  have hf : ∃ b bs, before = b :: bs := by
    cases before with
    | nil => exact absurd rfl hb
    | cons b bs => exact ⟨b, bs, rfl⟩
  obtain ⟨b, bs, rfl⟩ := hf
  rw [lines_eq, List.cons_append, List.cons.injEq] at hs
  rw [loads_eq, List.cons_append, hs.1, hs.2, (header_iff b).mpr (hm b (by simp)).2]
  simp only [ne_eq, not_true, false_and, if_false, if_true]
  rw [show b :: (bs ++ v :: rest) = (b :: bs) ++ v :: rest by simp, processLines_append,
    nothing_lines (b :: bs) (fun l hl => ho l (List.mem_append_left _ hl)) _ (fun l hl => (hm l hl).1)]
  simp only
  have hvn : '\n' ∉ v := ho v (by simp)
  have hk : LineKind v "APX".toList := by
    obtain ⟨a, c, r, h1, h2, rfl⟩ := hv
    have hd : ∀ x ∈ "0123456789".toList, x ≠ '#' ∧ x ≠ ' ' ∧ x ≠ '\r' := by decide
    obtain ⟨w, hw, hw'⟩ := rstripP_suffix (fun c => c = ' ' || c = '\r')
      (('A' :: 'P' :: 'X' :: '/' :: a :: '.' :: c :: r).takeWhile (· != '#'))
    change _ = meaning ('A' :: 'P' :: 'X' :: '/' :: a :: '.' :: c :: r) ++ w at hw
    unfold LineKind
    generalize meaning ('A' :: 'P' :: 'X' :: '/' :: a :: '.' :: c :: r) = m at hw ⊢
    have he : ('A' :: 'P' :: 'X' :: '/' :: a :: '.' :: c :: r).takeWhile (· != '#') =
        ['A', 'P', 'X', '/'] ++ (a :: '.' :: c :: r).takeWhile (· != '#') := rfl
    rw [he, List.append_eq_append_iff] at hw
    rcases hw with ⟨x, rfl, _⟩ | ⟨x, hx, rfl⟩
    · exact ⟨'/' :: x, rfl, by decide, by
        intro c hc
        simp only [List.head?_cons, Option.some.injEq] at hc
        subst hc
        decide⟩
    · have hx0 : x = [] := by
        cases x with
        | nil => rfl
        | cons y x =>
          exfalso
          have h3 : y ∈ ['A', 'P', 'X', '/'] := by rw [hx]; simp
          have h4 : ∀ y ∈ ['A', 'P', 'X', '/'], ¬ (decide (y = ' ') || decide (y = '\r')) = true := by decide
          exact h4 y h3 (hw' y (by simp))
      subst hx0
      simp only [List.append_nil] at hx
      subst hx
      exact ⟨['/'], rfl, by decide, by
        intro c hc
        simp only [List.head?_cons, Option.some.injEq] at hc
        subst hc
        decide⟩
  have hk' := (lineKind_iff hvn (by decide)).mpr hk
  have hvb : splitLine v ≠ .blank := by intro h; rw [h] at hk'; cases hk'
  have hp : Parser.processLine ⟨st.node, .start⟩ v = (⟨st.node, .start⟩, .error .parseError) := by
    unfold Parser.processLine Parser.processParts
    rw [if_neg hvb]
    simp only [hk']
    rfl
  simp only [Parser.processLines, hp]

example : meaning "# A".toList = [] ∧ ¬ HeaderLine "# A".toList ∧ HeaderLine "APX/1.2".toList := by
  refine ⟨by decide, ?_, '1', '2', [], by decide, by decide, by decide⟩
  rintro ⟨a, b, r, _, _, h⟩
  exact absurd h (by simp)

/-- The hypotheses of `C50_dropped_violated` can be met. -/
example : (Parser.new.loads "N\"A\"\nP\"p\"C\n".toList).2.toOption.isSome ∧
    otherLines "N\"A\"\nP\"p\"C\n".toList = [] ++ "P\"p\"C".toList :: [[]] ∧ LineKind "P\"p\"C".toList ['P'] ∧
    ¬ LineKind "nonsense".toList ['P'] ∧ ¬ LineKind "nonsense".toList ['R'] := by
  refine ⟨by decide +kernel, by decide +kernel, ?_, ?_, ?_⟩
  · exact (lineKind_iff (by decide) (by simp)).mp (by decide +kernel)
  · rw [← lineKind_iff (by decide) (by simp)]; decide +kernel
  · rw [← lineKind_iff (by decide) (by simp)]; decide +kernel

/-- The hypotheses of `C50_after_require` can be met. -/
example : (Parser.new.loads "N\"A\"\nR\"p\"C\n".toList).2.toOption.isSome ∧
    otherLines "N\"A\"\nR\"p\"C\n".toList = [] ++ "R\"p\"C".toList :: [[]] ∧ LineKind "R\"p\"C".toList ['R'] ∧
    meaning "T\"X\"C".toList ≠ [] ∧ ¬ LineKind "T\"X\"C".toList ['P'] ∧ ¬ LineKind "T\"X\"C".toList ['R'] := by
  refine ⟨by decide +kernel, by decide +kernel, ?_, by decide +kernel, ?_, ?_⟩
  · exact (lineKind_iff (by decide) (by simp)).mp (by decide +kernel)
  · rw [← lineKind_iff (by decide) (by simp)]; decide +kernel
  · rw [← lineKind_iff (by decide) (by simp)]; decide +kernel

end Apx
