import Verif.Proofs.Parser

/-! C48-C50: loading definition texts. -/

namespace Apx

theorem rstripP_inside (p : Char → Bool) (a r : Str) (x : Char) (h : p x = false) :
    rstripP p (a ++ x :: r) = a ++ x :: rstripP p r := by
  have key : ∀ d : Str, (d ++ x :: a.reverse).dropWhile p = d.dropWhile p ++ x :: a.reverse := by
    intro d
    induction d with
    | nil => rw [List.nil_append, List.dropWhile_cons_of_neg (by simp [h])]; rfl
    | cons c d ih =>
      by_cases hc : p c = true
      · rw [List.cons_append, List.dropWhile_cons_of_pos hc, List.dropWhile_cons_of_pos hc, ih]
      · rw [List.cons_append, List.dropWhile_cons_of_neg hc, List.dropWhile_cons_of_neg hc]; rfl
  unfold rstripP
  simp only [List.reverse_append, List.reverse_cons, List.append_assoc, List.cons_append, List.nil_append]
  rw [key]
  simp

theorem headerLine_rstrip (l : Str) : HeaderLine (rstripNewline l) ↔ HeaderLine l := by
  constructor
  · rintro ⟨a, b, rest, h1, h2, he⟩
    obtain ⟨s, hs, _⟩ := rstripP_suffix isNewline l
    unfold rstripNewline at he
    rw [he] at hs
    exact ⟨a, b, rest ++ s, h1, h2, by rw [hs]; rfl⟩
  · rintro ⟨a, b, rest, h1, h2, he⟩
    refine ⟨a, b, rstripNewline rest, h1, h2, ?_⟩
    have hb : isNewline b = false := by
      rw [← isDigitChar_iff] at h2
      simp only [isDigitChar, Bool.and_eq_true, decide_eq_true_eq] at h2
      have c1 : b ≠ '\r' := by rintro rfl; simp at h2
      have c2 : b ≠ '\n' := by rintro rfl; simp at h2
      simp [isNewline, c1, c2]
    rw [he]
    exact rstripP_inside isNewline ['A', 'P', 'X', '/', a, '.'] rest b hb

theorem fileLines_cases (t : Str) :
    splitOn '\n' t = fileLines t ∨ splitOn '\n' t = fileLines t ++ [[]] := by
  unfold fileLines
  split
  · rename_i ls h
    right
    have := congrArg List.reverse h
    rw [List.reverse_reverse] at this
    rw [this]; simp
  · left
    rw [List.reverse_reverse]

theorem fileLines_head (t : Str) : (fileLines t).headD [] = firstLine t := by
  unfold firstLine
  rcases fileLines_cases t with h | h <;> rw [h]
  cases fileLines t <;> rfl

theorem oneLiners_sub {a b : List Str} (h : OneLiners b) (hs : ∀ l ∈ a, l ∈ b) : OneLiners a :=
  fun l hl => h l (hs l hl)

theorem sayings_append (a b : List Str) : sayings (a ++ b) = sayings a ++ sayings b := by
  simp [sayings]

theorem sayings_nil : sayings [[]] = [] := rfl

theorem fileLines_sayings (t : Str) : sayings (fileLines t).tail = sayings (otherLines t) := by
  unfold otherLines
  rcases fileLines_cases t with h | h
  · rw [h]
  · rw [h]
    cases fileLines t with
    | nil => rfl
    | cons x xs => simp [sayings_append, sayings_nil]

theorem processLines_rstrip (st : Parser) (ls : List Str) (h : OneLiners ls) :
    st.processLines (ls.map rstripNewline) = st.processLines ls := by
  rw [processLines_eq, processLines_eq]
  congr 2
  rw [List.map_map]
  apply List.map_congr_left
  intro l hl
  exact splitLine_rstripNewline l (h l hl)

theorem finish_same (st : Parser) : SameOutcome (st.finish .attributeError) (st.finish .runtimeError) := by
  unfold Parser.finish
  split
  · exact ⟨rfl, Or.inr ⟨rfl, rfl⟩⟩
  · split <;> exact ⟨rfl, Or.inl rfl⟩

theorem SameOutcome.refl (a : Parser × Py Node) : SameOutcome a a := ⟨rfl, Or.inl rfl⟩

theorem oneLiners_other (t : Str) : OneLiners (otherLines t) :=
  oneLiners_sub (splitOn_oneLiners t) (fun _ hl => List.mem_of_mem_tail hl)

theorem oneLiners_file (t : Str) : OneLiners (fileLines t).tail := by
  apply oneLiners_sub (splitOn_oneLiners t)
  intro l hl
  have := List.mem_of_mem_tail hl
  rcases fileLines_cases t with h | h <;> rw [h]
  · exact this
  · exact List.mem_append_left _ this

/-- `load` processes the lines after the first. -/
theorem load_eq (st : Parser) (t : Str) :
    st.load t = if parseHeaderLine (rstripNewline (firstLine t)) ≠ none ∧
        parseHeaderLine (rstripNewline (firstLine t)) ≠ some ('1', '2') then (st, .error .notImplemented)
      else match Parser.processLines ⟨st.node, .start⟩ (otherLines t) with
        | (st, .error x) => (st, .error x)
        | (st, .ok ()) => st.finish .attributeError := by
  unfold Parser.load Parser.parseV12
  simp only [fileLines_head]
  rw [processLines_rstrip _ _ (oneLiners_file t),
    processLines_sayings _ _ _ (oneLiners_file t) (oneLiners_other t) (fileLines_sayings t)]
  rfl

theorem lines_eq (t : Str) : splitOn '\n' t = firstLine t :: otherLines t := by
  unfold firstLine otherLines
  cases h : splitOn '\n' t with
  | nil => exact absurd h (splitOn_ne_nil _ _)
  | cons x xs => rfl

/-- `loads` processes all lines but a header. -/
theorem loads_eq (st : Parser) (t : Str) :
    st.loads t = if parseHeaderLine (rstripNewline (firstLine t)) ≠ none ∧
        parseHeaderLine (rstripNewline (firstLine t)) ≠ some ('1', '2') then (st, .error .notImplemented)
      else match Parser.processLines ⟨st.node, .start⟩
          (if parseHeaderLine (rstripNewline (firstLine t)) = none then firstLine t :: otherLines t
           else otherLines t) with
        | (st, .error x) => (st, .error x)
        | (st, .ok ()) => st.finish .runtimeError := by
  unfold Parser.loads
  simp only [lines_eq t, List.headD_cons, List.tail_cons]
  rfl

theorem header_iff (l : Str) : parseHeaderLine (rstripNewline l) = none ↔ ¬ HeaderLine l := by
  rw [← headerLine_rstrip, ← parseHeaderLine_iff]; simp

/-! ### C48 -/

/-- C48: `load` of a file and `loads` of its text give the same node or the same error (only the class
of the exception for a text without a node differs), and leave the parser in the same state, if the
text starts with a version line, or with a line that says nothing. -/
theorem C48_agree_partial (st : Parser) (t : Str) (h : HeaderLine (firstLine t) ∨ meaning (firstLine t) = []) :
    SameOutcome (st.load t) (st.loads t) := by
  rw [load_eq, loads_eq]
  split
  · exact .refl _
  · have hp : Parser.processLines ⟨st.node, .start⟩
        (if parseHeaderLine (rstripNewline (firstLine t)) = none then firstLine t :: otherLines t else otherLines t)
        = Parser.processLines ⟨st.node, .start⟩ (otherLines t) := by
      split
      · rename_i hn
        rw [header_iff] at hn
        rcases h with h | h
        · exact absurd h hn
        · apply processLines_sayings
          · rw [← lines_eq]; exact splitOn_oneLiners t
          · exact oneLiners_other t
          · simp [sayings, h]
      · rfl
    rw [hp]
    split
    · exact .refl _
    · exact finish_same _

/-- C48: what `load` does to a text without a version line: it ignores the first line, whatever it
says. -/
theorem C48_first_line_ignored (st : Parser) (t : Str) (h : ¬ HeaderLine (firstLine t)) :
    SameOutcome (st.load t) (st.loads (joinLines ([] :: otherLines t))) := by
  have hs : splitOn '\n' (joinLines ([] :: otherLines t)) = [] :: otherLines t :=
    splitOn_joinLines _ (by simp) (by
      intro l hl
      rcases List.mem_cons.mp hl with rfl | hl
      · simp
      · exact oneLiners_other t l hl)
  have e1 : firstLine (joinLines ([] :: otherLines t)) = [] := by unfold firstLine; rw [hs]; rfl
  have e2 : otherLines (joinLines ([] :: otherLines t)) = otherLines t := by
    have : otherLines (joinLines ([] :: otherLines t)) = (splitOn '\n' (joinLines ([] :: otherLines t))).tail := rfl
    rw [this, hs]; rfl
  rw [load_eq, loads_eq, e1, e2]
  rw [(header_iff _).mpr h]
  have : parseHeaderLine (rstripNewline []) = none := rfl
  rw [this]
  simp only [ne_eq, not_true, false_and, if_false, if_true]
  have hp : Parser.processLines ⟨st.node, .start⟩ ([] :: otherLines t)
      = Parser.processLines ⟨st.node, .start⟩ (otherLines t) := by
    apply processLines_sayings
    · rw [← hs]; exact splitOn_oneLiners _
    · exact oneLiners_other t
    · rfl
  rw [hp]
  split
  · exact .refl _
  · exact finish_same _

/-- `N"A"` -/
def psNodeLine : Str := ['N', '"', 'A', '"']

/-- Two texts without a version line: `loads` accepts them, `load` loses the node line (`C48_no_header_violated`). -/
example :
    (Parser.new.loads psNodeLine).2.toOption.isSome ∧ (Parser.new.load psNodeLine).2.toOption.isNone ∧
    (Parser.new.loads (psNodeLine ++ '\n' :: 'R' :: '"' :: 'x' :: '"' :: ['C'])).2.toOption.isSome ∧
    (Parser.new.load (psNodeLine ++ '\n' :: 'R' :: '"' :: 'x' :: '"' :: ['C'])).2.toOption.isNone := by
  decide +kernel

/-- A definition text. -/
def psText : Str := "APX/1.2\nN\"A\" # node\n\nT\"X\"C(0,3)\nP\"p\"T[0]:=2\nR\"r\"S\n".toList

example : HeaderLine (firstLine psText) ∧ (Parser.new.load psText).2.toOption.isSome ∧
    (Parser.new.loads psText).2.toOption.isSome := by
  refine ⟨⟨'1', '2', [], by decide, by decide, by decide +kernel⟩, by decide +kernel, by decide +kernel⟩

/-! ### C49 -/

theorem sayings_ne_nil {ls : List Str} (h : ∃ l ∈ ls, meaning l ≠ []) : sayings ls ≠ [] := by
  obtain ⟨l, hl, hm⟩ := h
  intro he
  have : meaning l ∈ sayings ls := by
    unfold sayings
    rw [List.mem_filter]
    exact ⟨List.mem_map.mpr ⟨l, hl, rfl⟩, by simpa using hm⟩
  rw [he] at this
  simp at this

/-- The first line that says something decides, without looking at what was parsed before. -/
theorem processLines_fresh (n n' : Option Node) (ls : List Str) (ho : OneLiners ls) (h : ∃ l ∈ ls, meaning l ≠ []) :
    (Parser.processLines ⟨n, .start⟩ ls = Parser.processLines ⟨n', .start⟩ ls ∧
      ∃ m, (Parser.processLines ⟨n, .start⟩ ls).1.node = some m) ∨
    ((Parser.processLines ⟨n, .start⟩ ls).2 = .error .parseError ∧
      (Parser.processLines ⟨n', .start⟩ ls).2 = .error .parseError) := by
  rw [processLines_eq, processLines_eq, lines_sayings ls ho]
  have hne := sayings_ne_nil h
  have hmem : ∀ m ∈ sayings ls, m ≠ [] := by
    intro m hm
    unfold sayings at hm
    rw [List.mem_filter] at hm
    simpa using hm.2
  generalize sayings ls = ms at hne hmem
  cases ms with
  | nil => exact absurd rfl hne
  | cons m ms =>
    have hb : splitMeaning m ≠ .blank := fun e => hmem m (by simp) ((splitMeaning_blank m).mp e)
    simp only [List.map_cons, Parser.processAll]
    unfold Parser.processParts
    simp only [if_neg hb]
    by_cases hk : (splitMeaning m).kind = some ['N']
    · left
      rw [if_pos hk, if_pos hk]
      refine ⟨rfl, ?_⟩
      simp only
      have key : ∀ (ls : List Line) (st : Parser), (∃ m, st.node = some m) → ∃ m, (st.processAll ls).1.node = some m := by
        intro ls
        induction ls with
        | nil => intro st h; exact h
        | cons l ls ih =>
          intro st h
          have hstep : ∃ m, (st.processParts l).1.node = some m := by
            obtain ⟨m, hm⟩ := h
            have ht : ∀ (cs : Section), ∃ m, (Parser.typeLine { st with cs := cs } l).1.node = some m := by
              intro cs
              unfold Parser.typeLine
              split
              · exact ⟨_, rfl⟩
              · exact ⟨m, hm⟩
            have ht' : ∃ m, (Parser.typeLine st l).1.node = some m := by
              unfold Parser.typeLine
              split
              · exact ⟨_, rfl⟩
              · exact ⟨m, hm⟩
            have hp : ∀ (cs : Section) side, ∃ m, (Parser.portLine { st with cs := cs } side l).1.node = some m := by
              intro cs side
              unfold Parser.portLine
              split
              · exact ⟨_, rfl⟩
              · exact ⟨m, hm⟩
            have hp' : ∀ side, ∃ m, (Parser.portLine st side l).1.node = some m := by
              intro side
              unfold Parser.portLine
              split
              · exact ⟨_, rfl⟩
              · exact ⟨m, hm⟩
            unfold Parser.processParts
            repeat' split
            all_goals first | exact ⟨m, hm⟩ | exact ⟨_, rfl⟩ | exact ht _ | exact ht' | exact hp _ _ | exact hp' _
          simp only [Parser.processAll]
          cases hs : st.processParts l with
          | mk st' r =>
            rw [hs] at hstep
            cases r with
            | ok u => exact ih st' hstep
            | error x => exact hstep
      exact key _ _ ⟨_, rfl⟩
    · right
      rw [if_neg hk, if_neg hk]
      exact ⟨rfl, rfl⟩

/-- C49: if the text says anything at all (besides a version line), the outcome of `loads` does not
depend on the state of the parser, hence not on anything parsed before. -/
theorem C49_loads_partial (st st' : Parser) (t : Str)
    (h : (∃ l ∈ otherLines t, meaning l ≠ []) ∨ (¬ HeaderLine (firstLine t) ∧ meaning (firstLine t) ≠ [])) :
    (st.loads t).2 = (st'.loads t).2 := by
  rw [loads_eq, loads_eq]
  split
  · rfl
  · generalize hls : (if parseHeaderLine (rstripNewline (firstLine t)) = none then firstLine t :: otherLines t
      else otherLines t) = ls
    have ho : OneLiners ls := by
      rw [← hls]
      split
      · rw [← lines_eq]; exact splitOn_oneLiners t
      · exact oneLiners_other t
    have hm : ∃ l ∈ ls, meaning l ≠ [] := by
      rw [← hls]
      rcases h with ⟨l, hl, hm⟩ | ⟨hn, hm⟩
      · split
        · exact ⟨l, by simp [hl], hm⟩
        · exact ⟨l, hl, hm⟩
      · rw [if_pos ((header_iff _).mpr hn)]
        exact ⟨_, by simp, hm⟩
    rcases processLines_fresh st.node st'.node ls ho hm with ⟨he, _⟩ | ⟨h1, h2⟩
    · rw [he]
    · cases e1 : Parser.processLines ⟨st.node, .start⟩ ls with
      | mk a r =>
        cases e2 : Parser.processLines ⟨st'.node, .start⟩ ls with
        | mk a' r' =>
          rw [e1] at h1
          rw [e2] at h2
          simp only at h1 h2
          subst h1 h2
          rfl

/-- C49: the same for `load`. -/
theorem C49_load_partial (st st' : Parser) (t : Str) (h : ∃ l ∈ otherLines t, meaning l ≠ []) :
    (st.load t).2 = (st'.load t).2 := by
  rw [load_eq, load_eq]
  split
  · rfl
  · rcases processLines_fresh st.node st'.node _ (oneLiners_other t) h with ⟨he, _⟩ | ⟨h1, h2⟩
    · rw [he]
    · cases e1 : Parser.processLines ⟨st.node, .start⟩ (otherLines t) with
      | mk a r =>
        cases e2 : Parser.processLines ⟨st'.node, .start⟩ (otherLines t) with
        | mk a' r' =>
          rw [e1] at h1
          rw [e2] at h2
          simp only at h1 h2
          subst h1 h2
          rfl

/-- Texts that say nothing: a new parser raises, a used one returns the node of an earlier text
(`C49_empty_text_violated`). -/
example :
    (Parser.new.loads []).2.toOption.isNone ∧
    ((Parser.new.loads psText).1.loads []).2.toOption.map Node.name = some ['A'] ∧
    ((Parser.new.loads psText).1.load ("APX/1.2\n# nothing here\n".toList)).2.toOption.map Node.name = some ['A'] := by
  decide +kernel

/-- C49: the earlier node is returned even if its text was refused: after a text that raises, the next
empty text yields the part of the node built before the error. -/
example :
    let st := (Parser.new.loads "N\"A\"\nR\"x\"C\nR\"y\"?".toList)
    st.2.toOption.isNone ∧ (st.1.loads []).2.toOption.map (fun n => n.requires.map Port.name) = some [['x']] := by
  decide +kernel

example : ∃ l ∈ otherLines psText, meaning l ≠ [] :=
  ⟨"N\"A\" # node".toList, by decide +kernel, by decide +kernel⟩

/-! ### C50 -/

theorem typeLine_ok (st st' : Parser) (l : Line) (h : st.typeLine l = (st', .ok ())) :
    ∃ n n' t t', st.node = some n ∧ st' = { st with node := some n' } ∧ n.addType t = .ok (n', t') ∧
      (∃ k name dsg attr, l = .full k name dsg attr ∧ mkType (lineName name) dsg attr = .ok t) := by
  unfold Parser.typeLine at h
  split at h
  · rename_i n' t' he
    simp only [Prod.mk.injEq] at h
    obtain ⟨rfl, _⟩ := h
    rw [bind_ok_iff] at he
    obtain ⟨⟨name, dsg, attr⟩, h1, he⟩ := he
    rw [bind_ok_iff] at he
    obtain ⟨t, h2, he⟩ := he
    cases l with
    | full k nm d a =>
      simp only [Line.args, Except.ok.injEq, Prod.mk.injEq] at h1
      obtain ⟨rfl, rfl, rfl⟩ := h1
      cases hn : st.node with
      | none => rw [hn] at he; simp at he
      | some n =>
        rw [hn] at he
        exact ⟨n, n', t, t', rfl, rfl, he, k, nm, d, a, rfl, h2⟩
    | _ => simp [Line.args] at h1
  · simp at h

theorem portLine_ok (st st' : Parser) (side : Side) (l : Line) (h : st.portLine side l = (st', .ok ())) :
    ∃ n n' p q, st.node = some n ∧ st' = { st with node := some n' } ∧ n.addPort side p = .ok (n', q) ∧
      (∃ k name dsg attr, l = .full k name dsg attr ∧ mkPort (lineName name) dsg attr = .ok p) := by
  unfold Parser.portLine at h
  split at h
  · rename_i n' t' he
    simp only [Prod.mk.injEq] at h
    obtain ⟨rfl, _⟩ := h
    rw [bind_ok_iff] at he
    obtain ⟨⟨name, dsg, attr⟩, h1, he⟩ := he
    rw [bind_ok_iff] at he
    obtain ⟨t, h2, he⟩ := he
    cases l with
    | full k nm d a =>
      simp only [Line.args, Except.ok.injEq, Prod.mk.injEq] at h1
      obtain ⟨rfl, rfl, rfl⟩ := h1
      cases hn : st.node with
      | none => rw [hn] at he; simp at he
      | some n =>
        rw [hn] at he
        exact ⟨n, n', t, t', rfl, rfl, he, k, nm, d, a, rfl, h2⟩
    | _ => simp [Line.args] at h1
  · simp at h

/-- What reading port lines does to a node. -/
structure PortsRead (n m : Node) (ls : List Line) : Prop where
  name : m.name = n.name
  types : m.types = n.types
  prov : m.provides.map Port.name = n.provides.map Port.name ++ namesOf 'P' ls
  req : m.requires.map Port.name = n.requires.map Port.name ++ namesOf 'R' ls

theorem portLine_read {st st' : Parser} {side : Side} {l : Line} {n : Node} (hn : st.node = some n)
    (hk : l.kind = some [side.letter]) (h : st.portLine side l = (st', .ok ())) :
    st'.cs = st.cs ∧ ∃ m, st'.node = some m ∧ PortsRead n m [l] := by
  obtain ⟨n0, n', p, q, h1, rfl, h3, k, name, dsg, attr, rfl, h4⟩ := portLine_ok _ _ _ _ h
  rw [hn] at h1
  simp only [Option.some.injEq] at h1
  subst h1
  refine ⟨rfl, n', rfl, ?_⟩
  obtain ⟨h5, rfl⟩ := addPort_cases _ _ _ _ _ h3
  have hname : q.name = lineName name := by
    rw [(resolvePort_id_name _ _ _ h5).2.1]; exact (mkPort_facts _ _ _ _ h4).1
  simp only [Line.kind, Option.some.injEq] at hk
  cases side with
  | require =>
    simp only [Side.letter] at hk
    refine ⟨rfl, rfl, ?_, ?_⟩ <;> simp [Node.setPorts, Node.ports, namesOf, Line.kind, hk, Line.nodeName, hname]
  | provide =>
    simp only [Side.letter] at hk
    refine ⟨rfl, rfl, ?_, ?_⟩ <;> simp [Node.setPorts, Node.ports, namesOf, Line.kind, hk, Line.nodeName, hname]

theorem PortsRead.trans {a b c : Node} {l : Line} {ls : List Line} (h : PortsRead a b [l]) (h' : PortsRead b c ls) :
    PortsRead a c (l :: ls) := by
  refine ⟨h'.name.trans h.name, h'.types.trans h.types, ?_, ?_⟩
  · rw [h'.prov, h.prov, List.append_assoc]
    congr 1
    simp only [namesOf]
    rw [← List.map_append, ← List.filter_append]; rfl
  · rw [h'.req, h.req, List.append_assoc]
    congr 1
    simp only [namesOf]
    rw [← List.map_append, ← List.filter_append]; rfl

theorem PortsRead.junk (n : Node) (l : Line) (h1 : l.kind ≠ some ['P']) (h2 : l.kind ≠ some ['R']) :
    PortsRead n n [l] := by
  refine ⟨rfl, rfl, ?_, ?_⟩ <;> simp [namesOf, h1, h2]

theorem processAll_cons {st st' : Parser} {l : Line} {ls : List Line} (h : st.processAll (l :: ls) = (st', .ok ())) :
    ∃ s, st.processParts l = (s, .ok ()) ∧ s.processAll ls = (st', .ok ()) := by
  simp only [Parser.processAll] at h
  cases hp : st.processParts l with
  | mk s r =>
    rw [hp] at h
    cases r with
    | ok u => exact ⟨s, rfl, h⟩
    | error x => simp at h

theorem ports_read (ls : List Line) (hb : ∀ l ∈ ls, l ≠ .blank) (st st' : Parser) (n : Node) (hn : st.node = some n)
    (hcs : st.cs = .provide ∨ st.cs = .require) (h : st.processAll ls = (st', .ok ())) :
    PortPart (decide (st.cs = .provide)) ls ∧ ∃ m, st'.node = some m ∧ PortsRead n m ls := by
  induction ls generalizing st n with
  | nil =>
    simp only [Parser.processAll, Prod.mk.injEq, and_true] at h
    subst h
    exact ⟨.nil _, n, hn, rfl, rfl, by simp [namesOf], by simp [namesOf]⟩
  | cons l ls ih =>
    obtain ⟨s, h1, h2⟩ := processAll_cons h
    have ih := ih (fun x hx => hb x (by simp [hx]))
    have hp : ∀ (s0 : Parser), s0.node = some n → s0.cs = .provide → l.kind = some ['P'] →
        s0.portLine .provide l = (s, .ok ()) →
        PortPart (decide (st.cs = .provide)) (l :: ls) ∧ ∃ m, st'.node = some m ∧ PortsRead n m (l :: ls) := by
      intro s0 hs0 hc hk hl
      obtain ⟨e1, m, e2, e3⟩ := portLine_read hs0 hk hl
      obtain ⟨f1, m', f2, f3⟩ := ih s m e2 (Or.inl (e1.trans hc)) h2
      refine ⟨.provide _ _ _ hk ?_, m', f2, e3.trans f3⟩
      rw [e1, hc] at f1; exact f1
    have hr : ∀ (s0 : Parser), s0.node = some n → s0.cs = .require → l.kind = some ['R'] →
        s0.portLine .require l = (s, .ok ()) →
        PortPart (decide (st.cs = .provide)) (l :: ls) ∧ ∃ m, st'.node = some m ∧ PortsRead n m (l :: ls) := by
      intro s0 hs0 hc hk hl
      obtain ⟨e1, m, e2, e3⟩ := portLine_read hs0 hk hl
      obtain ⟨f1, m', f2, f3⟩ := ih s m e2 (Or.inr (e1.trans hc)) h2
      refine ⟨.require _ _ _ hk ?_, m', f2, e3.trans f3⟩
      rw [e1, hc] at f1; exact f1
    unfold Parser.processParts at h1
    rw [if_neg (hb l (by simp))] at h1
    rcases hcs with hcs | hcs
    · simp only [hcs] at h1
      split at h1
      · rename_i hk; exact hp st hn hcs hk h1
      · rename_i hk
        split at h1
        · rename_i hk'; exact hr { st with cs := .require } hn rfl hk' h1
        · rename_i hk'
          simp only [Prod.mk.injEq, and_true] at h1
          subst h1
          obtain ⟨f1, m', f2, f3⟩ := ih st n hn (Or.inl hcs) h2
          rw [hcs] at f1 ⊢
          exact ⟨.dropped _ _ hk hk' f1, m', f2, (PortsRead.junk n l hk hk').trans f3⟩
    · simp only [hcs] at h1
      split at h1
      · rename_i hk; exact hr st hn hcs hk h1
      · split at h1
        · rename_i hk'; exact hp { st with cs := .provide } hn rfl hk' h1
        · simp at h1

/-- What reading type lines does to a node. -/
structure TypesRead (n m : Node) (ls : List Line) : Prop where
  name : m.name = n.name
  req : m.requires = n.requires
  prov : m.provides = n.provides
  names : ∀ x, x ∈ m.types.map TypeObj.name ↔ x ∈ n.types.map TypeObj.name ∨ x ∈ ls.map Line.nodeName

theorem typeLine_read {st st' : Parser} {l : Line} {n : Node} (hn : st.node = some n)
    (h : st.typeLine l = (st', .ok ())) : st'.cs = st.cs ∧ ∃ m, st'.node = some m ∧ TypesRead n m [l] := by
  obtain ⟨n0, n', t, t', h1, rfl, h3, k, name, dsg, attr, rfl, h4⟩ := typeLine_ok _ _ _ h
  rw [hn] at h1
  simp only [Option.some.injEq] at h1
  subst h1
  refine ⟨rfl, n', rfl, ?_⟩
  have hname := (mkType_facts _ _ _ _ h4).1
  rcases addType_cases _ _ _ _ h3 with ⟨rfl, h5, h6⟩ | ⟨_, e, _, _, rfl, rfl⟩
  · refine ⟨rfl, rfl, rfl, ?_⟩
    intro x
    simp only [List.map_cons, List.map_nil, List.mem_singleton, Line.nodeName]
    constructor
    · exact Or.inl
    · rintro (h | rfl)
      · exact h
      · exact List.mem_map.mpr ⟨t', h5, h6.trans hname⟩
  · refine ⟨rfl, rfl, rfl, ?_⟩
    intro x
    simp [Line.nodeName, hname]

theorem types_read (ls : List Line) (hb : ∀ l ∈ ls, l ≠ .blank) (st st' : Parser) (n : Node) (hn : st.node = some n)
    (hcs : st.cs = .node ∨ st.cs = .type) (h : st.processAll ls = (st', .ok ())) :
    ∃ ts ps m m', ls = ts ++ ps ∧ (∀ l ∈ ts, l.kind = some ['T']) ∧ PortPart false ps ∧
      TypesRead n m ts ∧ st'.node = some m' ∧ PortsRead m m' ps := by
  induction ls generalizing st n with
  | nil =>
    simp only [Parser.processAll, Prod.mk.injEq, and_true] at h
    subst h
    exact ⟨[], [], n, n, rfl, by simp, .nil _, ⟨rfl, rfl, rfl, by simp⟩, hn, rfl, rfl, by simp [namesOf], by simp [namesOf]⟩
  | cons l ls ih =>
    obtain ⟨s, h1, h2⟩ := processAll_cons h
    have hp : ∀ (side : Side), l.kind = some [side.letter] → ∀ cs, (cs = .provide ∨ cs = .require) →
        (cs = .provide → side = .provide) → (cs = .require → side = .require) →
        Parser.portLine { st with cs := cs } side l = (s, .ok ()) →
        ∃ ts ps m m', l :: ls = ts ++ ps ∧ (∀ l ∈ ts, l.kind = some ['T']) ∧ PortPart false ps ∧
          TypesRead n m ts ∧ st'.node = some m' ∧ PortsRead m m' ps := by
      intro side hk cs hc hc1 hc2 hl
      obtain ⟨e1, m, e2, e3⟩ := portLine_read (st := { st with cs := cs }) hn hk hl
      simp only at e1
      obtain ⟨f1, m', f2, f3⟩ := ports_read ls (fun x hx => hb x (by simp [hx])) s st' m e2 (by rw [e1]; exact hc) h2
      refine ⟨[], l :: ls, n, m', rfl, by simp, ?_, ⟨rfl, rfl, rfl, by simp⟩, f2, e3.trans f3⟩
      rw [e1] at f1
      rcases hc with rfl | rfl
      · rw [hc1 rfl] at hk
        exact .provide _ _ _ hk f1
      · rw [hc2 rfl] at hk
        exact .require _ _ _ hk f1
    have ht : ∀ s0 : Parser, s0.node = some n → s0.cs = .type → l.kind = some ['T'] → s0.typeLine l = (s, .ok ()) →
        ∃ ts ps m m', l :: ls = ts ++ ps ∧ (∀ l ∈ ts, l.kind = some ['T']) ∧ PortPart false ps ∧
          TypesRead n m ts ∧ st'.node = some m' ∧ PortsRead m m' ps := by
      intro s0 hn0 hc0 hk h1
      obtain ⟨e1, m, e2, e3⟩ := typeLine_read hn0 h1
      obtain ⟨ts, ps, m1, m2, g1, g2, g3, g4, g5, g6⟩ :=
        ih (fun x hx => hb x (by simp [hx])) s m e2 (Or.inr (e1.trans hc0)) h2
      refine ⟨l :: ts, ps, m1, m2, by simp [g1], by simpa [hk] using g2, g3, ?_, g5, g6⟩
      refine ⟨g4.name.trans e3.name, g4.req.trans e3.req, g4.prov.trans e3.prov, ?_⟩
      intro x
      rw [g4.names, e3.names]
      simp [or_assoc]
    unfold Parser.processParts at h1
    rw [if_neg (hb l (by simp))] at h1
    have hrest : (if l.kind = some ['P'] then Parser.portLine { st with cs := .provide } .provide l
        else if l.kind = some ['R'] then Parser.portLine { st with cs := .require } .require l
        else (st, .error .parseError)) = (s, .ok ()) →
        ∃ ts ps m m', l :: ls = ts ++ ps ∧ (∀ l ∈ ts, l.kind = some ['T']) ∧ PortPart false ps ∧
          TypesRead n m ts ∧ st'.node = some m' ∧ PortsRead m m' ps := by
      intro h1
      split at h1
      · rename_i hk
        exact hp .provide hk .provide (Or.inl rfl) (by simp) (by simp) h1
      · split at h1
        · rename_i hk
          exact hp .require hk .require (Or.inr rfl) (by simp) (by simp) h1
        · simp at h1
    rcases hcs with hcs | hcs
    · simp only [hcs] at h1
      split at h1
      · rename_i hk; exact ht { st with cs := .type } hn rfl hk h1
      · exact hrest h1
    · simp only [hcs] at h1
      split at h1
      · rename_i hk; exact ht st hn hcs hk h1
      · exact hrest h1

theorem resolveTypes_names (n n' : Node) (h : n.resolveTypes = .ok n') :
    n'.name = n.name ∧ n'.types = n.types ∧ n'.provides.map Port.name = n.provides.map Port.name ∧
      n'.requires.map Port.name = n.requires.map Port.name := by
  obtain ⟨h1, _, h2, h3⟩ := resolveTypes_ok n n' h
  exact ⟨h1, h2, map_ok_map (h3 .provide) _ _ (fun x y e => (resolvePort_id_name _ _ _ e).2.1),
    map_ok_map (h3 .require) _ _ (fun x y e => (resolvePort_id_name _ _ _ e).2.1)⟩

open Classical in
/-- C50: the sections of an accepted text. `ls` are the lines that say something (after the version
line), as split by the parser. The first is the node line. Then come type lines. Then come port lines,
provide and require ports in any order, with no other line among them unless the last port line before
it was a provide port. The node's ports are those of the port lines, in order, and the names of its
types those of the type lines. -/
theorem C50_sections_partial (st : Parser) (t : Str) (n : Node) (h : (st.loads t).2 = .ok n)
    (ls : List Line) (hls : ls = (((if HeaderLine (firstLine t) then otherLines t
      else firstLine t :: otherLines t).map splitLine).filter (· ≠ .blank)))
    (hne : ls ≠ []) :
    ∃ nl ts ps, ls = nl :: (ts ++ ps) ∧ nl.kind = some ['N'] ∧ (∀ l ∈ ts, l.kind = some ['T']) ∧
      PortPart false ps ∧ n.name = nl.nodeName ∧
      (∀ x, x ∈ n.types.map TypeObj.name ↔ x ∈ ts.map Line.nodeName) ∧
      n.provides.map Port.name = namesOf 'P' ps ∧ n.requires.map Port.name = namesOf 'R' ps := by
  have hb : ∀ l ∈ ls, l ≠ .blank := by
    intro l hl
    rw [hls, List.mem_filter] at hl
    simpa using hl.2
  rw [loads_eq] at h
  split at h
  · simp at h
  rename_i hv
  rw [processLines_eq] at h
  have hlines : (if parseHeaderLine (rstripNewline (firstLine t)) = none then firstLine t :: otherLines t
      else otherLines t) = (if HeaderLine (firstLine t) then otherLines t else firstLine t :: otherLines t) := by
    by_cases hh : HeaderLine (firstLine t)
    · rw [if_pos hh, if_neg]
      rw [header_iff]; simpa using hh
    · rw [if_neg hh, if_pos ((header_iff _).mpr hh)]
  rw [hlines] at h
  have hls' : ((if HeaderLine (firstLine t) then otherLines t else firstLine t :: otherLines t).map splitLine).filter
      (fun l => decide (l ≠ .blank)) = ls := by rw [hls]
  rw [hls'] at h
  cases hp : Parser.processAll ⟨st.node, .start⟩ ls with
  | mk s r =>
    rw [hp] at h
    cases r with
    | error x => simp at h
    | ok u =>
      cases ls with
      | nil => exact absurd rfl hne
      | cons nl ls =>
        obtain ⟨s1, h1, h2⟩ := processAll_cons hp
        unfold Parser.processParts at h1
        rw [if_neg (hb nl (by simp))] at h1
        simp only at h1
        split at h1
        · rename_i hk
          simp only [Prod.mk.injEq, and_true] at h1
          subst h1
          obtain ⟨ts, ps, m, m', g1, g2, g3, g4, g5, g6⟩ :=
            types_read ls (fun x hx => hb x (by simp [hx])) _ s _ rfl (Or.inl rfl) h2
          simp only at h
          unfold Parser.finish at h
          rw [g5] at h
          simp only at h
          cases hr : m'.resolveTypes with
          | error x => rw [hr] at h; simp at h
          | ok n' =>
            rw [hr] at h
            simp only [Except.ok.injEq] at h
            subst h
            obtain ⟨e1, e2, e3, e4⟩ := resolveTypes_names _ _ hr
            refine ⟨nl, ts, ps, by rw [g1], hk, g2, g3, ?_, ?_, ?_, ?_⟩
            · rw [e1, g6.name, g4.name]; rfl
            · intro x
              rw [e2, g6.types, g4.names]
              simp [Node.new]
            · rw [e3, g6.prov, g4.prov]; simp [Node.new]
            · rw [e4, g6.req, g4.req]; simp [Node.new]
        · simp at h1

/-- C50: comments, blanks at the end of lines and blank lines do not matter: two texts that start with
the same version line, and whose other lines say the same things, are loaded alike. -/
theorem C50_layout (st : Parser) (t t' : Str) (h : HeaderLine (firstLine t)) (hf : firstLine t = firstLine t')
    (hs : sayings (otherLines t) = sayings (otherLines t')) : st.loads t = st.loads t' := by
  have h1 : ¬ parseHeaderLine (rstripNewline (firstLine t')) = none := by
    rw [header_iff, ← hf]; simpa using h
  rw [loads_eq, loads_eq, hf, if_neg h1, if_neg h1,
    processLines_sayings _ _ _ (oneLiners_other t) (oneLiners_other t') hs]

/-- C50: the same without version lines. -/
theorem C50_layout_headless (st : Parser) (t t' : Str) (h : ¬ HeaderLine (firstLine t)) (h' : ¬ HeaderLine (firstLine t'))
    (hs : sayings (splitOn '\n' t) = sayings (splitOn '\n' t')) : st.loads t = st.loads t' := by
  rw [loads_eq, loads_eq, (header_iff _).mpr h, (header_iff _).mpr h', if_pos rfl, if_pos rfl,
    ← lines_eq, ← lines_eq,
    processLines_sayings _ _ _ (splitOn_oneLiners t) (splitOn_oneLiners t') hs]

/-- C50: what two lines with the same meaning look like: a comment or trailing blanks can be added. -/
theorem C50_meaning (l c b : Str) (hb : ∀ x ∈ b, x = ' ' ∨ x = '\r') :
    meaning (l ++ b) = meaning l ∧ meaning (l ++ b ++ '#' :: c) = meaning l ∧ meaning b = [] ∧
      meaning ('#' :: c) = [] :=
  ⟨meaning_blanks l b hb, (meaning_comment _ c).trans (meaning_blanks l b hb), meaning_blanks [] b hb,
    meaning_comment [] c⟩

theorem isLineType_iff (c : Char) : isLineType c = true ↔ c ∈ kindChars := by
  constructor
  · intro h
    simp only [isLineType, Bool.or_eq_true, Bool.and_eq_true, decide_eq_true_eq] at h
    rcases h with (rfl | rfl) | ⟨h1, h2⟩
    · decide
    · decide
    · have key : ∀ n : Fin 26, Char.ofNat (65 + n.val) ∈ kindChars := by decide +kernel
      have := key ⟨c.toNat - 65, by omega⟩
      simp only [show 65 + (c.toNat - 65) = c.toNat by omega, Char.ofNat_toNat] at this
      exact this
  · have key : ∀ x ∈ kindChars, isLineType x = true := by decide +kernel
    exact key c

/-- C50, the kind of a line: it is the longest run of capital letters, plus and minus at its beginning (`N`,
`T`, `P` and `R` are the kinds that are understood, see `C50_sections_partial`; `RX` or `Z` are other
kinds). A line that says something and begins with another character has no kind. -/
theorem C50_kind (l k r : Str) (h : '\n' ∉ l) (hl : meaning l = k ++ r) (hk : ∀ c ∈ k, c ∈ kindChars)
    (hr : ∀ c, r.head? = some c → c ∉ kindChars) :
    (splitLine l).kind = if k = [] then none else some k := by
  have h1 : (k ++ r).takeWhile isLineType = k := by
    rw [List.takeWhile_append_of_pos (fun c hc => (isLineType_iff c).mpr (hk c hc))]
    cases r with
    | nil => simp
    | cons c r =>
      have : ¬ isLineType c = true := fun hc => hr c rfl ((isLineType_iff c).mp hc)
      simp [List.takeWhile_cons, this]
  rw [splitLine_meaning l h, hl]
  unfold splitMeaning
  simp only [h1]
  by_cases hk0 : k = []
  · subst hk0
    simp only [List.isEmpty_nil, if_true]
    split <;> rfl
  · have hne : ¬ (k ++ r).length = 0 := by
      cases k <;> simp_all
    rw [if_neg hne, if_neg (by simpa using hk0), if_neg hk0]
    unfold splitRest
    simp only
    split
    · split <;> rfl
    · rfl

example : meaning "RX\"p\"C # comment".toList = ['R', 'X'] ++ "\"p\"C".toList ∧
    (splitLine "RX\"p\"C # comment".toList).kind = some ['R', 'X'] := by decide +kernel

/-- After a provide port a type line, a second node line or nonsense is accepted there and dropped, while the same
lines after a require port are refused (`C50_dropped_violated`). -/
example :
    (Parser.new.loads "N\"A\"\nP\"p\"C\nT\"X\"C\nN\"B\"\nnonsense\n".toList).2.toOption.map
      (fun n => (n.name, n.types.length, n.provides.map Port.name, n.requires.length)) = some (['A'], 0, [['p']], 0) ∧
    (Parser.new.loads "N\"A\"\nR\"p\"C\nT\"X\"C\n".toList).2.toOption.isNone ∧
    (Parser.new.loads "N\"A\"\nR\"p\"C\nnonsense\n".toList).2.toOption.isNone := by
  decide +kernel

/-- A comment or a blank line before the version line: the version line is then taken for an ordinary line and
refused (`C50_comment_violated`). -/
example :
    (Parser.new.loads "APX/1.2\nN\"A\"\n".toList).2.toOption.isSome ∧
    (Parser.new.loads "# A\nAPX/1.2\nN\"A\"\n".toList).2.toOption.isNone ∧
    (Parser.new.loads "\nAPX/1.2\nN\"A\"\n".toList).2.toOption.isNone := by
  decide +kernel

/-- The same definition, laid out differently. -/
def psText' : Str := "APX/1.2\n\n# comment\nN\"A\"\nT\"X\"C(0,3)  # type\n\nP\"p\"T[0]:=2 \nR\"r\"S".toList

example : HeaderLine (firstLine psText) ∧ firstLine psText = firstLine psText' ∧
    sayings (otherLines psText) = sayings (otherLines psText') := by
  refine ⟨⟨'1', '2', [], by decide, by decide, by decide +kernel⟩, by decide +kernel, by decide +kernel⟩

example : (((otherLines psText).map splitLine).filter (· ≠ .blank)) ≠ [] ∧
    (Parser.new.loads psText).2.toOption.isSome := by decide +kernel

end Apx
