import Verif.Proofs.CUnitBody

/-! The text of a whole source file, read. -/

namespace Apx

theorem skip_comment {mid : Str} (h : '*' ∉ mid) : cSkipped ("/*".toList ++ mid ++ "*/".toList) = true := by
  have e1 : "/*".toList = ['/', '*'] := by decide +kernel
  have e2 : "*/".toList = ['*', '/'] := by decide +kernel
  simp only [cSkipped, decide_eq_true_eq]
  refine .inr (.inr (.inr ⟨?_, ?_, ?_⟩))
  · rw [e1, e2]
    simp
  · rw [e1, e2]
    have : (['/', '*'] ++ mid ++ ['*', '/']).length - 2 = (['/', '*'] ++ mid).length := by simp
    rw [this, List.drop_left]
  · rw [e1, e2]
    have : (List.drop 2 (['/', '*'] ++ mid ++ ['*', '/'])).dropLast.dropLast = mid := by
      show (mid ++ ['*', '/']).dropLast.dropLast = mid
      rw [show mid ++ ['*', '/'] = (mid ++ ['*']) ++ ['/'] by simp, List.dropLast_concat, List.dropLast_concat]
    rw [this]
    exact h

theorem skip_slashes (s : Str) : cSkipped ("//".toList ++ s) = true := by
  have e1 : "//".toList = ['/', '/'] := by decide +kernel
  simp only [cSkipped, decide_eq_true_eq]
  refine .inr (.inl ?_)
  rw [e1]
  rfl

theorem skip_include (s : Str) : cSkipped (includeLine s) = true := by
  have e1 : "#include \"".toList = "#include ".toList ++ ['"'] := by decide +kernel
  have e2 : "#include ".toList.length = 9 := by decide +kernel
  simp only [cSkipped, decide_eq_true_eq]
  refine .inr (.inr (.inl ?_))
  unfold includeLine
  rw [e1, List.append_assoc, List.append_assoc, ← e2, List.take_left']
  rfl

theorem skip_commentHeader (s : Str) : ∀ x ∈ commentHeader s, cSkipped x = true := by
  have e1 : List.replicate 78 '/' = "//".toList ++ List.replicate 76 '/' := by decide +kernel
  have e2 : "// ".toList = "//".toList ++ [' '] := by decide +kernel
  intro x hx
  unfold commentHeader at hx
  simp only [List.mem_cons, List.not_mem_nil, or_false] at hx
  rcases hx with rfl | rfl | rfl
  · rw [e1]
    exact skip_slashes _
  · rw [e2, List.append_assoc]
    exact skip_slashes _
  · rw [e1]
    exact skip_slashes _

theorem flat_commentHeader {s : Str} (h : Flat s) : ∀ x ∈ commentHeader s, Flat x := by
  intro x hx
  unfold commentHeader at hx
  simp only [List.mem_cons, List.not_mem_nil, or_false] at hx
  rcases hx with rfl | rfl | rfl
  · decide +kernel
  · flat_text
  · decide +kernel

theorem reads_comment (s : Str) : Reads (commentHeader s) [] := reads_skips _ (skip_commentHeader s)

theorem reads_blank : Reads [[]] [] := reads_skip (by decide)

/-! ### Arrays -/

/-- The arrays of a direction. -/
def bufferItems (dir macroDir flagsName : Str) (flags : Bool) (b : Bytes) : List CItem :=
  if b.length > 0 then
    [.array ("m_".toList ++ dir ++ "PortInitData".toList) ("APX_".toList ++ macroDir ++ "_PORT_DATA_LEN".toList) (some (b.map UInt8.toNat)),
      .array ("m_".toList ++ dir ++ "Portdata".toList) ("APX_".toList ++ macroDir ++ "_PORT_DATA_LEN".toList) none] ++
    (if flags then [.array ("m_".toList ++ dir ++ "Port".toList ++ flagsName ++ "Flags".toList)
      ("APX_".toList ++ macroDir ++ "_PORT_DATA_LEN".toList) none] else [])
  else []

theorem reads_numbers {l n s : Str} (h1 : cSkipped l = false) (h2 : readDecl (lexC l) = some (.inl (.numbers n s []))) (b : Bytes)
    (hb : b.length > 0) :
    Reads ([l] ++ initLines (b.map fun x => natStr x.toNat) ++ ["};".toList]) [.array n s (some (b.map UInt8.toNat))] := by
  intro rest
  have e : (b.map fun x => natStr x.toNat) = (b.map UInt8.toNat).map natStr := by
    rw [List.map_map]
    rfl
  have hne : b.map UInt8.toNat ≠ [] := by
    intro h
    have := congrArg List.length h
    simp at this
    simp [this] at hb
  rw [List.append_assoc, List.append_assoc]
  show readItems .top (l :: (initLines _ ++ ("};".toList :: rest))) = _
  rw [readItems_place h1 h2, e]
  exact readItems_numbers n s rest (b.map UInt8.toNat) [] hne

/-- The lines of the arrays in one direction, for the texts that occur. -/
theorem reads_buffer (dir macroDir flagsName : Str) (flags : Bool) (b : Bytes)
    (h1 : cSkipped ("static const uint8_t m_".toList ++ dir ++ "PortInitData[APX_".toList ++ macroDir ++ "_PORT_DATA_LEN]= {".toList) = false)
    (h2 : readDecl (lexC ("static const uint8_t m_".toList ++ dir ++ "PortInitData[APX_".toList ++ macroDir ++ "_PORT_DATA_LEN]= {".toList)) =
      some (.inl (.numbers ("m_".toList ++ dir ++ "PortInitData".toList) ("APX_".toList ++ macroDir ++ "_PORT_DATA_LEN".toList) [])))
    (h3 : cSkipped ("static uint8_t m_".toList ++ dir ++ "Portdata[APX_".toList ++ macroDir ++ "_PORT_DATA_LEN];".toList) = false)
    (h4 : readDecl (lexC ("static uint8_t m_".toList ++ dir ++ "Portdata[APX_".toList ++ macroDir ++ "_PORT_DATA_LEN];".toList)) =
      some (.inr (.array ("m_".toList ++ dir ++ "Portdata".toList) ("APX_".toList ++ macroDir ++ "_PORT_DATA_LEN".toList) none)))
    (h5 : cSkipped ("static uint8_t m_".toList ++ dir ++ "Port".toList ++ flagsName ++ "Flags[APX_".toList ++ macroDir ++
      "_PORT_DATA_LEN];".toList) = false)
    (h6 : readDecl (lexC ("static uint8_t m_".toList ++ dir ++ "Port".toList ++ flagsName ++ "Flags[APX_".toList ++ macroDir ++
      "_PORT_DATA_LEN];".toList)) = some (.inr (.array ("m_".toList ++ dir ++ "Port".toList ++ flagsName ++ "Flags".toList)
        ("APX_".toList ++ macroDir ++ "_PORT_DATA_LEN".toList) none))) :
    Reads (bufferLines dir macroDir flagsName flags b) (bufferItems dir macroDir flagsName flags b) := by
  unfold bufferLines bufferItems
  by_cases hb : b.length > 0
  · rw [if_pos hb, if_pos hb]
    have k1 := reads_numbers h1 h2 b hb
    have k2 : Reads [[], "static uint8_t m_".toList ++ dir ++ "Portdata[APX_".toList ++ macroDir ++ "_PORT_DATA_LEN];".toList]
        [.array ("m_".toList ++ dir ++ "Portdata".toList) ("APX_".toList ++ macroDir ++ "_PORT_DATA_LEN".toList) none] :=
      Reads.cons reads_blank (reads_item h3 h4)
    have k3 : Reads (if flags then ["static uint8_t m_".toList ++ dir ++ "Port".toList ++ flagsName ++ "Flags[APX_".toList ++ macroDir ++
        "_PORT_DATA_LEN];".toList] else [])
        (if flags then [.array ("m_".toList ++ dir ++ "Port".toList ++ flagsName ++ "Flags".toList)
          ("APX_".toList ++ macroDir ++ "_PORT_DATA_LEN".toList) none] else []) := by
      cases flags with
      | true => exact reads_item h5 h6
      | false => exact reads_nil
    have := (k1.append k2).append k3
    simpa using this
  · rw [if_neg hb, if_neg hb]
    exact reads_nil

theorem reads_outBuffer (b : Bytes) : Reads (bufferLines "out".toList "OUT".toList "Dirty".toList true b)
    (bufferItems "out".toList "OUT".toList "Dirty".toList true b) := by
  apply reads_buffer <;> decide +kernel

theorem reads_inBuffer (flags : Bool) (b : Bytes) : Reads (bufferLines "in".toList "IN".toList "Synced".toList flags b)
    (bufferItems "in".toList "IN".toList "Synced".toList flags b) := by
  apply reads_buffer <;> decide +kernel

theorem flat_initLines (items : List Str) (h : ∀ x ∈ items, Flat x) : ∀ l ∈ initLines items, Flat l := by
  induction hk : items.length using Nat.strongRecOn generalizing items with
  | _ k ih =>
    intro l hl
    rw [initLines] at hl
    split at hl
    · rcases List.mem_cons.1 hl with rfl | hl
      · exact flat_cons (by decide) (flat_cons (by decide) (flat_cons (by decide) (flat_append (flat_joinItems _
          (fun x hx => h x (List.mem_of_mem_take hx))) (by decide))))
      · exact ih _ (by rw [← hk, List.length_drop]; omega) (items.drop 32) (fun x hx => h x (List.mem_of_mem_drop hx)) rfl l hl
    · split at hl
      · rw [List.mem_singleton.1 hl]
        exact flat_cons (by decide) (flat_cons (by decide) (flat_cons (by decide) (flat_joinItems _ h)))
      · cases hl

theorem flat_buffer {dir macroDir flagsName : Str} (h1 : Flat dir) (h2 : Flat macroDir) (h3 : Flat flagsName) (flags : Bool) (b : Bytes) :
    ∀ x ∈ bufferLines dir macroDir flagsName flags b, Flat x := by
  unfold bufferLines
  split
  · intro x hx
    simp only [List.mem_append, List.mem_cons, List.not_mem_nil, or_false] at hx
    rcases hx with ((rfl | hx) | rfl | rfl | rfl) | hx
    · flat_text
    · refine flat_initLines _ ?_ x hx
      intro y hy
      obtain ⟨z, _, rfl⟩ := List.mem_map.1 hy
      exact flat_natStr _
    · decide +kernel
    · decide
    · flat_text
    · split at hx
      · rw [List.mem_singleton.1 hx]
        flat_text
      · cases hx
  · intro x hx
    cases hx

/-! ### The literal -/

theorem readItems_literals (n : Str) (rest : List Str) : ∀ (l : List Str) (acc : Str), (∀ x ∈ l, x.getLast? ≠ some ';') →
    readItems (.literals n acc) (endSemi l ++ rest) =
      (readItems .top rest).map fun r => .literal n (acc ++ (joinLines l ++ [';'])) :: r
  | [], acc, _ => by
    show (if [';'].getLast? = some ';' then _ else _) = _
    rw [if_pos (by decide)]
    simp [joinLines]
  | [a], acc, _ => by
    show (if (a ++ [';']).getLast? = some ';' then _ else _) = _
    rw [if_pos (by simp)]
    simp [joinLines]
  | a :: b :: l, acc, h => by
    have ih := readItems_literals n rest (b :: l) (acc ++ a ++ ['\n']) (fun x hx => h x (List.mem_cons_of_mem _ hx))
    show (if a.getLast? = some ';' then _ else readItems (.literals n (acc ++ a ++ ['\n'])) (endSemi (b :: l) ++ rest)) = _
    rw [if_neg (h a (by simp)), ih]
    simp [joinLines]

theorem reads_literal (l : List Str) (h : ∀ x ∈ l, x.getLast? ≠ some ';') :
    Reads (["static const char *m_apxDefinitionData=".toList] ++ endSemi l)
      [.literal "m_apxDefinitionData".toList (joinLines l ++ [';'])] := by
  intro rest
  rw [List.append_assoc]
  show readItems .top ("static const char *m_apxDefinitionData=".toList :: (endSemi l ++ rest)) = _
  rw [readItems_place (p := .literals "m_apxDefinitionData".toList []) (by decide +kernel) (by decide +kernel),
    readItems_literals _ _ l [] h]
  rfl

/-! ### Files -/

/-- What the source file consists of. -/
def GenSource.items (s : GenSource) : List CItem :=
  [.define "APX_DEFINITON_LEN".toList s.defLen, .define "APX_IN_PORT_DATA_LEN".toList s.inLen,
    .define "APX_OUT_PORT_DATA_LEN".toList s.outLen] ++
  (s.macros.elim [] fun m => m.1.map (fun x => .define ("APX_RX_LEN_".toList ++ macroName x.1) x.2) ++
    m.2.map fun x => .define ("APX_RX_OFFSET_".toList ++ macroName x.1) x.2) ++
  bufferItems "out".toList "OUT".toList "Dirty".toList true s.outInit ++
  bufferItems "in".toList "IN".toList "Synced".toList s.flags s.inInit ++
  [.object "apx_nodeData_t".toList "m_nodeData".toList, .literal "m_apxDefinitionData".toList s.literal] ++
  s.defs.map fun d => .func d.proto d.body.lines

/-- The names in the file can be used in C. -/
structure GenSource.Names (s : GenSource) : Prop where
  node : WordChars s.nodeName
  includes : ∀ i ∈ s.includes, Flat i
  macros : ∀ m, s.macros = some m → ∀ x ∈ m.1 ++ m.2, WordChars x.1
  literal : ∃ l, s.literal = joinLines l ++ [';'] ∧ ∀ x ∈ l, Flat x ∧ x.getLast? ≠ some ';'
  defs : ∀ d ∈ s.defs, d.proto.Words ∧ d.body.Names

theorem macro_ident (pre x : Str) (hpre : CWord pre) (h8 : pre.take 7 = "APX_RX_".toList) (hx : WordChars x) :
    CIdent (pre ++ x) := by
  have hl : 7 ≤ pre.length := by
    have := congrArg List.length h8
    rw [List.length_take] at this
    have h2 : "APX_RX_".toList.length = 7 := by decide +kernel
    omega
  have ht : (pre ++ x).take 7 = "APX_RX_".toList := by
    rw [List.take_append_of_le_length hl, h8]
  refine ⟨cWord_append hpre hx, ?_, ?_⟩
  · have : (pre ++ x).head? = ((pre ++ x).take 7).head? := by
      cases pre ++ x <;> rfl
    rw [this, ht]
    decide +kernel
  · intro h
    have : ∀ s ∈ cKeywords, s.take 7 ≠ "APX_RX_".toList := by decide +kernel
    exact this _ h ht

theorem reads_macros (m : Option (List (Str × Nat) × List (Str × Nat))) (h : ∀ x, m = some x → ∀ y ∈ x.1 ++ x.2, WordChars y.1) :
    Reads (macroLines m) (m.elim [] fun m => m.1.map (fun x => .define ("APX_RX_LEN_".toList ++ macroName x.1) x.2) ++
      m.2.map fun x => .define ("APX_RX_OFFSET_".toList ++ macroName x.1) x.2) := by
  cases m with
  | none => exact reads_nil
  | some x =>
    obtain ⟨a, b⟩ := x
    have h := h _ rfl
    have k1 : Reads (a.map fun x => defineLine ("APX_RX_LEN_".toList ++ macroName x.1) x.2)
        (a.map fun x => .define ("APX_RX_LEN_".toList ++ macroName x.1) x.2) :=
      reads_map _ _ a fun x hx => reads_define _ _ (macro_ident _ _ (by decide +kernel) (by decide +kernel)
        (macroName_words (h x (List.mem_append.2 (.inl hx)))))
    have k2 : Reads (b.map fun x => defineLine ("APX_RX_OFFSET_".toList ++ macroName x.1) x.2)
        (b.map fun x => .define ("APX_RX_OFFSET_".toList ++ macroName x.1) x.2) :=
      reads_map _ _ b fun x hx => reads_define _ _ (macro_ident _ _ (by decide +kernel) (by decide +kernel)
        (macroName_words (h x (List.mem_append.2 (.inr hx)))))
    have k := ((reads_blank.append k1).append reads_blank).append k2
    simpa [macroLines] using k

theorem flat_macros (m : Option (List (Str × Nat) × List (Str × Nat))) (h : ∀ x, m = some x → ∀ y ∈ x.1 ++ x.2, WordChars y.1) :
    ∀ l ∈ macroLines m, Flat l := by
  cases m with
  | none =>
    intro l hl
    cases hl
  | some x =>
    obtain ⟨a, b⟩ := x
    have h := h _ rfl
    intro l hl
    have key : ∀ (pre : Str) (x : Str × Nat), Flat pre → WordChars x.1 → Flat (defineLine (pre ++ macroName x.1) x.2) :=
      fun pre x hp hx => flat_define _ _ (flat_append hp (flat_wordChars (macroName_words hx)))
    simp only [macroLines, List.mem_append, List.mem_cons, List.not_mem_nil, or_false] at hl
    rcases hl with ((rfl | hl) | rfl) | hl
    · decide
    · obtain ⟨x, hx, rfl⟩ := List.mem_map.1 hl
      exact key _ x (by decide +kernel) (h x (List.mem_append.2 (.inl hx)))
    · decide
    · obtain ⟨x, hx, rfl⟩ := List.mem_map.1 hl
      exact key _ x (by decide +kernel) (h x (List.mem_append.2 (.inr hx)))

theorem flat_param {p : CParam} (h1 : CIdent p.name) (h2 : p.type.Words) : Flat p.text := by
  have h1 := flat_word h1.1
  have h2 := flat_word (typeName_word h2)
  have h3 : Flat (if p.type.pointer then " *".toList else " ".toList) := by cases p.type.pointer <;> decide +kernel
  unfold CParam.text
  flat_text

theorem flat_proto {p : CProto} (h : p.Words) : Flat p.text := by
  have h1 := flat_word h.1.1
  have h2 := flat_word (typeName_word h.2.1)
  have h3 : Flat (if p.result.pointer then " * ".toList else " ".toList) := by cases p.result.pointer <;> decide +kernel
  have h4 : Flat (if p.params = [] then "void".toList else joinItems (p.params.map CParam.text)) := by
    split
    · decide +kernel
    · refine flat_joinItems _ ?_
      intro x hx
      obtain ⟨y, hy, rfl⟩ := List.mem_map.1 hx
      exact flat_param (h.2.2 y hy).1 (h.2.2 y hy).2
  unfold CProto.text
  flat_text

theorem reads_def (d : CDef) (h1 : d.proto.Words) (h2 : d.body.Names) : Reads d.lines [.func d.proto d.body.lines] := by
  have k1 := reads_func d.proto h1 d.body.lines (fun l hl => (body_ok d.body h2 l hl).2)
  have k2 : Reads d.body.after [] := by
    cases d.body <;> first | exact reads_nil | exact reads_blank
  exact k1.append k2

theorem flat_def (d : CDef) (h1 : d.proto.Words) (h2 : d.body.Names) : ∀ l ∈ d.lines, Flat l := by
  intro l hl
  simp only [CDef.lines, List.mem_append, List.mem_cons, List.not_mem_nil, or_false] at hl
  rcases hl with (((rfl | rfl) | hl) | rfl) | hl
  · exact flat_proto h1
  · decide
  · exact (body_ok d.body h2 l hl).1
  · decide
  · have : l = [] := by
      revert hl
      cases d.body <;> simp [CBody.after]
    rw [this]
    decide

theorem flats_append {a b : List Str} (ha : ∀ x ∈ a, Flat x) (hb : ∀ x ∈ b, Flat x) : ∀ x ∈ a ++ b, Flat x := by
  intro x hx
  rcases List.mem_append.1 hx with hx | hx
  · exact ha x hx
  · exact hb x hx

/-- The text of a source file is read as what it consists of. -/
theorem readSource_text (s : GenSource) (h : s.Names) : readSource s.text = some s.items := by
  obtain ⟨L, hL, hl⟩ := h.literal
  have hA : ∃ A B, s.text = fileText (A ++ [s.literal] ++ B) ∧ (∀ x ∈ A ++ B, Flat x) ∧ Reads (A ++ endSemi L ++ B) s.items := by
    refine ⟨["/* ".toList ++ s.nodeName ++ " has been autogenerated by py-apx generator ".toList ++ apxVersion ++ " */".toList, []] ++
      commentHeader "INCLUDES".toList ++ [sysincludeLine "string.h".toList, sysincludeLine "stdio.h".toList] ++
      s.includes.map includeLine ++ [[]] ++
      commentHeader "CONSTANTS AND DATA TYPES".toList ++
      [defineLine "APX_DEFINITON_LEN".toList s.defLen, defineLine "APX_IN_PORT_DATA_LEN".toList s.inLen,
        defineLine "APX_OUT_PORT_DATA_LEN".toList s.outLen] ++
      macroLines s.macros ++ [[]] ++
      commentHeader "LOCAL FUNCTIONS".toList ++ [[]] ++ commentHeader "LOCAL VARIABLES".toList ++
      bufferLines "out".toList "OUT".toList "Dirty".toList true s.outInit ++
      bufferLines "in".toList "IN".toList "Synced".toList s.flags s.inInit ++
      ["static apx_nodeData_t m_nodeData;".toList, "static const char *m_apxDefinitionData=".toList],
      [[]] ++ commentHeader "GLOBAL FUNCTIONS".toList ++ (s.defs.map CDef.lines).flatten ++ commentHeader "LOCAL FUNCTIONS".toList, ?_, ?_, ?_⟩
    · unfold GenSource.text
      simp
    · have hn := flat_wordChars h.node
      have hbl : ∀ x ∈ ([[]] : List Str), Flat x := by decide
      have hdef : ∀ x ∈ (s.defs.map CDef.lines).flatten, Flat x := by
        intro x hx
        obtain ⟨l, hl, hx⟩ := List.mem_flatten.1 hx
        obtain ⟨d, hd, rfl⟩ := List.mem_map.1 hl
        exact flat_def d (h.defs d hd).1 (h.defs d hd).2 x hx
      have hinc : ∀ x ∈ s.includes.map includeLine, Flat x := by
        intro x hx
        obtain ⟨y, hy, rfl⟩ := List.mem_map.1 hx
        have := h.includes y hy
        show Flat ("#include \"".toList ++ y ++ ['"'])
        flat_text
      refine flats_append ?_ (flats_append (flats_append (flats_append hbl (flat_commentHeader (by decide +kernel))) hdef)
        (flat_commentHeader (by decide +kernel)))
      refine flats_append (flats_append (flats_append (flats_append (flats_append (flats_append (flats_append (flats_append
        (flats_append (flats_append (flats_append (flats_append (flats_append (flats_append ?_ (flat_commentHeader (by decide +kernel))) ?_)
        hinc) hbl) (flat_commentHeader (by decide +kernel))) ?_) (flat_macros _ h.macros)) hbl) (flat_commentHeader (by decide +kernel))) hbl)
        (flat_commentHeader (by decide +kernel))) (flat_buffer (by decide +kernel) (by decide +kernel) (by decide +kernel) _ _))
        (flat_buffer (by decide +kernel) (by decide +kernel) (by decide +kernel) _ _)) ?_
      · have hv : Flat apxVersion := by decide +kernel
        intro x hx
        simp only [List.mem_cons, List.not_mem_nil, or_false] at hx
        rcases hx with rfl | rfl
        · flat_text
        · decide
      · decide +kernel
      · intro x hx
        simp only [List.mem_cons, List.not_mem_nil, or_false] at hx
        rcases hx with rfl | rfl | rfl <;> exact flat_define _ _ (by decide +kernel)
      · decide +kernel
    · have e1 : "/* ".toList = "/*".toList ++ [' '] := by decide +kernel
      have e2 : " */".toList = [' '] ++ "*/".toList := by decide +kernel
      have r1 : Reads ["/* ".toList ++ s.nodeName ++ " has been autogenerated by py-apx generator ".toList ++ apxVersion ++ " */".toList, []] [] := by
        refine Reads.cons (x := []) (y := []) (reads_skip ?_) reads_blank
        have : "/* ".toList ++ s.nodeName ++ " has been autogenerated by py-apx generator ".toList ++ apxVersion ++ " */".toList =
            "/*".toList ++ ([' '] ++ s.nodeName ++ " has been autogenerated by py-apx generator ".toList ++ apxVersion ++ [' ']) ++ "*/".toList := by
          rw [e1, e2]
          simp
        rw [this]
        refine skip_comment ?_
        have hs : ∀ c ∈ s.nodeName, c ≠ '*' := by
          rintro c hc rfl
          exact absurd (h.node _ hc) (by decide +kernel)
        simp only [List.mem_append]
        rintro ((((hm | hm) | hm) | hm) | hm)
        · exact absurd hm (by decide)
        · exact hs _ hm rfl
        · exact absurd hm (by decide +kernel)
        · exact absurd hm (by decide +kernel)
        · exact absurd hm (by decide)
      have r2 : Reads [sysincludeLine "string.h".toList, sysincludeLine "stdio.h".toList] [] := reads_skips _ (by decide +kernel)
      have r3 : Reads (s.includes.map includeLine) [] := reads_skips _ (by
        intro l hl
        obtain ⟨y, _, rfl⟩ := List.mem_map.1 hl
        exact skip_include y)
      have r4 : Reads [defineLine "APX_DEFINITON_LEN".toList s.defLen, defineLine "APX_IN_PORT_DATA_LEN".toList s.inLen,
          defineLine "APX_OUT_PORT_DATA_LEN".toList s.outLen]
          [.define "APX_DEFINITON_LEN".toList s.defLen, .define "APX_IN_PORT_DATA_LEN".toList s.inLen,
            .define "APX_OUT_PORT_DATA_LEN".toList s.outLen] :=
        Reads.cons (reads_define _ _ (by decide +kernel)) (Reads.cons (reads_define _ _ (by decide +kernel))
          (reads_define _ _ (by decide +kernel)))
      have r5 : Reads ["static apx_nodeData_t m_nodeData;".toList] [.object "apx_nodeData_t".toList "m_nodeData".toList] :=
        reads_item (by decide +kernel) (by decide +kernel)
      have r6 := reads_literal L (fun x hx => (hl x hx).2)
      rw [← hL] at r6
      have r7 : Reads (s.defs.map CDef.lines).flatten (s.defs.map fun d => .func d.proto d.body.lines) :=
        reads_flatten _ _ _ fun d hd => reads_def d (h.defs d hd).1 (h.defs d hd).2
      have r := (((((((((((((((((r1.append (reads_comment "INCLUDES".toList)).append r2).append r3).append reads_blank).append
        (reads_comment "CONSTANTS AND DATA TYPES".toList)).append r4).append (reads_macros s.macros h.macros)).append reads_blank).append
        (reads_comment "LOCAL FUNCTIONS".toList)).append reads_blank).append (reads_comment "LOCAL VARIABLES".toList)).append
        (reads_outBuffer s.outInit)).append (reads_inBuffer s.flags s.inInit)).append r5).append r6).append reads_blank).append
        (reads_comment "GLOBAL FUNCTIONS".toList)).append (r7.append (reads_comment "LOCAL FUNCTIONS".toList))
      unfold GenSource.items
      simp only [List.append_assoc, List.nil_append, List.append_nil, List.cons_append] at r ⊢
      exact r
  obtain ⟨A, B, h1, h2, h3⟩ := hA
  have e : s.text = fileText (A ++ endSemi L ++ B) := by
    rw [h1, hL]
    simp only [fileText_append, fileText_endSemi]
  unfold readSource
  rw [e, cLines_fileText]
  · have := h3 []
    rw [List.append_nil] at this
    rw [this]
    show some (s.items ++ []) = _
    rw [List.append_nil]
  · intro x hx
    simp only [List.mem_append] at hx h2
    rcases hx with (hx | hx) | hx
    · exact h2 x (.inl hx)
    · rcases endSemi_mem L x hx with hx | rfl | ⟨y, hy, rfl⟩
      · exact (hl x hx).1
      · decide
      · exact flat_append (hl y hy).1 (by decide)
    · exact h2 x (.inr hx)

end Apx
