import Verif.Model.Signature
import Verif.Spec.Signature
import Verif.Proofs.PyStr

namespace Apx

theorem bind_ok_iff {α β : Type} {x : Py α} {f : α → Py β} {b : β} :
    (x >>= f) = .ok b ↔ ∃ a, x = .ok a ∧ f a = .ok b := by
  cases x with
  | error e => simp [bind, Except.bind]
  | ok a => simp [bind, Except.bind]

@[simp] theorem ok_bind {α β : Type} (a : α) (f : α → Py β) : ((Except.ok a : Py α) >>= f) = f a := rfl
@[simp] theorem error_bind {α β : Type} (e : PyErr) (f : α → Py β) :
    ((Except.error e : Py α) >>= f) = .error e := rfl

theorem parseRange_length (s : Str) (r : Option Int × Option Int × Str) (h : parseRange s = .ok r) :
    r.2.2.length ≤ s.length := by
  unfold parseRange at h
  split at h
  · split at h
    · simp at h
    · rename_i d rem hm
      rw [bind_ok_iff] at h
      obtain ⟨a, _, h⟩ := h
      simp only [Except.ok.injEq] at h
      subst h
      have := matchPair_some_length _ _ _ _ _ hm
      simp; omega
  · simp only [Except.ok.injEq] at h; subst h; simp

theorem parseArray_length (s : Str) (r : Option Nat × Str) (h : parseArray s = .ok r) :
    r.2.length ≤ s.length := by
  unfold parseArray at h
  split at h
  · split at h
    · simp at h
    · rename_i d rem hm
      rw [bind_ok_iff] at h
      obtain ⟨a, _, h⟩ := h
      split at h
      · simp at h
      simp only [Except.ok.injEq] at h
      subst h
      have := matchPair_some_length _ _ _ _ _ hm
      simp; omega
  · simp only [Except.ok.injEq] at h; subst h; simp

theorem parseRef_length (s : Str) (r : Elem × Str) (h : parseRef s = .ok r) : r.2.length ≤ s.length := by
  unfold parseRef at h
  split at h
  · simp at h
  · rename_i d rem hm
    have := matchPair_some_length _ _ _ _ _ hm
    split at h
    · split at h
      · simp only [Except.ok.injEq] at h; subst h; simp; omega
      · simp at h
    · rw [bind_ok_iff] at h
      obtain ⟨a, _, h⟩ := h
      simp only [Except.ok.injEq] at h; subst h; simp; omega

theorem parsePrim_length (tc : TypeCode) (s : Str) (r : Elem × Str) (h : parsePrim tc s = .ok r) :
    r.2.length ≤ s.length := by
  unfold parsePrim at h
  rw [bind_ok_iff] at h
  obtain ⟨⟨a, b, s1⟩, h1, h⟩ := h
  simp only [] at h
  rw [bind_ok_iff] at h
  obtain ⟨⟨c, s2⟩, h2, h⟩ := h
  simp only [Except.ok.injEq] at h
  subst h
  have e1 := parseRange_length _ _ h1
  have e2 := parseArray_length _ _ h2
  simp only [] at e1 e2 ⊢
  omega

theorem parse_length (n : Nat) :
    (∀ s e r, parseSigF n s = .ok (some e, r) → r.length < s.length) ∧
    (∀ s fs r, parseRecF n s = .ok (fs, r) → r.length < s.length) := by
  induction n with
  | zero => simp [parseSigF, parseRecF]
  | succ n ih =>
    constructor
    · intro s e r h
      cases s with
      | nil => simp [parseSigF] at h
      | cons c s =>
        simp only [parseSigF] at h
        split at h
        · rw [bind_ok_iff] at h
          obtain ⟨⟨fs, r'⟩, h1, h⟩ := h
          simp only [Except.ok.injEq, Prod.mk.injEq, Option.some.injEq] at h
          obtain ⟨_, rfl⟩ := h
          have := ih.2 _ _ _ h1
          simp; omega
        · split at h
          · rw [bind_ok_iff] at h
            obtain ⟨⟨fs, r'⟩, h1, h⟩ := h
            simp only [Except.ok.injEq, Prod.mk.injEq, Option.some.injEq] at h
            obtain ⟨_, rfl⟩ := h
            have := parseRef_length _ _ h1
            simp only [] at this
            simp; omega
          · split at h
            · simp at h
            · rw [bind_ok_iff] at h
              obtain ⟨⟨fs, r'⟩, h1, h⟩ := h
              simp only [Except.ok.injEq, Prod.mk.injEq, Option.some.injEq] at h
              obtain ⟨_, rfl⟩ := h
              have := parsePrim_length _ _ _ h1
              simp only [] at this
              simp; omega
    · intro s fs r h
      simp only [parseRecF] at h
      split at h
      · simp at h
      · split at h
        · simp at h
        · have hl := matchPair_length s '"' '"'
          rw [bind_ok_iff] at h
          obtain ⟨⟨ce, r1⟩, h1, h⟩ := h
          cases ce with
          | none =>
            simp only [] at h
            split at h
            · rename_i hs hh
              simp only [Except.ok.injEq, Prod.mk.injEq] at h
              obtain ⟨_, rfl⟩ := h
              -- the text was not consumed
              have : r1 = (matchPair s '"' '"').2 := by
                revert h1
                generalize (matchPair s '"' '"').2 = t
                intro h1
                cases n with
                | zero => simp [parseSigF] at h1
                | succ n =>
                  cases t with
                  | nil => simp [parseSigF] at h1
                  | cons c t =>
                    simp only [parseSigF] at h1
                    split at h1
                    · rw [bind_ok_iff] at h1
                      obtain ⟨_, _, h1⟩ := h1
                      simp at h1
                    · split at h1
                      · rw [bind_ok_iff] at h1
                        obtain ⟨_, _, h1⟩ := h1
                        simp at h1
                      · split at h1
                        · simp at h1; exact h1.symm
                        · rw [bind_ok_iff] at h1
                          obtain ⟨_, _, h1⟩ := h1
                          simp at h1
              subst this
              rw [List.length_tail]
              have : (matchPair s '"' '"').2.length ≠ 0 := by
                intro h0
                rw [List.length_eq_zero_iff] at h0
                rw [h0] at hh; simp at hh
              omega
            · simp at h
          | some e =>
            simp only [] at h
            rw [bind_ok_iff] at h
            obtain ⟨⟨fs', r2⟩, h2, h⟩ := h
            simp only [Except.ok.injEq, Prod.mk.injEq] at h
            obtain ⟨_, rfl⟩ := h
            have e1 := ih.1 _ _ _ h1
            have e2 := ih.2 _ _ _ h2
            omega

theorem parse_fuel (n : Nat) :
    (∀ s m, 2 * s.length + 1 ≤ n → n ≤ m → parseSigF m s = parseSigF n s) ∧
    (∀ s m, 2 * s.length + 2 ≤ n → n ≤ m → parseRecF m s = parseRecF n s) := by
  induction n with
  | zero => constructor <;> (intro s m h; omega)
  | succ n ih =>
    constructor
    · intro s m h hm
      obtain ⟨m, rfl⟩ : ∃ k, m = k + 1 := ⟨m - 1, by omega⟩
      cases s with
      | nil => simp [parseSigF]
      | cons c s =>
        simp only [List.length_cons] at h
        simp only [parseSigF]
        rw [ih.2 s m (by omega) (by omega)]
    · intro s m h hm
      obtain ⟨m, rfl⟩ : ∃ k, m = k + 1 := ⟨m - 1, by omega⟩
      simp only [parseRecF]
      split
      · rfl
      · split
        · rfl
        · have hl := matchPair_length s '"' '"'
          rw [ih.1 _ m (by omega) (by omega)]
          cases hp : parseSigF n (matchPair s '"' '"').2 with
          | error e => rfl
          | ok p =>
            obtain ⟨ce, r⟩ := p
            cases ce with
            | none => rfl
            | some e =>
              have := (parse_length n).1 _ _ _ hp
              simp only [ok_bind]
              rw [ih.2 r m (by omega) (by omega)]

/-- The bound on the recursion depth of the parser is never reached: any larger one gives the
same result. -/
theorem parseSig_fuel (s : Str) (m : Nat) (h : 2 * s.length + 1 ≤ m) : parseSigF m s = parseSig s := by
  unfold parseSig
  rw [(parse_fuel (2 * s.length + 1)).1 s m (by omega) h,
    (parse_fuel (2 * s.length + 1)).1 s (2 * s.length + 2) (by omega) (by omega)]

/-! ### Round trip -/

theorem parseExtended_print (a b : Int) :
    parseExtended (intStr a ++ ',' :: intStr b) = .ok (a, b) := by
  unfold parseExtended
  rw [splitOn_append _ _ _ (intStr_not_mem a ',' (by decide)), splitOn_none _ _ (intStr_not_mem b ',' (by decide))]
  simp [pyInt_intStr]

theorem arrayStr_head (a : Option Nat) (rest : Str) (h1 : rest.head? ≠ some '(') :
    (arrayStr a ++ rest).head? ≠ some '(' := by
  cases a with
  | none => simpa [arrayStr] using h1
  | some n => simp [arrayStr]

theorem parseRange_print (mn mx : Option Int) (rest : Str) (hw : mn.isSome = mx.isSome)
    (h1 : rest.head? ≠ some '(') : parseRange (rangeStr mn mx ++ rest) = .ok (mn, mx, rest) := by
  cases mn with
  | none =>
    cases mx with
    | some b => simp at hw
    | none =>
      simp only [rangeStr, List.nil_append]
      unfold parseRange
      rw [if_neg h1]
  | some a =>
    cases mx with
    | none => simp at hw
    | some b =>
      have e : rangeStr (some a) (some b) ++ rest
          = '(' :: ((intStr a ++ ',' :: intStr b) ++ ')' :: rest) := by
        simp [rangeStr]
      rw [e]
      unfold parseRange
      rw [if_pos (by simp), matchPair_simple '(' ')']
      · simp [parseExtended_print]
      · simp only [List.mem_append, List.mem_cons, not_or]
        exact ⟨intStr_not_mem a _ (by decide), by decide, intStr_not_mem b _ (by decide)⟩
      · simp only [List.mem_append, List.mem_cons, not_or]
        exact ⟨intStr_not_mem a _ (by decide), by decide, intStr_not_mem b _ (by decide)⟩

theorem parseArray_print (a : Option Nat) (rest : Str) (h1 : rest.head? ≠ some '[') :
    parseArray (arrayStr a ++ rest) = .ok (a, rest) := by
  cases a with
  | none =>
    simp only [arrayStr, List.nil_append]
    unfold parseArray
    rw [if_neg h1]
  | some n =>
    have e : arrayStr (some n) ++ rest = '[' :: (intStr n ++ ']' :: rest) := by simp [arrayStr]
    rw [e]
    unfold parseArray
    rw [if_pos (by simp), matchPair_simple '[' ']' _ _ (intStr_not_mem _ _ (by decide))
      (intStr_not_mem _ _ (by decide))]
    simp only [pyInt_intStr, ok_bind]
    rw [if_neg (by omega)]
    simp

theorem parseRef_name (n rest : Str) (h : RefNameOk n) :
    parseRef ('[' :: '"' :: (n ++ ['"', ']']) ++ rest) = .ok (.refName n, rest) := by
  have e : '[' :: '"' :: (n ++ ['"', ']']) ++ rest = '[' :: (('"' :: (n ++ '"' :: [])) ++ ']' :: rest) := by
    simp
  rw [e]
  unfold parseRef
  rw [matchPair_simple '[' ']' _ _ (by simpa using h.2.1) (by simpa using h.2.2)]
  simp only []
  rw [matchPair_simple '"' '"' n [] h.1 h.1]
  simp

theorem parseRef_id (i : Int) (rest : Str) :
    parseRef ('[' :: (intStr i ++ [']']) ++ rest) = .ok (.refId i, rest) := by
  have e : '[' :: (intStr i ++ [']']) ++ rest = '[' :: (intStr i ++ ']' :: rest) := by simp
  rw [e]
  unfold parseRef
  rw [matchPair_simple '[' ']' _ _ (intStr_not_mem _ _ (by decide)) (intStr_not_mem _ _ (by decide))]
  simp only []
  rw [matchPair_other]
  · simp [pyInt_intStr]
  · intro h
    have : '"' ∈ intStr i := by
      cases hi : intStr i with
      | nil => simp [hi] at h
      | cons c t => simp [hi] at h; simp [h]
    exact intStr_not_mem i '"' (by decide) this

theorem codeOfLetter_letter (tc : TypeCode) : codeOfLetter tc.letter = some tc := by
  cases tc <;> decide

theorem letter_ne (tc : TypeCode) : tc.letter ≠ '{' ∧ tc.letter ≠ 'T' ∧ tc.letter ≠ '"' := by
  cases tc <;> decide

/-- Text that cannot be mistaken for a range or an array length. -/
def Stops (s : Str) : Prop := s.head? ≠ some '(' ∧ s.head? ≠ some '['

mutual
theorem Elem.parse_toStr (ids : Str → Option Int) (nm : Bool) (e : Elem) (h : e.WellFormed) :
    ∃ s, e.toStr ids nm = .ok s ∧ s ≠ [] ∧ s.head? ≠ some '"' ∧
      ∀ rest n, Stops rest → 2 * (s ++ rest).length + 1 ≤ n →
        parseSigF n (s ++ rest) = .ok (some (e.asWritten ids nm), rest) := by
  match e, h with
  | .prim tc mn mx a, h =>
    refine ⟨_, rfl, by simp, by simpa using (letter_ne tc).2.2, ?_⟩
    intro rest n hr hn
    obtain ⟨n, rfl⟩ : ∃ k, n = k + 1 := ⟨n - 1, by simp at hn; omega⟩
    simp only [List.cons_append, parseSigF]
    rw [if_neg (letter_ne tc).1, if_neg (letter_ne tc).2.1]
    simp only [codeOfLetter_letter]
    unfold parsePrim
    rw [List.append_assoc, parseRange_print _ _ _ h (arrayStr_head _ _ hr.1)]
    simp only [ok_bind]
    rw [parseArray_print _ _ hr.2]
    simp [Elem.asWritten]
  | .record fs a, h =>
    simp only [Elem.WellFormed] at h
    obtain ⟨ha, hf⟩ := h
    subst ha
    obtain ⟨s, hs, hp⟩ := Fields.parse_toStr ids nm fs hf
    refine ⟨'{' :: (s ++ '}' :: arrayStr none), by simp [Elem.toStr, hs], by simp, by simp, ?_⟩
    intro rest n hr hn
    obtain ⟨n, rfl⟩ : ∃ k, n = k + 1 := ⟨n - 1, by simp at hn; omega⟩
    have e1 : '{' :: (s ++ '}' :: arrayStr none) ++ rest = '{' :: (s ++ '}' :: rest) := by
      simp [arrayStr]
    rw [e1] at hn ⊢
    simp only [parseSigF]
    rw [if_pos trivial, hp rest n (by simp at hn ⊢; omega)]
    simp [Elem.asWritten]
  | .refId i, h => exact absurd h (by simp [Elem.WellFormed])
  | .refName nme, h =>
    refine ⟨_, rfl, by simp, by simp, ?_⟩
    intro rest n hr hn
    obtain ⟨n, rfl⟩ : ∃ k, n = k + 1 := ⟨n - 1, by simp at hn; omega⟩
    simp only [List.cons_append, parseSigF]
    rw [if_neg (by decide), if_pos trivial]
    have := parseRef_name nme rest h
    simp only [List.cons_append] at this
    rw [this]
    simp [Elem.asWritten]
  | .refType nme t, h =>
    by_cases hc : nm = false ∧ ∃ i, ids nme = some i
    · obtain ⟨rfl, i, hi⟩ := hc
      refine ⟨'T' :: '[' :: (intStr i ++ [']']), by simp [Elem.toStr, hi], by simp, by simp, ?_⟩
      intro rest n hr hn
      obtain ⟨n, rfl⟩ : ∃ k, n = k + 1 := ⟨n - 1, by simp at hn; omega⟩
      simp only [List.cons_append, parseSigF]
      rw [if_neg (by decide), if_pos trivial]
      have := parseRef_id i rest
      simp only [List.cons_append] at this
      rw [this]
      simp [Elem.asWritten, hi]
    · have e1 : Elem.toStr ids nm (.refType nme t) = .ok ('T' :: '[' :: '"' :: (nme ++ ['"', ']'])) := by
        cases nm with
        | true => simp [Elem.toStr]
        | false =>
          have : ids nme = none := by
            cases hi : ids nme with
            | none => rfl
            | some i => exact absurd ⟨rfl, i, hi⟩ hc
          simp [Elem.toStr, this]
      have e2 : Elem.asWritten ids nm (.refType nme t) = .refName nme := by
        cases nm with
        | true => simp [Elem.asWritten]
        | false =>
          have : ids nme = none := by
            cases hi : ids nme with
            | none => rfl
            | some i => exact absurd ⟨rfl, i, hi⟩ hc
          simp [Elem.asWritten, this]
      refine ⟨_, e1, by simp, by simp, ?_⟩
      intro rest n hr hn
      obtain ⟨n, rfl⟩ : ∃ k, n = k + 1 := ⟨n - 1, by simp at hn; omega⟩
      simp only [List.cons_append, parseSigF]
      rw [if_neg (by decide), if_pos trivial]
      have := parseRef_name nme rest h
      simp only [List.cons_append] at this
      rw [this]
      simp [e2]

theorem Fields.parse_toStr (ids : Str → Option Int) (nm : Bool) (fs : Fields) (h : fs.WellFormed) :
    ∃ s, fs.toStr ids nm = .ok s ∧
      ∀ rest n, 2 * (s ++ '}' :: rest).length + 2 ≤ n →
        parseRecF n (s ++ '}' :: rest) = .ok (fs.asWritten ids nm, rest) := by
  match fs, h with
  | .nil, _ =>
    refine ⟨[], rfl, ?_⟩
    intro rest n hn
    obtain ⟨n, rfl⟩ : ∃ k, n = k + 2 := ⟨n - 2, by simp at hn; omega⟩
    simp only [List.nil_append, parseRecF]
    rw [if_neg (by simp), matchPair_other _ _ _ (by simp)]
    simp only []
    rw [if_neg (by simp)]
    simp [parseSigF, codeOfLetter, Fields.asWritten]
  | .cons nme e r, h =>
    simp only [Fields.WellFormed] at h
    obtain ⟨⟨nm', rfl, hq⟩, he, hr⟩ := h
    obtain ⟨s, hs, hne, hh, hp⟩ := Elem.parse_toStr ids nm e he
    obtain ⟨t, ht, hq'⟩ := Fields.parse_toStr ids nm r hr
    refine ⟨'"' :: (nm' ++ '"' :: (s ++ t)), by simp [Fields.toStr, hs, ht, nameStr], ?_⟩
    intro rest n hn
    obtain ⟨n, rfl⟩ : ∃ k, n = k + 1 := ⟨n - 1, by simp at hn; omega⟩
    have e1 : '"' :: (nm' ++ '"' :: (s ++ t)) ++ '}' :: rest
        = '"' :: (nm' ++ '"' :: (s ++ (t ++ '}' :: rest))) := by simp
    rw [e1] at hn ⊢
    simp only [parseRecF]
    rw [if_neg (by simp), matchPair_simple '"' '"' _ _ hq hq]
    simp only []
    rw [if_neg (by simp)]
    have hstop : Stops (t ++ '}' :: rest) := by
      cases r with
      | nil => simp [Fields.toStr] at ht; subst ht; simp [Stops]
      | cons a b c =>
        simp only [Fields.toStr, bind_ok_iff] at ht
        obtain ⟨_, _, _, _, ht⟩ := ht
        simp only [Except.ok.injEq] at ht
        subst ht; simp [Stops]
    rw [hp _ n hstop (by simp at hn ⊢; omega)]
    simp only [ok_bind]
    rw [hq' rest n (by
      have : 0 < s.length := List.length_pos_iff.mpr hne
      simp at hn ⊢; omega)]
    simp [Fields.asWritten]
end

mutual
theorem Elem.asWritten_noResolved (ids : Str → Option Int) (nm : Bool) (e : Elem) (h : e.NoResolved) :
    e.asWritten ids nm = e := by
  match e, h with
  | .prim .., _ => simp [Elem.asWritten]
  | .record fs a, h => simp [Elem.asWritten, Fields.asWritten_noResolved ids nm fs (by simpa [Elem.NoResolved] using h)]
  | .refId _, _ => simp [Elem.asWritten]
  | .refName _, _ => simp [Elem.asWritten]
  | .refType _ _, h => exact absurd h (by simp [Elem.NoResolved])
theorem Fields.asWritten_noResolved (ids : Str → Option Int) (nm : Bool) (fs : Fields) (h : fs.NoResolved) :
    fs.asWritten ids nm = fs := by
  match fs, h with
  | .nil, _ => simp [Fields.asWritten]
  | .cons n e r, h =>
    simp only [Fields.NoResolved] at h
    simp [Fields.asWritten, Elem.asWritten_noResolved ids nm e h.1, Fields.asWritten_noResolved ids nm r h.2]
end

theorem findType_unique (types : List NamedType) (n : Str) (t : Elem)
    (h1 : ∀ u ∈ types, u.name = n → u = ⟨n, t⟩) (h2 : ⟨n, t⟩ ∈ types) :
    findType types n = some ⟨n, t⟩ := by
  unfold findType
  cases hf : types.find? (fun t => t.name = n) with
  | none =>
    rw [List.find?_eq_none] at hf
    have := hf _ h2
    simp at this
  | some u =>
    have hm := List.mem_of_find?_eq_some hf
    have hn := List.find?_some hf
    rw [h1 u hm (by simpa using hn)]

mutual
theorem Elem.resolve_asWritten (types : List NamedType) (ids : Str → Option Int) (nm : Bool) (e : Elem)
    (h : e.ResolvedIn types ids) : (e.asWritten ids nm).resolveType types = .ok e := by
  match e, h with
  | .prim .., _ => simp [Elem.asWritten, Elem.resolveType]
  | .record fs a, h =>
    simp [Elem.asWritten, Elem.resolveType, Fields.resolve_asWritten types ids nm fs (by simpa [Elem.ResolvedIn] using h)]
  | .refId _, h => exact absurd h (by simp [Elem.ResolvedIn])
  | .refName _, h => exact absurd h (by simp [Elem.ResolvedIn])
  | .refType n t, h =>
    simp only [Elem.ResolvedIn] at h
    obtain ⟨h1, h2, h3⟩ := h
    have hf := findType_unique types n t h1 h2
    simp only [Elem.asWritten]
    split
    · rename_i i hi
      obtain ⟨h0, hg⟩ := h3 i hi
      simp only [Elem.resolveType, pyIndex]
      rw [if_neg (by omega), hg]
      rfl
    · simp [Elem.resolveType, hf]
theorem Fields.resolve_asWritten (types : List NamedType) (ids : Str → Option Int) (nm : Bool) (fs : Fields)
    (h : fs.ResolvedIn types ids) : (fs.asWritten ids nm).resolveType types = .ok fs := by
  match fs, h with
  | .nil, _ => simp [Fields.asWritten, Fields.resolveType]
  | .cons n e r, h =>
    simp only [Fields.ResolvedIn] at h
    simp [Fields.asWritten, Fields.resolveType, Elem.resolve_asWritten types ids nm e h.1,
      Fields.resolve_asWritten types ids nm r h.2]
end

/-! ### Pack length -/

theorem timesArray_eq (s : Nat) (a : Option Nat) : timesArray s a = s * a.getD 1 := by
  cases a <;> simp [timesArray]

theorem totalSize_append (a b : List (Nat × Nat)) : totalSize (a ++ b) = totalSize a + totalSize b := by
  simp [totalSize]

mutual
theorem Elem.calcElemSize_leaves (e : Elem) (ls : List (Nat × Nat)) (h : e.leaves = some ls) :
    e.calcElemSize = .ok (totalSize ls) := by
  match e, h with
  | .prim tc mn mx a, h =>
    simp only [Elem.leaves, Option.some.injEq] at h
    subst h
    cases tc <;> simp [Elem.calcElemSize, timesArray_eq, totalSize, TypeCode.size]
  | .record fs none, h =>
    simp only [Elem.leaves] at h
    simp [Elem.calcElemSize, Fields.calcElemSize_leaves fs ls h, timesArray_eq]
  | .record fs (some _), h => simp [Elem.leaves] at h
  | .refType n t, h =>
    simp only [Elem.leaves] at h
    simp [Elem.calcElemSize, Elem.calcElemSize_leaves t ls h]
  | .refId _, h => simp [Elem.leaves] at h
  | .refName _, h => simp [Elem.leaves] at h
theorem Fields.calcElemSize_leaves (fs : Fields) (ls : List (Nat × Nat)) (h : fs.leaves = some ls) :
    fs.calcElemSize = .ok (totalSize ls) := by
  match fs, h with
  | .nil, h => simp only [Fields.leaves, Option.some.injEq] at h; subst h; rfl
  | .cons n e r, h =>
    simp only [Fields.leaves] at h
    split at h
    · rename_i a b ha hb
      simp only [Option.some.injEq] at h
      subst h
      simp [Fields.calcElemSize, Elem.calcElemSize_leaves e a ha, Fields.calcElemSize_leaves r b hb,
        totalSize_append]
    · simp at h
end

/-- Leaves of the suspended iterators. -/
def stackLeaves : List Fields → Option (List (Nat × Nat))
  | [] => some []
  | f :: fs => match f.leaves, stackLeaves fs with
    | some a, some b => some (a ++ b)
    | _, _ => none

theorem packLenLoop_leaves (result : Nat) (cur : Fields) (stack : List Fields) (a b : List (Nat × Nat))
    (ha : cur.leaves = some a) (hb : stackLeaves stack = some b) :
    packLenLoop result cur stack = .ok (result + totalSize a + totalSize b) := by
  induction result, cur, stack using packLenLoop.induct generalizing a b with
  | case1 result =>
    rw [packLenLoop]
    simp only [Fields.leaves, Option.some.injEq] at ha
    simp only [stackLeaves, Option.some.injEq] at hb
    subst ha hb
    simp [totalSize]
  | case2 result i stack ih =>
    rw [packLenLoop]
    simp only [stackLeaves] at hb
    simp only [Fields.leaves, Option.some.injEq] at ha
    subst ha
    split at hb
    · rename_i c d hc hd
      simp only [Option.some.injEq] at hb
      subst hb
      rw [ih c d hc hd, totalSize_append]
      simp [totalSize]; omega
    · simp at hb
  | case3 result n fs x r stack ih =>
    rw [packLenLoop]
    simp only [Fields.leaves] at ha
    split at ha
    · rename_i c d hc hd
      simp only [Option.some.injEq] at ha
      subst ha
      cases x with
      | some _ => simp [Elem.leaves] at hc
      | none =>
        simp only [Elem.leaves] at hc
        rw [ih c (d ++ b) hc (by simp [stackLeaves, hd, hb]), totalSize_append, totalSize_append]
        congr 1; omega
    · simp at ha
  | case4 result n e r stack hne s hs ih =>
    rw [packLenLoop.eq_4 _ _ _ _ _ hne]
    simp only [hs]
    simp only [Fields.leaves] at ha
    split at ha
    · rename_i c d hc hd
      simp only [Option.some.injEq] at ha
      subst ha
      rw [Elem.calcElemSize_leaves e c hc] at hs
      simp only [Except.ok.injEq] at hs
      rw [ih d b hd hb, totalSize_append]
      congr 1; omega
    · simp at ha
  | case5 result n e r stack hne x hs =>
    simp only [Fields.leaves] at ha
    split at ha
    · rename_i c d hc hd
      rw [Elem.calcElemSize_leaves e c hc] at hs
      simp at hs
    · simp at ha

theorem packLen_leaves (e : Elem) (ls : List (Nat × Nat)) (h : e.leaves = some ls) :
    e.packLen = .ok (totalSize ls) := by
  unfold Elem.packLen
  rw [packLenLoop_leaves 0 _ _ ls [] (by simp [Fields.leaves, h]) rfl]
  simp [totalSize]

end Apx
