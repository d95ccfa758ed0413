import Verif.Props.Vm

/-! Names of record elements (C25). -/

namespace Apx

theorem run_parsed {d : Dir} {first : Bool} {code rest : Bytes} {i : Instr} {m m' : Vm}
    (hp : parseInstr code = .ok (some (i, rest))) (h : runVm d first code m = .ok m') :
    ∃ f m1, runVm d f rest m1 = .ok m' := by
  rw [runVm] at h
  split at h
  · simp at h
  · rename_i h'; rw [hp] at h'; simp at h'
  · rename_i i' rest' h'
    rw [hp] at h'
    simp only [Except.ok.injEq, Option.some.injEq, Prod.mk.injEq] at h'
    obtain ⟨rfl, rfl⟩ := h'
    split at h
    · simp at h
    · split at h
      · simp at h
      · exact ⟨_, _, h⟩

theorem run_unparsed {d : Dir} {first : Bool} {code : Bytes} {x : PyErr} {m m' : Vm}
    (hp : parseInstr code = .error x) : runVm d first code m ≠ .ok m' := by
  intro h
  rw [runVm] at h
  split at h
  · simp at h
  · rename_i h'; rw [hp] at h'; simp at h'
  · rename_i h'; rw [hp] at h'; simp at h'

theorem ordBytes_zero (s : Str) (b : Bytes) (h : ordBytes s = .ok b) (hs : '\x00' ∉ s) : (0 : UInt8) ∉ b := by
  induction s generalizing b with
  | nil => simp only [ordBytes, Except.ok.injEq] at h; subst h; simp
  | cons c s ih =>
    simp only [ordBytes] at h
    split at h
    · rename_i hlt
      rw [bind_ok_iff] at h
      obtain ⟨r, hr, h⟩ := h
      simp only [Except.ok.injEq] at h
      subst h
      simp only [List.mem_cons, not_or] at hs ⊢
      refine ⟨?_, ih r hr hs.2⟩
      intro hz
      have := congrArg UInt8.toNat hz
      simp at this
      apply hs.1
      apply Char.ext
      apply UInt32.toNat_inj.mp
      have : c.val.toNat = 0 := by
        have e : c.toNat = c.val.toNat := rfl
        omega
      simpa using this.symm
    · simp at h

theorem ordBytes_decodes (s t : Str) (b : Bytes) (h : ordBytes s = .ok b) (ht : asciiDecode b = .ok t) :
    ∀ c ∈ s, c.toNat < 128 := by
  induction s generalizing b t with
  | nil => simp
  | cons c s ih =>
    simp only [ordBytes] at h
    split at h
    · rename_i hlt
      rw [bind_ok_iff] at h
      obtain ⟨r, hr, h⟩ := h
      simp only [Except.ok.injEq] at h
      subst h
      have e : (UInt8.ofNat c.toNat).toNat = c.toNat := by simp; omega
      simp only [asciiDecode, e] at ht
      split at ht
      · rename_i h8
        rw [bind_ok_iff] at ht
        obtain ⟨t', ht', _⟩ := ht
        intro x hx
        rcases List.mem_cons.mp hx with rfl | hx
        · exact h8
        · exact ih t' r hr ht' x hx
      · simp at ht
    · simp at h

/-- What a program with a selection does: either the name consists of ASCII characters, or it stops there. -/
theorem run_select {d : Dir} {first : Bool} (s : Str) (code rest : Bytes) (hc : recordSelect (some s) = .ok code)
    (hs : '\x00' ∉ s) {m m' : Vm} (h : runVm d first (code ++ rest) m = .ok m') :
    (∀ c ∈ s, c ≠ '\x00' ∧ c.toNat < 128) ∧ ∃ f m1, runVm d f rest m1 = .ok m' := by
  have key : ∀ c ∈ s, c.toNat < 128 := by
    simp only [recordSelect, bind_ok_iff] at hc
    obtain ⟨b, hb, hc⟩ := hc
    simp only [Except.ok.injEq] at hc
    subst hc
    have e : opSelect :: (b ++ [0]) ++ rest = opSelect :: (b ++ 0 :: rest) := by simp
    rw [e] at h
    cases ha : asciiDecode b with
    | ok t => exact ordBytes_decodes s t b hb ha
    | error x =>
      refine absurd h (run_unparsed (x := x) ?_)
      simp [parseInstr, opSelect, parseSelect, splitZero_append b rest (ordBytes_zero s b hb hs), ha]
  have k' : ∀ c ∈ s, c ≠ '\x00' ∧ c.toNat < 128 := fun c hm => ⟨fun e => hs (e ▸ hm), key c hm⟩
  exact ⟨k', run_parsed (parse_select s k' code rest hc) h⟩

mutual
theorem Elem.run_names {d : Dir} (e : Elem) (code : Bytes) (n : Nat) (hc : compileElem d e = .ok (code, n))
    (hz : e.NoNul) (first : Bool) (rest : Bytes) (m m' : Vm) (h : runVm d first (code ++ rest) m = .ok m') :
    e.NamesOk ∧ ∃ f m1, runVm d f rest m1 = .ok m' := by
  match e with
  | .prim tc mn mx a =>
    refine ⟨trivial, ?_⟩
    cases comp_of_compile hc with
    | scalar _ _ _ t ht => exact run_parsed (parse_scalar d t rest) h
    | array _ _ _ l t ht => exact run_parsed (parse_array d t l rest) h
    | str _ _ => exact run_parsed (parse_str d _ rest) h
  | .record fs a =>
    cases comp_of_compile hc with
    | record _ c _ hf =>
      simp only [List.cons_append, List.append_assoc] at h
      obtain ⟨f1, m1, h1⟩ := run_parsed (parse_enter _) h
      obtain ⟨hn, f2, m2, h2⟩ := Fields.run_names fs c _ hf hz f1 _ m1 m' h1
      exact ⟨hn, run_parsed (parse_leave _) h2⟩
  | .refType k (.prim tc mn mx a) =>
    refine ⟨trivial, ?_⟩
    cases comp_of_compile hc with
    | scalarRef _ _ _ _ t ht => exact run_parsed (parse_scalar d t rest) h
  | .refType k (.record fs a) =>
    cases comp_of_compile hc with
    | recordRef _ _ c _ hf =>
      simp only [List.cons_append, List.append_assoc] at h
      obtain ⟨f1, m1, h1⟩ := run_parsed (parse_enter _) h
      obtain ⟨hn, f2, m2, h2⟩ := Fields.run_names fs c _ hf hz f1 _ m1 m' h1
      exact ⟨hn, run_parsed (parse_leave _) h2⟩
  | .refType k (.refType k' t) => cases comp_of_compile hc
  | .refType k (.refId i) => cases comp_of_compile hc
  | .refType k (.refName i) => cases comp_of_compile hc
  | .refId i => cases comp_of_compile hc
  | .refName i => cases comp_of_compile hc
theorem Fields.run_names {d : Dir} (fs : Fields) (code : Bytes) (n : Nat) (hc : compileFields d fs = .ok (code, n))
    (hz : fs.NoNul) (first : Bool) (rest : Bytes) (m m' : Vm) (h : runVm d first (code ++ rest) m = .ok m') :
    fs.NamesOk ∧ ∃ f m1, runVm d f rest m1 = .ok m' := by
  match fs with
  | .nil =>
    simp only [compileFields, Except.ok.injEq, Prod.mk.injEq] at hc
    obtain ⟨rfl, rfl⟩ := hc
    exact ⟨trivial, first, m, h⟩
  | .cons k e r =>
    obtain ⟨k, s, c, m1, c', m2, rfl, hs, he, hr, rfl, rfl⟩ := compileFields_cons hc
    simp only [Fields.NoNul] at hz
    simp only [List.append_assoc] at h
    obtain ⟨n1, f1, v1, h1⟩ := run_select k s _ hs (hz.1 k rfl) h
    obtain ⟨n2, f2, v2, h2⟩ := Elem.run_names e c m1 he hz.2.1 f1 _ v1 m' h1
    obtain ⟨n3, h3⟩ := Fields.run_names r c' m2 hr hz.2.2 f2 _ v2 m' h2
    refine ⟨⟨?_, n2, n3⟩, h3⟩
    intro s hs
    cases hs
    exact n1
end

theorem ordBytes_defined (s : Str) : (∃ b, ordBytes s = .ok b) ↔ ∀ c ∈ s, c.toNat ≤ 255 := by
  induction s with
  | nil => simp [ordBytes]
  | cons c s ih =>
    simp only [ordBytes, List.mem_cons, forall_eq_or_imp, ← ih]
    split
    · rename_i h
      simp only [bind_ok_iff]
      constructor
      · rintro ⟨b, r, hr, _⟩; exact ⟨by omega, r, hr⟩
      · rintro ⟨_, r, hr⟩; exact ⟨_, r, hr, rfl⟩
    · rename_i h
      constructor
      · rintro ⟨b, hb⟩; simp at hb
      · rintro ⟨hb, _⟩; omega

/-- C25, which names the compiler takes: a record whose first element is called `s` compiles exactly if
every character of `s` has a code of at most 255 and both the first element and the record of the remaining
elements compile. -/
theorem C25_names_compile (d : Dir) (s : Str) (x : Elem) (r : Fields) :
    (∃ prog, compileProg d (.record (.cons (some s) x r) none) = .ok prog) ↔
      (∀ c ∈ s, c.toNat ≤ 255) ∧ (∃ px, compileProg d x = .ok px) ∧
        ∃ pr, compileProg d (.record r none) = .ok pr := by
  rw [← ordBytes_defined]
  simp only [compileProg, compileElem, isArray_record, Option.isSome_none, bind_ok_iff, Except.ok.injEq]
  constructor
  · rintro ⟨prog, ⟨c, n⟩, ⟨⟨c1, n1⟩, h, _⟩, _⟩
    obtain ⟨k, s', c, m1, c', m2, hk, hs, he, hr, rfl, rfl⟩ := compileFields_cons h
    cases hk
    simp only [recordSelect, bind_ok_iff] at hs
    obtain ⟨b, hb, _⟩ := hs
    exact ⟨⟨b, hb⟩, ⟨_, (c, m1), he, rfl⟩, ⟨_, _, ⟨(c', m2), hr, rfl⟩, rfl⟩⟩
  · rintro ⟨⟨b, hb⟩, ⟨px, ⟨c, m⟩, he, _⟩, ⟨pr, ⟨c', m'⟩, ⟨⟨c2, m2⟩, hr, _⟩, _⟩⟩
    exact ⟨_, _, ⟨(opSelect :: (b ++ [0]) ++ (c ++ c2), m + m2), by
      simp only [compileFields, recordSelect, hb, he, hr, ok_bind], rfl⟩, rfl⟩

/-- C25, which names the interpreter takes: if a program compiled for an element (whose names have no NUL
character) can be executed at all, with any value, buffer and offset, then all names of record elements are
ASCII. A record with a name like `é` compiles, but its programs always raise. -/
theorem C25_names_pack (e : Elem) (prog : Bytes) (hc : compileProg .pack e = .ok prog) (hz : e.NoNul)
    (data r : Bytes) (off : Nat) (v : PyVal) (h : execPackProg prog data off v = .ok r) : e.NamesOk := by
  simp only [compileProg, bind_ok_iff, Except.ok.injEq] at hc
  obtain ⟨⟨c, n⟩, hc, rfl⟩ := hc
  simp only [execPackProg, bind_ok_iff] at h
  obtain ⟨m', h, _⟩ := h
  obtain ⟨f, m1, h⟩ := run_parsed (parse_prog .pack n c) h
  exact (Elem.run_names e c n hc hz f [] m1 m' (by simpa using h)).1

/-- C25, which names the interpreter takes, for unpacking (see `C25_names_pack`). -/
theorem C25_names_unpack (e : Elem) (prog : Bytes) (hc : compileProg .unpack e = .ok prog) (hz : e.NoNul)
    (data : Bytes) (off : Nat) (v : PyVal) (h : execUnpackProg prog data off = .ok v) : e.NamesOk := by
  simp only [compileProg, bind_ok_iff, Except.ok.injEq] at hc
  obtain ⟨⟨c, n⟩, hc, rfl⟩ := hc
  simp only [execUnpackProg, bind_ok_iff] at h
  obtain ⟨m', h, _⟩ := h
  obtain ⟨f, m1, h⟩ := run_parsed (parse_prog .unpack n c) h
  exact (Elem.run_names e c n hc hz f [] m1 m' (by simpa using h)).1

/-- C25, why names must be ASCII: the record `{"é"C}` compiles, and the value of matching shape cannot
be packed. -/
theorem C25_latin_name : ∃ (e : Elem) (p : Bytes) (v : PyVal), e.LensOk ∧ e.NoNul ∧
    compileProg .pack e = .ok p ∧ e.layout v = some [7] ∧ ∀ (data : Bytes) (off : Nat) (r : Bytes),
      execPackProg p data off v ≠ .ok r := by
  refine ⟨.record (.cons (some "é".toList) (.prim .u8 none none none) .nil) none,
    [1, 1, 0, 0, 0, 29, 30, 233, 0, 3, 31], .dict [("é".toList, .int 7)], by simp [Elem.LensOk, Fields.LensOk],
    by simp [Elem.NoNul, Fields.NoNul], by decide +kernel, by decide +kernel, ?_⟩
  intro data off r h
  have := C25_names_pack (.record (.cons (some "é".toList) (.prim .u8 none none none) .nil) none) _
    (by decide +kernel) (by simp [Elem.NoNul, Fields.NoNul]) data r off _ h
  exact absurd this (by simp [Elem.NamesOk, Fields.NamesOk])

end Apx
