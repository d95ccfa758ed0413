import Verif.Proofs.GenCode
import Verif.Props.Vm
import Verif.Props.Generator

/-! C67: the emitted C functions read and write the same bytes as the runtime. -/

namespace Apx

theorem genFunc_of {types : List NamedType} {sfx : Str} {op : COp} {ptr : Bool} {off : Nat} {direct : Bool}
    {e e1 d : Elem} (h1 : e.resolveType types = .ok e1) (h2 : e1.resolveDataElement = .ok d) {code : List CStmt}
    {len : Nat} {bp : Bool} {lb : Option Nat}
    (h3 : genElem sfx op ⟨false, none⟩ off (.var ptr) d = .ok (code, len, ⟨bp, lb⟩)) :
    genFunc types sfx op ptr true off direct e =
      .ok (⟨lb, funcHead op bp off len ++ (code.map CTop.stmt ++ funcTail op off len direct)⟩, len) := by
  unfold genFunc
  rw [h1, ok_bind, h2, ok_bind, h3, ok_bind]
  rfl

/-- A call of a write function, given what its code does. -/
theorem call_pack (lb : Option Nat) (bp : Bool) (off len : Nat) (direct : Bool) (code : List CStmt) (buf buf' : Bytes)
    (arg : CVal) (hoff : off ≤ buf.length) (p' : Option Nat)
    (h : runTops lb ⟨buf, if bp then some off else none, arg, true, 0, []⟩ (code.map CTop.stmt) =
      some ⟨buf', p', arg, true, 0, []⟩) :
    (CFunc.mk lb (funcHead .pack bp off len ++ (code.map CTop.stmt ++ funcTail .pack off len direct))).call buf arg =
      some ⟨buf', p', arg, false, 0, [(off, len, direct)]⟩ := by
  unfold CFunc.call
  simp only
  rw [runTops_append]
  have h1 : runTops lb ⟨buf, none, arg, false, 0, []⟩ (funcHead .pack bp off len) =
      some ⟨buf, if bp then some off else none, arg, true, 0, []⟩ := by
    cases bp <;> simp [funcHead, runTops, CTop.run, hoff]
  rw [h1]
  simp only [Option.bind_some]
  rw [runTops_append, h]
  simp [funcTail, runTops, CTop.run]

/-- A call of a read function, given what its code does. -/
theorem call_unpack (lb : Option Nat) (bp : Bool) (off len : Nat) (direct : Bool) (code : List CStmt) (buf : Bytes)
    (arg arg' : CVal) (hoff : off ≤ buf.length) (p' : Option Nat) (bare : Nat)
    (hbare : bare = 0 ∨ (bare ≤ len ∧ len ≤ 1))
    (h : runTops lb ⟨buf, if bp then some off else none, arg, decide (len > 1), 0, []⟩ (code.map CTop.stmt) =
      some ⟨buf, p', arg', decide (len > 1), bare, []⟩) :
    ∃ m, (CFunc.mk lb (funcHead .unpack bp off len ++ (code.map CTop.stmt ++ funcTail .unpack off len direct))).call buf arg =
      some m ∧ m.buf = buf ∧ m.arg = arg' ∧ m.notes = [] := by
  unfold CFunc.call
  simp only
  rw [runTops_append]
  have h1 : runTops lb ⟨buf, none, arg, false, 0, []⟩ (funcHead .unpack bp off len) =
      some ⟨buf, if bp then some off else none, arg, decide (len > 1), 0, []⟩ := by
    by_cases hl : len > 1 <;> cases bp <;> simp [funcHead, runTops, CTop.run, hoff, hl]
  rw [h1]
  simp only [Option.bind_some]
  rw [runTops_append, h]
  have hb : bare ≤ 1 := by omega
  by_cases hl : len > 1
  · refine ⟨⟨buf, p', arg', false, bare, []⟩, ?_, rfl, rfl, rfl⟩
    simp [funcTail, runTops, CTop.run, hl, hb]
  · refine ⟨⟨buf, p', arg', false, bare, []⟩, ?_, rfl, rfl, rfl⟩
    simp [funcTail, runTops, hl, hb]

theorem wok_none : WOk none := by intro x hx; simp at hx

theorem fieldsAt_of (sfx : Str) (fs : Fields) (h : sfx = [] ∨ fs.AllFlat) (d : List (Str × PyVal)) (cs : CFields)
    (hr : fs.Repr sfx d cs) : FieldsAt sfx fs d cs := by
  rcases h with rfl | h
  · exact fieldsAt_nil fs d cs hr
  · exact fieldsAt_flat sfx fs h d cs hr

theorem shapeAt_of (sfx : Str) (fs : Fields) (h : sfx = [] ∨ fs.AllFlat) (cs : CFields)
    (hr : fs.Shape sfx cs) : ShapeAt sfx fs cs := by
  rcases h with rfl | h
  · exact shapeAt_nil fs cs hr
  · exact shapeAt_flat sfx fs h cs hr

/-- What is emitted for the type of a port, for writing. -/
theorem packTop (sfx : Str) (d : Elem) (hnr : d.isReference = false) (hs : d.CSupported) (hsfx : sfx = [] ∨ d.NoNested)
    (off : Nat) (direct : Bool) :
    ∃ (code : List CStmt) (len : Nat) (bp : Bool) (lb : Option Nat),
      genElem sfx .pack ⟨false, none⟩ off (.var d.ByRef) d = .ok (code, len, ⟨bp, lb⟩) ∧
      ∀ (v : PyVal) (c : CVal) (buf : Bytes), d.Repr sfx v c → off + len ≤ buf.length →
        ∃ bs m, d.layout v = some bs ∧ bs.length = len ∧
          (CFunc.mk lb (funcHead .pack bp off len ++ (code.map CTop.stmt ++ funcTail .pack off len direct))).call buf
            (writeArg d c) = some m ∧
          m.buf = put buf off bs ∧ m.arg = writeArg d c ∧ m.notes = [(off, len, direct)] := by
  cases d with
  | refId i => simp [Elem.isReference] at hnr
  | refName i => simp [Elem.isReference] at hnr
  | refType n t => simp [Elem.isReference] at hnr
  | prim tc mn mx a =>
    cases a with
    | none =>
      simp only [Elem.CSupported] at hs
      obtain ⟨t, ht⟩ := Option.isSome_iff_exists.mp hs
      refine ⟨_, _, _, _, genElem_int sfx .pack ⟨false, none⟩ off _ _ tc mn mx t (resolve_prim _ _ _ _) ht, ?_⟩
      intro v c buf hr hb
      simp only [Elem.Repr] at hr
      obtain ⟨t', i, ht', hin, rfl, rfl⟩ := hr
      rw [ht] at ht'
      cases ht'
      refine ⟨littleEndian t.size i, _, layout_int tc mn mx t ht i hin, by simp,
        call_pack _ _ off _ direct _ buf (put buf off (littleEndian t.size i)) _ (by omega) none ?_, rfl, rfl, rfl⟩
      rw [runTops_simple]
      exact packAbs_ok 0 ⟨buf, none, .int i, true, 0, []⟩ [] t off i rfl rfl hb
    | some n =>
      simp only [Elem.CSupported] at hs
      obtain ⟨hs | hs, hn⟩ := hs
      · obtain ⟨t, ht⟩ := Option.isSome_iff_exists.mp hs
        refine ⟨_, _, _, _, genElem_array sfx .pack ⟨false, none⟩ off _ tc mn mx n t ht, ?_⟩
        intro v c buf hr hb
        simp only [Elem.Repr] at hr
        rcases hr with ⟨t', l, ht', hin, hlen, rfl, rfl⟩ | ⟨s, rfl, _⟩
        · rw [ht] at ht'
          cases ht'
          subst hlen
          refine ⟨intsBytes t l, _, layout_ints tc mn mx t ht l hin, intsBytes_length t l,
            call_pack _ _ off _ direct _ buf (put buf off (intsBytes t l)) _ (by omega)
              (some (off + (intsBytes t l).length)) ?_, rfl, rfl, rfl⟩
          refine (runTops_loop _ _ _ _ (loopWidth l.length) rfl (loopWidth_enough _ hn)).trans ?_
          exact packRounds_ok [.idx] t off l l [] ⟨buf, some off, .ptr (.ints l), true, 0, []⟩ off rfl rfl rfl (by
            intro i
            simp only [CVal.get]
            cases l[i]? <;> rfl) (by rw [intsBytes_length]; exact hb)
        · simp [TypeCode.integer] at ht
      · subst hs
        refine ⟨_, _, _, _, genElem_str sfx .pack ⟨false, none⟩ off _ mn mx n, ?_⟩
        intro v c buf hr hb
        simp only [Elem.Repr] at hr
        rcases hr with ⟨t', l, ht', _⟩ | ⟨s, _, hlen, rfl, rfl⟩
        · simp [TypeCode.integer] at ht'
        · refine ⟨textLayout n s, _, layout_text mn mx n s, textLayout_length n s,
            call_pack _ _ off _ direct _ buf (put buf off (textLayout n s)) _ (by omega) none ?_, rfl, rfl, rfl⟩
          rw [runTops_simple]
          exact packStrAbs_ok ⟨buf, none, .ptr (.chars (textLayout n s)), true, 0, []⟩ [] n off s _ rfl rfl rfl hlen hb
  | record fs a =>
    cases a with
    | some n => simp [Elem.CSupported] at hs
    | none =>
      simp only [Elem.CSupported] at hs
      obtain ⟨code, len, lb', h1, h2, h3, h4⟩ := packF sfx fs hs.2 none off (.var true) wok_none
      refine ⟨code, len, true, lb', by rw [genElem_record]; exact h1, ?_⟩
      intro v c buf hr hb
      cases v with
      | dict dd =>
        cases c with
        | struct cs =>
          simp only [Elem.Repr] at hr
          have hf : sfx = [] ∨ fs.AllFlat := hsfx
          obtain ⟨bs, l1, n1, r1⟩ := h4 lb' (LoopLe.refl _) sfx dd cs ⟨buf, some off, .ptr (.struct cs), true, 0, []⟩ off
            (fieldsAt_of sfx fs hf dd cs hr) hs.1 (by
              intro k c _ hk i
              show CVal.get i [.arrow (k ++ sfx)] (.ptr (.struct cs)) = some c
              simp [CVal.get, hk]) rfl rfl hb
          exact ⟨bs, _, l1, n1, call_pack _ _ off _ direct _ buf (put buf off bs) _ (by omega) (some (off + len)) r1,
            rfl, rfl, rfl⟩
        | _ => simp [Elem.Repr] at hr
      | _ => simp [Elem.Repr] at hr

theorem bareOk_cases {len b : Nat} (h : BareOk (decide (len > 1)) 0 b len) : b = 0 ∨ (b ≤ len ∧ len ≤ 1) := by
  by_cases hl : len > 1
  · exact .inl (h.1 (by simp [hl]))
  · exact .inr ⟨by have := h.2; omega, by omega⟩

/-- What is emitted for the type of a port, for reading. -/
theorem unpackTop (sfx : Str) (d : Elem) (hnr : d.isReference = false) (hs : d.CSupported) (hsfx : sfx = [] ∨ d.NoNested)
    (off : Nat) (direct : Bool) :
    ∃ (code : List CStmt) (len : Nat) (bp : Bool) (lb : Option Nat),
      genElem sfx .unpack ⟨false, none⟩ off (.var true) d = .ok (code, len, ⟨bp, lb⟩) ∧
      ∀ (v : PyVal) (c c0 : CVal) (bs buf : Bytes), d.Repr sfx v c → d.Shape sfx c0 → d.layout v = some bs →
        Holds buf off bs → bs.length = len ∧
        ∃ m, (CFunc.mk lb (funcHead .unpack bp off len ++ (code.map CTop.stmt ++ funcTail .unpack off len direct))).call buf
            (.ptr c0) = some m ∧ m.buf = buf ∧ m.arg = .ptr c ∧ m.notes = [] := by
  cases d with
  | refId i => simp [Elem.isReference] at hnr
  | refName i => simp [Elem.isReference] at hnr
  | refType n t => simp [Elem.isReference] at hnr
  | prim tc mn mx a =>
    cases a with
    | none =>
      simp only [Elem.CSupported] at hs
      obtain ⟨t, ht⟩ := Option.isSome_iff_exists.mp hs
      refine ⟨_, _, _, _, genElem_int sfx .unpack ⟨false, none⟩ off _ _ tc mn mx t (resolve_prim _ _ _ _) ht, ?_⟩
      intro v c c0 bs buf hr hsh hlay hb
      simp only [Elem.Repr] at hr
      simp only [Elem.Shape] at hsh
      obtain ⟨t', i, ht', hin, rfl, rfl⟩ := hr
      obtain ⟨_, j, rfl⟩ := hsh
      rw [ht] at ht'
      cases ht'
      rw [layout_int tc mn mx t ht i hin] at hlay
      cases hlay
      refine ⟨by simp, call_unpack _ _ off _ direct _ buf _ (.ptr (.int i)) (by have := hb.1; omega) none
        (if decide (t.size > 1) then 0 else 0 + t.size) (bareOk_cases (BareOk.ite _ _ t.size _ (Nat.le_refl _))) ?_⟩
      · rw [runTops_simple]
        exact unpackAbs_ok 0 ⟨buf, none, .ptr (.int j), decide (t.size > 1), 0, []⟩ [] t off i _ hin rfl hb
    | some n =>
      simp only [Elem.CSupported] at hs
      obtain ⟨hs | hs, hn⟩ := hs
      · obtain ⟨t, ht⟩ := Option.isSome_iff_exists.mp hs
        refine ⟨_, _, _, _, genElem_array sfx .unpack ⟨false, none⟩ off _ tc mn mx n t ht, ?_⟩
        intro v c c0 bs buf hr hsh hlay hb
        simp only [Elem.Repr] at hr
        simp only [Elem.Shape] at hsh
        rcases hr with ⟨t', l, ht', hin, hlen, rfl, rfl⟩ | ⟨s, rfl, _⟩
        · rw [ht] at ht'
          cases ht'
          subst hlen
          rcases hsh with ⟨_, l0, hl0, rfl⟩ | ⟨rfl, _⟩
          · rw [layout_ints tc mn mx t ht l hin] at hlay
            cases hlay
            obtain ⟨b, hbb, hrun⟩ := unpackRounds_ok [.idx] t off (fun l => .ptr (.ints l)) (by
              intro i f l
              simp only [CVal.update]) l l0 [] ⟨buf, some off, .ptr (.ints l0), decide (t.size * l.length > 1), 0, []⟩ off
              hl0 rfl rfl hin hb
            rw [intsBytes_length] at hrun hbb
            refine ⟨intsBytes_length t l, call_unpack _ _ off _ direct _ buf _ (.ptr (.ints l))
              (by have := hb.1; omega) (some (off + t.size * l.length)) b (bareOk_cases hbb) ?_⟩
            refine (runTops_loop _ _ _ _ (loopWidth l.length) rfl (loopWidth_enough _ hn)).trans ?_
            exact hrun
          · simp [TypeCode.integer] at ht
        · simp [TypeCode.integer] at ht
      · subst hs
        refine ⟨_, _, _, _, genElem_str sfx .unpack ⟨false, none⟩ off _ mn mx n, ?_⟩
        intro v c c0 bs buf hr hsh hlay hb
        simp only [Elem.Repr] at hr
        simp only [Elem.Shape] at hsh
        rcases hr with ⟨t', l, ht', _⟩ | ⟨s, _, hlen, rfl, rfl⟩
        · simp [TypeCode.integer] at ht'
        · rcases hsh with ⟨hx, _⟩ | ⟨_, b, hbl, rfl⟩
          · simp [TypeCode.integer] at hx
          · rw [layout_text] at hlay
            cases hlay
            refine ⟨textLayout_length n s, call_unpack _ _ off _ direct _ buf _ (.ptr (.chars (textLayout n s)))
              (by have := hb.1; omega) none (if decide (n > 1) then 0 else 0 + (n - 1))
              (bareOk_cases (BareOk.ite _ _ (n - 1) n (Nat.sub_le _ _))) ?_⟩
            rw [runTops_simple]
            exact unpackStrAbs_ok ⟨buf, none, .ptr (.chars (b ++ [0])), decide (n > 1), 0, []⟩ [] n off s b _ hbl
              (by simp only [CVal.update]; exact assignChars_ptr_last n s b hbl hlen) hb
  | record fs a =>
    cases a with
    | some n => simp [Elem.CSupported] at hs
    | none =>
      simp only [Elem.CSupported] at hs
      obtain ⟨code, len, lb', h1, h2, h3, h4⟩ := unpackF sfx fs hs.2 none off (.var true) wok_none
      refine ⟨code, len, true, lb', by rw [genElem_record]; exact h1, ?_⟩
      intro v c c0 bs buf hr hsh hlay hb
      cases v with
      | dict dd =>
        cases c with
        | struct cs =>
          cases c0 with
          | struct cs0 =>
            simp only [Elem.Repr] at hr
            simp only [Elem.Shape] at hsh
            simp only [Elem.layout] at hlay
            have hf : sfx = [] ∨ fs.AllFlat := hsfx
            obtain ⟨n1, b, hbb, hrun⟩ := h4 lb' (LoopLe.refl _) sfx dd cs cs0 .nil bs (fun gs => .ptr (.struct gs))
              ⟨buf, some off, .ptr (.struct cs0), decide (len > 1), 0, []⟩ off (fieldsAt_of sfx fs hf dd cs hr)
              (shapeAt_of sfx fs hf cs0 hsh) hs.1 (by
                intro i k f gs
                show CVal.update i f [.arrow (k ++ sfx)] (.ptr (.struct gs)) = _
                simp only [CVal.update]) (by intro k _; rfl) rfl rfl hlay hb
            exact ⟨n1, call_unpack _ _ off _ direct _ buf _ (.ptr (.struct cs)) (by have := hb.1; omega) _ b
              (bareOk_cases hbb) hrun⟩
          | _ => simp [Elem.Shape] at hsh
        | _ => simp [Elem.Repr] at hr
      | _ => simp [Elem.Repr] at hr

theorem resolveLoop_notRef (n : Nat) (e d : Elem) (h : e.resolveLoop n = .ok d) : d.isReference = false := by
  induction n generalizing e with
  | zero => cases e <;> simp [Elem.resolveLoop] at h <;> subst h <;> rfl
  | succ n ih =>
    cases e with
    | refType nm t => exact ih t h
    | prim _ _ _ _ => simp [Elem.resolveLoop] at h; subst h; rfl
    | record _ _ => simp [Elem.resolveLoop] at h; subst h; rfl
    | _ => simp [Elem.resolveLoop] at h

theorem resolveLoop_layout (n : Nat) (e d : Elem) (h : e.resolveLoop n = .ok d) (v : PyVal) : e.layout v = d.layout v := by
  induction n generalizing e with
  | zero => cases e <;> simp [Elem.resolveLoop] at h <;> subst h <;> rfl
  | succ n ih =>
    cases e with
    | refType nm t => simp only [Elem.layout]; exact ih t h
    | prim _ _ _ _ => simp [Elem.resolveLoop] at h; subst h; rfl
    | record _ _ => simp [Elem.resolveLoop] at h; subst h; rfl
    | _ => simp [Elem.resolveLoop] at h

/-- C67: the write function emitted for a port of a supported type stores the bytes of the value at the
offset of the port and nothing else, and reports exactly these bytes as changed. It does so under the
lock, stays inside the buffer and the argument, and its loops end. Missing from the full property: types
that are not supported, and a suffix for member names together with nested records. -/
theorem C67_write_partial (types : List NamedType) (sfx : Str) (e e1 d : Elem) (h1 : e.resolveType types = .ok e1)
    (h2 : e1.resolveDataElement = .ok d) (hs : d.CSupported) (hsfx : sfx = [] ∨ d.NoNested) (off : Nat) (direct : Bool) :
    ∃ f len, genFunc types sfx .pack d.ByRef true off direct e = .ok (f, len) ∧
      ∀ (v : PyVal) (c : CVal) (buf : Bytes), d.Repr sfx v c → off + len ≤ buf.length →
        ∃ bs m, e1.layout v = some bs ∧ bs.length = len ∧ f.call buf (writeArg d c) = some m ∧
          m.buf = buf.take off ++ bs ++ buf.drop (off + len) ∧ m.arg = writeArg d c ∧
          m.notes = [(off, len, direct)] := by
  obtain ⟨code, len, bp, lb, g1, g2⟩ := packTop sfx d (resolveLoop_notRef _ _ _ h2) hs hsfx off direct
  refine ⟨_, len, genFunc_of h1 h2 g1, ?_⟩
  intro v c buf hr hb
  obtain ⟨bs, m, a1, a2, a3, a4, a5, a6⟩ := g2 v c buf hr hb
  subst a2
  exact ⟨bs, m, by rw [resolveLoop_layout _ _ _ h2, a1], rfl, a3, a4, a5, a6⟩

/-- C67: the read function emitted for a port of a supported type stores the value whose bytes are at the
offset of the port into the object it is given. It does not change the buffer, stays inside buffer and
object, and reads more than one byte only under the lock. Missing as for writing; character arrays must
end in a zero byte before the call. -/
theorem C67_read_partial (types : List NamedType) (sfx : Str) (e e1 d : Elem) (h1 : e.resolveType types = .ok e1)
    (h2 : e1.resolveDataElement = .ok d) (hs : d.CSupported) (hsfx : sfx = [] ∨ d.NoNested) (off : Nat) (direct : Bool) :
    ∃ f len, genFunc types sfx .unpack true true off direct e = .ok (f, len) ∧
      ∀ (v : PyVal) (c c0 : CVal) (bs buf : Bytes), d.Repr sfx v c → d.Shape sfx c0 → e1.layout v = some bs →
        off + bs.length ≤ buf.length → (buf.drop off).take bs.length = bs →
        bs.length = len ∧ ∃ m, f.call buf (.ptr c0) = some m ∧ m.buf = buf ∧ m.arg = .ptr c ∧ m.notes = [] := by
  obtain ⟨code, len, bp, lb, g1, g2⟩ := unpackTop sfx d (resolveLoop_notRef _ _ _ h2) hs hsfx off direct
  refine ⟨_, len, genFunc_of h1 h2 g1, ?_⟩
  intro v c c0 bs buf hr hsh hlay hb1 hb2
  exact g2 v c c0 bs buf hr hsh (by rw [← resolveLoop_layout _ _ _ h2]; exact hlay) ⟨hb1, hb2⟩

/-- C67: the argument of a write function is passed by reference exactly if the generator asks for it. -/
theorem C67_by_reference (e1 d : Elem) (h2 : e1.resolveDataElement = .ok d) : e1.isComplexType = .ok d.ByRef := by
  rw [complex_of_resolve e1 d h2]
  have := resolveLoop_notRef _ _ _ h2
  cases d with
  | prim tc mn mx a => cases a <;> rfl
  | record fs a => cases a <;> rfl
  | _ => simp [Elem.isReference] at this

/-- C67: what the emitted write function stores is what the runtime stores. -/
theorem C67_as_runtime_partial (types : List NamedType) (sfx : Str) (e e1 d : Elem) (h1 : e.resolveType types = .ok e1)
    (h2 : e1.resolveDataElement = .ok d) (hs : d.CSupported) (hsfx : sfx = [] ∨ d.NoNested) (off : Nat) (direct : Bool)
    (prog : Bytes) (hc : compileProg .pack e1 = .ok prog) (hl : e1.LensOk) (hn : e1.NamesOk) (v : PyVal)
    (ha : e1.ArraysOk v) (c : CVal) (hr : d.Repr sfx v c) (n : Nat) (hlen : e1.packLen = .ok n) (buf : Bytes)
    (hb : off + n ≤ buf.length) :
    ∃ f m, genFunc types sfx .pack d.ByRef true off direct e = .ok (f, n) ∧ f.call buf (writeArg d c) = some m ∧
      execPackProg prog buf off v = .ok m.buf := by
  obtain ⟨f, len, g1, g2⟩ := C67_write_partial types sfx e e1 d h1 h2 hs hsfx off direct
  obtain ⟨bs, m0, a1, a2, _⟩ := g2 v c (List.replicate (off + len) 0) hr (by simp)
  have hbl : len = n := by
    have := (C25_pack e1 prog hc hl hn v bs a1 ha (List.replicate (off + len) 0) off (by simp [a2])).2
    rw [hlen] at this
    simp only [Except.ok.injEq] at this
    rw [← a2, this]
  subst hbl
  obtain ⟨bs', m, b1, b2, b3, b4, _⟩ := g2 v c buf hr hb
  refine ⟨f, m, g1, b3, ?_⟩
  rw [(C25_pack e1 prog hc hl hn v bs' b1 ha buf off (by omega)).1, b4, b2]

/-- What is emitted transfers as many bytes as the leaves of the type have. -/
def GenLen (sfx : Str) (op : COp) (e : Elem) : Prop :=
  e.CSupported → ∀ (lv : CLocals) (off : Nat) (val : CName) (code : List CStmt) (len : Nat) (lv' : CLocals),
    genElem sfx op lv off val e = .ok (code, len, lv') → ∃ ls, e.leaves = some ls ∧ totalSize ls = len

@[inherit_doc GenLen]
def GenLenF (sfx : Str) (op : COp) (fs : Fields) : Prop :=
  fs.CSupported → ∀ (lv : CLocals) (off : Nat) (val : CName) (code : List CStmt) (len : Nat) (lv' : CLocals),
    genFields sfx op lv off val fs = .ok (code, len, lv') → ∃ ls, fs.leaves = some ls ∧ totalSize ls = len

theorem genLen (sfx : Str) (op : COp) (e : Elem) : GenLen sfx op e := by
  have hint : ∀ (e : Elem) (tc : TypeCode) (mn mx : Option Int), e.resolveDataElement = .ok (.prim tc mn mx none) →
      tc.integer.isSome → ∀ (lv : CLocals) (off : Nat) (val : CName) (code : List CStmt) (len : Nat) (lv' : CLocals),
      genElem sfx op lv off val e = .ok (code, len, lv') → ∃ ls, e.leaves = some ls ∧ totalSize ls = len := by
    intro e tc mn mx he hi lv off val code len lv' h
    obtain ⟨t, ht⟩ := Option.isSome_iff_exists.mp hi
    rw [genElem_int sfx op lv off val e tc mn mx t he ht] at h
    simp only [Except.ok.injEq, Prod.mk.injEq] at h
    obtain ⟨_, rfl, _⟩ := h
    rw [resolveLoop_leaves _ _ _ he]
    cases tc <;> simp [TypeCode.integer] at ht <;> subst ht <;> exact ⟨_, rfl, rfl⟩
  induction e using Elem.rec (motive_2 := GenLenF sfx op) with
  | prim tc mn mx a =>
    intro hs lv off val code len lv' h
    cases a with
    | none => exact hint _ tc mn mx (resolve_prim _ _ _ _) hs lv off val code len lv' h
    | some n =>
      simp only [Elem.CSupported] at hs
      obtain ⟨hs | hs, hn⟩ := hs
      · obtain ⟨t, ht⟩ := Option.isSome_iff_exists.mp hs
        rw [genElem_array sfx op lv off val tc mn mx n t ht] at h
        simp only [Except.ok.injEq, Prod.mk.injEq] at h
        obtain ⟨_, rfl, _⟩ := h
        cases tc <;> simp [TypeCode.integer] at ht <;> subst ht <;> exact ⟨_, rfl, by simp [totalSize, IntT.size]⟩
      · subst hs
        rw [genElem_str sfx op lv off val mn mx n] at h
        simp only [Except.ok.injEq, Prod.mk.injEq] at h
        obtain ⟨_, rfl, _⟩ := h
        exact ⟨_, rfl, by simp [totalSize]⟩
  | record fs a ih =>
    intro hs lv off val code len lv' h
    cases a with
    | some n => simp [Elem.CSupported] at hs
    | none =>
      simp only [Elem.CSupported] at hs
      rw [genElem_record] at h
      exact ih hs.2 _ off val code len lv' h
  | refId i => intro hs; simp [Elem.CSupported] at hs
  | refName i => intro hs; simp [Elem.CSupported] at hs
  | refType nm t _ =>
    intro hs lv off val code len lv' h
    simp only [Elem.CSupported] at hs
    obtain ⟨tc, mn, mx, h1, h2⟩ := hs
    exact hint _ tc mn mx h1 h2 lv off val code len lv' h
  | nil =>
    intro _ lv off val code len lv' h
    simp only [genFields, Except.ok.injEq, Prod.mk.injEq] at h
    obtain ⟨_, rfl, _⟩ := h
    exact ⟨[], rfl, rfl⟩
  | cons name e r ihe ihr =>
    intro hs lv off val code len lv' h
    simp only [Fields.CSupported] at hs
    simp only [genFields, bind_ok_iff, Except.ok.injEq, Prod.mk.injEq] at h
    obtain ⟨⟨c1, l1, lv1⟩, h1, ⟨c2, l2, lv2⟩, h2, _, h3, _⟩ := h
    obtain ⟨ls1, a1, a2⟩ := ihe hs.1 _ _ _ _ _ _ h1
    obtain ⟨ls2, b1, b2⟩ := ihr hs.2 _ _ _ _ _ _ h2
    exact ⟨ls1 ++ ls2, by simp [Fields.leaves, a1, b1], by rw [totalSize_append, a2, b2]; exact h3⟩

/-- C67: both functions of a port transfer exactly the bytes of the port (`packLen`). -/
theorem C67_length (types : List NamedType) (sfx : Str) (op : COp) (ptr hasBuf : Bool) (off : Nat) (direct : Bool)
    (e e1 d : Elem) (h1 : e.resolveType types = .ok e1) (h2 : e1.resolveDataElement = .ok d) (hs : d.CSupported)
    (f : CFunc) (len : Nat) (h : genFunc types sfx op ptr hasBuf off direct e = .ok (f, len)) : e1.packLen = .ok len := by
  unfold genFunc at h
  rw [h1, ok_bind, h2, ok_bind, bind_ok_iff] at h
  obtain ⟨⟨code, l, lv⟩, g1, g2⟩ := h
  split at g2
  · simp only [Except.ok.injEq, Prod.mk.injEq] at g2
    obtain ⟨ls, a1, a2⟩ := genLen sfx op d hs _ _ _ _ _ _ g1
    rw [packLen_leaves e1 ls (by rw [resolveLoop_leaves _ _ _ h2, a1]), a2, ← g2.2]
  · simp at g2

/-- The signals of a list of ports. -/
theorem genSignals_each (side : Side) (types : List NamedType) (ports : List Port) :
    ∀ (off : Nat) (ss : List Signal), genSignals side types off ports = .ok ss →
      ss.map Signal.name = ports.map Port.name ∧
      ∀ p ∈ ports, ∃ s ∈ ss, s.name = p.name ∧ resolveDsg types p.elem = .ok s.elem ∧ p.elem.packLen = .ok s.packLen ∧
        p.elem = s.elem ∧ off ≤ s.offset ∧ s.offset + s.packLen ≤ off + totalLen ss := by
  induction ports with
  | nil =>
    intro off ss h
    simp only [genSignals, Except.ok.injEq] at h
    subst h
    exact ⟨rfl, by simp⟩
  | cons p ports ih =>
    intro off ss h
    simp only [genSignals, bind_ok_iff, Except.ok.injEq] at h
    obtain ⟨s, h1, ss', h2, rfl⟩ := h
    obtain ⟨i1, i2⟩ := ih _ _ h2
    unfold genSignal at h1
    simp only [bind_ok_iff] at h1
    obtain ⟨_, _, _, hct, n, hn, e, he, hm⟩ := h1
    have hsame : p.elem = e := by
      unfold resolveDsg at he
      rw [ctypename_resolved hct types, ok_bind, bind_ok_iff] at he
      obtain ⟨_, _, he⟩ := he
      exact Except.ok.inj he
    unfold mkSignal at hm
    rw [bind_ok_iff] at hm
    obtain ⟨b, _, hm⟩ := hm
    split at hm
    · cases hm
      refine ⟨by simp [i1], ?_⟩
      intro q hq
      simp only [totalLen, List.map_cons, List.foldr_cons]
      rcases List.mem_cons.mp hq with rfl | hq
      · exact ⟨_, List.mem_cons_self, rfl, he, hn, hsame, Nat.le_refl _, by simp only; omega⟩
      · obtain ⟨s', m1, m2, m3, m4, m5, m6, m7⟩ := i2 q hq
        refine ⟨s', List.mem_cons_of_mem _ m1, m2, m3, m4, m5, by simp only at m6; omega, ?_⟩
        simp only [totalLen] at m7
        omega
    · simp at hm

/-- C67: in the code emitted for a node, the write function of a provide port of a supported type stores
the bytes of the value at the place of this port in the output buffer and nowhere else, and reports
exactly this range; the argument remains as it is. (The place is the one the runtime uses: C53.) -/
theorem C67_node_write_partial (n : Node) (g : Generated) (hg : generate n = .ok g)
    (hnd : (g.node.provides.map Port.name).Nodup) (p : Port) (hp : p ∈ g.node.provides) (d : Elem)
    (hd : p.elem.resolveDataElement = .ok d) (hs : d.CSupported) (sfx : Str) (hsfx : sfx = [] ∨ d.NoNested)
    (direct : List Str) :
    ∃ s ∈ g.provide, s.name = p.name ∧ p.elem.packLen = .ok s.packLen ∧ s.offset + s.packLen ≤ g.outLen ∧
      (0 < g.outLen → ∃ f, writeFunc g sfx direct p = .ok (f, s.packLen) ∧
        ∀ (v : PyVal) (c : CVal) (buf : Bytes), d.Repr sfx v c → buf.length = g.outLen →
          ∃ bs m, p.elem.layout v = some bs ∧ bs.length = s.packLen ∧ f.call buf (writeArg d c) = some m ∧
            m.buf = buf.take s.offset ++ bs ++ buf.drop (s.offset + s.packLen) ∧
            m.notes = [(s.offset, s.packLen, decide (p.name ∈ direct))] ∧ m.arg = writeArg d c) := by
  unfold generate at hg
  simp only [bind_ok_iff] at hg
  obtain ⟨n', h1, rs, h2, ps, h3, o, h4, i, h5, h6⟩ := hg
  cases h6
  simp only at hnd hp ⊢
  obtain ⟨e1, e2⟩ := genSignals_each _ _ _ _ _ h3
  obtain ⟨s, a1, a2, a3, a4, a5, a6, a7⟩ := e2 p hp
  refine ⟨s, a1, a2, a4, by omega, ?_⟩
  intro hpos
  have hres : s.elem.resolveType n'.named = .ok s.elem := by
    unfold resolveDsg at a3
    rw [bind_ok_iff] at a3
    obtain ⟨x, b1, b2⟩ := a3
    rw [bind_ok_iff] at b2
    obtain ⟨_, _, b3⟩ := b2
    rw [← a5, b1]
    rw [← a5] at b3
    exact b3
  have hlook : signalNamed ps p.name = some s := by
    rw [← a2]
    exact signalNamed_nodup ps (by rw [e1]; exact hnd) s a1
  rw [a5] at hd
  obtain ⟨f, len, c1, c2⟩ := C67_write_partial n'.named sfx s.elem s.elem d hres hd hs hsfx s.offset (decide (p.name ∈ direct))
  have hlen := C67_length _ _ _ _ _ _ _ _ _ _ hres hd hs f len c1
  rw [← a5, a4] at hlen
  have hlen' : len = s.packLen := (Except.ok.inj hlen).symm
  subst hlen'
  refine ⟨f, ?_, ?_⟩
  · unfold writeFunc
    simp only [hlook]
    rw [C67_by_reference s.elem d hd, ok_bind]
    have : decide (0 < totalLen ps) = true := by simp [hpos]
    rw [this]
    exact c1
  · intro v c buf hr hb
    obtain ⟨bs, m, d1, d2, d3, d4, d5, d6⟩ := c2 v c buf hr (by omega)
    exact ⟨bs, m, by rw [a5]; exact d1, d2, d3, d4, d6, d5⟩

/-- C67: in the code emitted for a node, the read function of a require port of a supported type delivers
the value at the place of this port in the input buffer. -/
theorem C67_node_read_partial (n : Node) (g : Generated) (hg : generate n = .ok g)
    (hnd : (g.node.requires.map Port.name).Nodup) (p : Port) (hp : p ∈ g.node.requires) (d : Elem)
    (hd : p.elem.resolveDataElement = .ok d) (hs : d.CSupported) (sfx : Str) (hsfx : sfx = [] ∨ d.NoNested) :
    ∃ s ∈ g.require, s.name = p.name ∧ p.elem.packLen = .ok s.packLen ∧ s.offset + s.packLen ≤ g.inLen ∧
      (0 < g.inLen → ∃ f, readFunc g sfx p = .ok (f, s.packLen) ∧
        ∀ (v : PyVal) (c c0 : CVal) (buf : Bytes), d.Repr sfx v c → d.Shape sfx c0 → buf.length = g.inLen →
          p.elem.layout v = some ((buf.drop s.offset).take s.packLen) →
          ∃ m, f.call buf (.ptr c0) = some m ∧ m.buf = buf ∧ m.arg = .ptr c) := by
  unfold generate at hg
  simp only [bind_ok_iff] at hg
  obtain ⟨n', h1, rs, h2, ps, h3, o, h4, i, h5, h6⟩ := hg
  cases h6
  simp only at hnd hp ⊢
  obtain ⟨e1, e2⟩ := genSignals_each _ _ _ _ _ h2
  obtain ⟨s, a1, a2, a3, a4, a5, a6, a7⟩ := e2 p hp
  refine ⟨s, a1, a2, a4, by omega, ?_⟩
  intro hpos
  have hres : s.elem.resolveType n'.named = .ok s.elem := by
    unfold resolveDsg at a3
    rw [bind_ok_iff] at a3
    obtain ⟨x, b1, b2⟩ := a3
    rw [bind_ok_iff] at b2
    obtain ⟨_, _, b3⟩ := b2
    rw [← a5, b1]
    rw [← a5] at b3
    exact b3
  have hlook : signalNamed rs p.name = some s := by
    rw [← a2]
    exact signalNamed_nodup rs (by rw [e1]; exact hnd) s a1
  rw [a5] at hd
  obtain ⟨f, len, c1, c2⟩ := C67_read_partial n'.named sfx s.elem s.elem d hres hd hs hsfx s.offset false
  have hlen := C67_length _ _ _ _ _ _ _ _ _ _ hres hd hs f len c1
  rw [← a5, a4] at hlen
  have hlen' : len = s.packLen := (Except.ok.inj hlen).symm
  subst hlen'
  refine ⟨f, ?_, ?_⟩
  · unfold readFunc
    simp only [hlook]
    have : decide (0 < totalLen rs) = true := by simp [hpos]
    rw [this]
    exact c1
  · intro v c c0 buf hr hsh hb hlay
    have hl : ((buf.drop s.offset).take s.packLen).length = s.packLen := by simp; omega
    obtain ⟨_, m, d1, d2, d3, _⟩ := c2 v c c0 _ buf hr hsh (by rw [← a5]; exact hlay) (by rw [hl]; omega) (by rw [hl])
    exact ⟨m, d1, d2, d3⟩

/-- `{"a"S"b"a[4]"c"T["W"]"d"l[2]"e"{"f"C}}` with `W` a 32-bit integer. -/
def gcElem : Elem :=
  .record (.cons (some "a".toList) (.prim .u16 none none none)
    (.cons (some "b".toList) (.prim .str none none (some 4))
    (.cons (some "c".toList) (.refType "W".toList (.prim .u32 none none none))
    (.cons (some "d".toList) (.prim .s32 none none (some 2))
    (.cons (some "e".toList) (.record (.cons (some "f".toList) (.prim .u8 none none none) .nil) none) .nil))))) none

/-- A value of that type. -/
def gcVal : PyVal :=
  .dict [("a".toList, .int 258), ("b".toList, .str "xy".toList), ("c".toList, .int 7),
    ("d".toList, .list [.int (-1), .int 2]), ("e".toList, .dict [("f".toList, .int 9)])]

/-- The C object for that value. -/
def gcObj : CVal :=
  .struct (.cons "a".toList (.int 258) (.cons "b".toList (.chars [120, 121, 0, 0]) (.cons "c".toList (.int 7)
    (.cons "d".toList (.ints [-1, 2]) (.cons "e".toList (.struct (.cons "f".toList (.int 9) .nil)) .nil)))))

example : gcElem.CSupported ∧ gcElem.Repr [] gcVal gcObj := by
  constructor
  · simp only [gcElem, Elem.CSupported, Fields.CSupported, Fields.names]
    refine ⟨by decide, rfl, ⟨by decide, by decide⟩, ⟨.u32, none, none, by decide +kernel, rfl⟩, ⟨by decide, by decide⟩,
      ⟨by decide, rfl, trivial⟩, trivial⟩
  · refine ⟨rfl, ⟨_, rfl, .u16, 258, rfl, by decide, rfl, rfl⟩, rfl,
      ⟨_, rfl, .inr ⟨"xy".toList, rfl, by decide +kernel, rfl, by decide +kernel⟩⟩, rfl,
      ⟨_, rfl, .u32, 7, rfl, by decide, rfl, rfl⟩, rfl,
      ⟨_, rfl, .inl ⟨.s32, [-1, 2], rfl, by decide, rfl, rfl, rfl⟩⟩, rfl,
      ⟨_, rfl, rfl, ⟨_, rfl, .u8, 9, rfl, by decide, rfl, rfl⟩, trivial⟩, trivial⟩

example : (match genFunc [] [] .pack true true 1 false gcElem with
    | .ok (f, n) => decide (n = 19) && (match f.call (List.replicate 21 5) (.ptr gcObj) with
      | some m => decide (m.buf = [5, 2, 1, 120, 121, 0, 0, 7, 0, 0, 0, 255, 255, 255, 255, 2, 0, 0, 0, 9, 5])
      | none => false)
    | .error _ => false) = true := by decide +kernel

/-- The same struct with other contents. -/
def gcOld : CVal :=
  .struct (.cons "a".toList (.int 1) (.cons "b".toList (.chars [1, 2, 3, 0]) (.cons "c".toList (.int 1)
    (.cons "d".toList (.ints [1, 1]) (.cons "e".toList (.struct (.cons "f".toList (.int 1) .nil)) .nil)))))

example : gcElem.Shape [] gcOld := by
  refine ⟨rfl, ⟨rfl, _, rfl⟩, rfl, .inr ⟨rfl, [1, 2, 3], rfl, rfl⟩, rfl, ⟨rfl, _, rfl⟩, rfl, .inl ⟨rfl, [1, 1], rfl, rfl⟩, rfl,
    ⟨rfl, ⟨rfl, _, rfl⟩, trivial⟩, trivial⟩

example : (match genFunc [] [] .unpack true true 1 false gcElem with
    | .ok (f, _) =>
      (match f.call [5, 2, 1, 120, 121, 0, 0, 7, 0, 0, 0, 255, 255, 255, 255, 2, 0, 0, 0, 9, 5] (.ptr gcOld) with
      | some m => decide (m.arg = .ptr gcObj)
      | none => false)
    | .error _ => false) = true := by decide +kernel

example : (match generate geNode with
    | .ok g => (match g.node.provides with
      | [p, q] => (match writeFunc g [] [['O']] p, writeFunc g [] [['O']] q with
        | .ok (f, 2), .ok (h, 2) => decide ((f.call [9, 9, 9, 9] (.int 258)).map CMach.buf = some [2, 1, 9, 9] ∧
            (h.call [9, 9, 9, 9] (.ptr (.ints [7, 8]))).map CMach.buf = some [9, 9, 7, 8] ∧
            (h.call [9, 9, 9, 9] (.ptr (.ints [7, 8]))).map CMach.notes = some [(2, 2, true)])
        | _, _ => false)
      | _ => false)
    | _ => false) = true := by decide +kernel

/-! ### Where the emitted code goes wrong -/

/-- C67 is violated by a field whose type is a reference to a record: nothing is emitted for it, and the
fields after it are stored in its place. Here the port `{"a"T["R"]"b"C}`, with `R` being `{"x"C}`, has two
bytes; the emitted function stores `b` into the first one and reports one byte. -/
example :
    ∃ (types : List NamedType) (e d : Elem) (v : PyVal) (c : CVal) (f : CFunc) (m : CMach),
      e.resolveType types = .ok d ∧ d.Repr [] v c ∧ d.packLen = .ok 2 ∧ d.layout v = some [3, 4] ∧
      genFunc types [] .pack true true 0 false e = .ok (f, 1) ∧ f.call [0, 0] (.ptr c) = some m ∧
      m.buf = [4, 0] ∧ m.notes = [(0, 1, false)] := by
  refine ⟨[⟨"R".toList, .record (.cons (some "x".toList) (.prim .u8 none none none) .nil) none⟩],
    .record (.cons (some "a".toList) (.refName "R".toList) (.cons (some "b".toList) (.prim .u8 none none none) .nil)) none,
    .record (.cons (some "a".toList) (.refType "R".toList (.record (.cons (some "x".toList) (.prim .u8 none none none) .nil) none))
      (.cons (some "b".toList) (.prim .u8 none none none) .nil)) none,
    .dict [("a".toList, .dict [("x".toList, .int 3)]), ("b".toList, .int 4)],
    .struct (.cons "a".toList (.struct (.cons "x".toList (.int 3) .nil)) (.cons "b".toList (.int 4) .nil)),
    ⟨none, [.lockOut, .setP 0, .stmt (.simple (.storeByte (.rel 0) [.arrow "b".toList])), .stmt (.simple (.advance 1)),
      .notify 0 1 false]⟩,
    ⟨[4, 0], some 1, .ptr (.struct (.cons "a".toList (.struct (.cons "x".toList (.int 3) .nil)) (.cons "b".toList (.int 4) .nil))),
      false, 0, [(0, 1, false)]⟩,
    by decide +kernel, ?_, by decide +kernel, by decide +kernel, by decide +kernel, by decide +kernel, rfl, rfl⟩
  exact ⟨rfl, ⟨_, rfl, rfl, ⟨_, rfl, .u8, 3, rfl, by decide, rfl, rfl⟩, trivial⟩, rfl,
    ⟨_, rfl, .u8, 4, rfl, by decide, rfl, rfl⟩, trivial⟩

/-- C67 is violated by text that fills its field: the emitted function replaces the last byte by zero, the
runtime sends all bytes. -/
example :
    ∃ (e : Elem) (v : PyVal) (prog : Bytes) (f : CFunc) (m : CMach), e.layout v = some [97, 98] ∧
      compileProg .pack e = .ok prog ∧ execPackProg prog [0, 0] 0 v = .ok [97, 98] ∧
      genFunc [] [] .pack true true 0 false e = .ok (f, 2) ∧ f.call [0, 0] (.ptr (.chars [97, 98])) = some m ∧
      m.buf = [97, 0] := by
  refine ⟨.prim .str none none (some 2), .str "ab".toList, [1, 2, 0, 0, 0, 9, 2, 0],
    ⟨none, [.lockOut, .stmt (.simple (.copyIn (.abs 0) [] 1)), .stmt (.simple (.zero (.abs 1))), .notify 0 2 false]⟩,
    ⟨[97, 0], none, .ptr (.chars [97, 98]), false, 0, [(0, 2, false)]⟩,
    by decide +kernel, by decide +kernel, by decide +kernel, by decide +kernel, by decide +kernel, rfl⟩

/-- C67 is violated when text is read into an array that does not already end in a zero byte: text that
just fits is not terminated. -/
example :
    ∃ (e : Elem) (v : PyVal) (f : CFunc) (m : CMach), e.layout v = some [97, 0] ∧
      genFunc [] [] .unpack true true 0 false e = .ok (f, 2) ∧ f.call [97, 0] (.ptr (.chars [1, 1])) = some m ∧
      m.arg = .ptr (.chars [97, 1]) := by
  refine ⟨.prim .str none none (some 2), .str "a".toList,
    ⟨none, [.lockIn, .stmt (.simple (.copyOut [] (.abs 0) 1)), .unlockIn]⟩,
    ⟨[97, 0], none, .ptr (.chars [97, 1]), false, 0, []⟩,
    by decide +kernel, by decide +kernel, by decide +kernel, rfl⟩

/-- C67 is violated by text of length zero: `memcpy` is asked to copy -1 bytes. -/
example :
    ∃ (e : Elem) (f : CFunc), parseSig "a[0]".toList = .ok (some e, []) ∧
      genFunc [] [] .pack true true 1 false e = .ok (f, 0) ∧ ∀ buf b, f.call buf (.ptr (.chars b)) = none := by
  refine ⟨.prim .str none none (some 0),
    ⟨none, [.lockOut, .stmt (.simple (.copyIn (.abs 1) [] (-1))), .stmt (.simple (.zero (.abs 0))), .notify 1 0 false]⟩,
    by decide +kernel, by decide +kernel, ?_⟩
  intro buf b
  simp [CFunc.call, runTops, CTop.run, CStmt.run, CSimple.run, asIndex, CVal.get, CVal.asChars]

/-- With a suffix for member names and nested records, the suffix is left out inside (`C67_nested_suffix_violated`). -/
example :
    ∃ (e : Elem) (v : PyVal) (c : CVal) (f : CFunc), e.CSupported ∧ e.Repr "_RE".toList v c ∧
      genFunc [] "_RE".toList .pack true true 0 false e = .ok (f, 1) ∧ f.call [0] (.ptr c) = none := by
  refine ⟨.record (.cons (some "a".toList) (.record (.cons (some "b".toList) (.prim .u8 none none none) .nil) none) .nil) none,
    .dict [("a".toList, .dict [("b".toList, .int 3)])],
    .struct (.cons "a_RE".toList (.struct (.cons "b_RE".toList (.int 3) .nil)) .nil),
    ⟨none, [.lockOut, .setP 0, .stmt (.simple (.storeByte (.rel 0) [.arrow "a_RE".toList, .dot "b".toList])),
      .stmt (.simple (.advance 1)), .notify 0 1 false]⟩, ?_, ?_, by decide +kernel, by decide +kernel⟩
  · exact ⟨by decide, ⟨by decide, rfl, trivial⟩, trivial⟩
  · exact ⟨rfl, ⟨_, rfl, rfl, ⟨_, rfl, .u8, 3, rfl, by decide, rfl, rfl⟩, trivial⟩, trivial⟩

/-- C67: a field whose type is a reference to an array or a string makes the generator fail. -/
example :
    ∃ (types : List NamedType) (e d : Elem) (v : PyVal), e.resolveType types = .ok d ∧ d.layout v = some [3, 4] ∧
      genFunc types [] .pack true true 0 false e = .error .typeError := by
  refine ⟨[⟨"A".toList, .prim .u8 none none (some 2)⟩],
    .record (.cons (some "a".toList) (.refName "A".toList) .nil) none,
    .record (.cons (some "a".toList) (.refType "A".toList (.prim .u8 none none (some 2))) .nil) none,
    .dict [("a".toList, .list [.int 3, .int 4])], by decide +kernel, by decide +kernel, by decide +kernel⟩

end Apx
