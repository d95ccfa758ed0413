import Verif.Proofs.NodeData

namespace Apx

theorem initBytes_le (tc : TypeCode) (t : IntT) (ht : tc.integer = some t) (i : Int) :
    initBytes tc i = littleEndian t.width i := by
  cases tc <;> simp [TypeCode.integer] at ht <;> subst ht <;>
    simp [initBytes, littleEndian, IntT.width, byteAt, List.range_succ]

theorem initBytes_length (tc : TypeCode) (t : IntT) (ht : tc.integer = some t) (i : Int) :
    (initBytes tc i).length = tc.size := by
  cases tc <;> simp [TypeCode.integer] at ht <;> simp [initBytes, TypeCode.size]

theorem initScalar_length (tc : TypeCode) (t : IntT) (ht : tc.integer = some t) (iv : InitVal) (b : Bytes)
    (h : initScalar tc iv = .ok b) : b.length = tc.size := by
  cases iv with
  | int i => simp only [initScalar, Except.ok.injEq] at h; rw [← h, initBytes_length tc t ht]
  | str s =>
    simp only [initScalar, bind_ok_iff, Except.ok.injEq] at h
    obtain ⟨i, _, rfl⟩ := h
    rw [initBytes_length tc t ht]
  | list l => simp [initScalar] at h
  | missing => simp [initScalar] at h

theorem initScalars_length (tc : TypeCode) (t : IntT) (ht : tc.integer = some t) (l : List InitVal) (b : Bytes)
    (h : initScalars tc l = .ok b) : b.length = tc.size * l.length := by
  induction l generalizing b with
  | nil => simp only [initScalars, Except.ok.injEq] at h; simp [← h]
  | cons v l ih =>
    simp only [initScalars, bind_ok_iff, Except.ok.injEq] at h
    obtain ⟨a, h1, c, h2, rfl⟩ := h
    rw [List.length_append, ih c h2, initScalar_length tc t ht v a h1, List.length_cons, Nat.mul_succ]
    omega

theorem initString_length (n : Nat) (s : Str) (b : Bytes) (h : initString n s = .ok b) : b.length = n := by
  induction n generalizing s b with
  | zero => simp only [initString, Except.ok.injEq] at h; simp [← h]
  | succ n ih =>
    cases s with
    | nil =>
      simp only [initString, bind_ok_iff, Except.ok.injEq] at h
      obtain ⟨r, h1, rfl⟩ := h
      simp [ih _ _ h1]
    | cons c s =>
      simp only [initString] at h
      split at h
      · simp only [bind_ok_iff, Except.ok.injEq] at h
        obtain ⟨r, h1, rfl⟩ := h
        simp [ih _ _ h1]
      · simp at h

theorem totalSize_single (a b : Nat) : totalSize [(a, b)] = a * b := by simp [totalSize]

theorem prim_leaves (tc : TypeCode) (mn mx : Option Int) (a : Option Nat) :
    (Elem.prim tc mn mx a).leaves = some [(tc.size, a.getD 1)] := by
  cases tc <;> rfl

mutual
theorem Elem.initInner_length (e : Elem) (iv : InitVal) (b : Bytes) (ls : List (Nat × Nat))
    (h : e.initInner iv = .ok b) (hf : e.InitFits iv) (hl : e.leaves = some ls) : b.length = totalSize ls := by
  match e with
  | .prim tc mn mx a =>
    rw [prim_leaves] at hl
    simp only [Option.some.injEq] at hl
    subst hl
    rw [totalSize_single]
    by_cases hs : tc = .str
    · subst hs
      cases iv with
      | str s =>
        cases a with
        | none => simp [Elem.initInner] at h
        | some n =>
          simp only [Elem.initInner] at h
          rw [initString_length n s b h]
          simp [TypeCode.size]
      | _ => simp [Elem.initInner] at h
    · by_cases hu : tc = .u64 ∨ tc = .s64
      · rcases hu with rfl | rfl <;> simp [Elem.initInner] at h
      · have : ∃ t, tc.integer = some t := by
          cases tc <;> simp_all [TypeCode.integer]
        obtain ⟨t, ht⟩ := this
        cases a with
        | none =>
          have h' : initScalar tc iv = .ok b := by
            cases tc <;> simp_all [Elem.initInner]
          rw [initScalar_length tc t ht iv b h']
          simp
        | some n =>
          cases iv with
          | list l =>
            have h' : initScalars tc l = .ok b := by
              cases tc <;> simp_all [Elem.initInner]
            simp only [Elem.InitFits] at hf
            rw [initScalars_length tc t ht l b h', hf]
            simp
          | _ => cases tc <;> simp_all [Elem.initInner]
  | .record fs a =>
    cases a with
    | some n => simp [Elem.leaves] at hl
    | none =>
      simp only [Elem.leaves] at hl
      cases iv with
      | list l =>
        simp only [Elem.initInner] at h
        split at h
        · simp at h
        · exact Fields.initInner_length fs l b ls h (by simpa [Elem.InitFits] using hf) hl
      | _ => simp [Elem.initInner] at h
  | .refType m t =>
    simp only [Elem.initInner] at h
    simp only [Elem.leaves] at hl
    exact Elem.initInner_length t iv b ls h (by simpa [Elem.InitFits] using hf) hl
  | .refId i => simp [Elem.leaves] at hl
  | .refName n => simp [Elem.leaves] at hl

theorem Fields.initInner_length (fs : Fields) (l : List InitVal) (b : Bytes) (ls : List (Nat × Nat))
    (h : fs.initInner l = .ok b) (hf : fs.InitFits l) (hl : fs.leaves = some ls) : b.length = totalSize ls := by
  match fs with
  | .nil =>
    simp only [Fields.initInner, Except.ok.injEq] at h
    simp only [Fields.leaves, Option.some.injEq] at hl
    subst h hl
    rfl
  | .cons n e r =>
    cases l with
    | nil => simp [Fields.initInner] at h
    | cons iv l =>
      simp only [Fields.initInner, bind_ok_iff, Except.ok.injEq] at h
      obtain ⟨a, h1, c, h2, rfl⟩ := h
      simp only [Fields.InitFits] at hf
      simp only [Fields.leaves] at hl
      split at hl
      · rename_i x y hx hy
        simp only [Option.some.injEq] at hl
        subst hl
        rw [List.length_append, Elem.initInner_length e iv a x h1 hf.1 hx,
          Fields.initInner_length r l c y h2 hf.2 hy, totalSize_append]
      · simp at hl
end

theorem createInit_inner {e : Elem} {iv : InitVal} {b : Bytes} (h : e.createInitData iv = .ok b) :
    e.initInner iv = .ok b := by
  unfold Elem.createInitData at h
  split at h
  · split at h
    · simp at h
    · rename_i hl
      simp only [Elem.initInner]
      rw [if_neg hl]
      exact h
  · exact h

theorem inner_createInit {e : Elem} {iv : InitVal} {b : Bytes} (h : e.initInner iv = .ok b) :
    e.createInitData iv = .ok b := by
  unfold Elem.createInitData
  split
  · simp only [Elem.initInner] at h
    split at h
    · simp at h
    · rename_i hl
      rw [if_neg hl]
      exact h
  · exact h

/-- Initial data has `packLen` bytes. -/
theorem portInit_length {d : Dir} {e : Elem} {prog : Bytes} {n : Nat} (hc : compileProg d e = .ok prog)
    (hn : e.packLen = .ok n) (init : Option InitVal) (hf : ∀ iv, init = some iv → e.InitFits iv) (b : Bytes)
    (h : portInit e n init = .ok b) : b.length = n := by
  obtain ⟨code, m, hce, _⟩ := compileProg_inv hc
  obtain ⟨ls, h1, h2⟩ := e.compile_leaves code m hce
  rw [packLen_leaves e ls h1] at hn
  simp only [Except.ok.injEq] at hn
  cases init with
  | none =>
    simp only [portInit, Except.ok.injEq] at h
    simp [← h]
  | some iv =>
    rw [← hn]
    exact e.initInner_length iv b ls (createInit_inner h) (hf iv rfl) h1

/-! ### Initial data is the layout of the denoted value -/

theorem initScalars_layout (tc : TypeCode) (t : IntT) (ht : tc.integer = some t) (is : List Int) (bs : Bytes)
    (h : intsLayout t (is.map .int) = some bs) : initScalars tc (is.map .int) = .ok bs := by
  induction is generalizing bs with
  | nil => simp only [List.map_nil, intsLayout, Option.some.injEq] at h; simp [initScalars, h]
  | cons i is ih =>
    simp only [List.map_cons, intsLayout] at h
    split at h
    · rename_i a c h1 h2
      simp only [Option.some.injEq] at h
      subst h
      simp only [intLayout] at h1
      split at h1
      · simp only [Option.some.injEq] at h1
        simp only [List.map_cons, initScalars, initScalar, ih c h2, ok_bind]
        rw [initBytes_le tc t ht, h1]
      · simp at h1
    · simp at h

theorem initString_text (n : Nat) (s : Str) (hs : ∀ c ∈ s, c.toNat < 128) :
    initString n s = .ok (textLayout n s) := by
  induction n generalizing s with
  | zero => simp [initString, textLayout]
  | succ n ih =>
    cases s with
    | nil =>
      simp only [initString, ih [] (by simp), ok_bind]
      simp [textLayout, utf8Encode, List.replicate_succ]
    | cons c s =>
      have hc := hs c (by simp)
      simp only [initString]
      rw [if_pos (by omega), ih s (fun x hx => hs x (by simp [hx])), ok_bind]
      have hcons : utf8Encode (c :: s) = UInt8.ofNat c.toNat :: utf8Encode s := by
        have : utf8Encode (c :: s) = String.utf8EncodeChar c ++ utf8Encode s := by
          simp [utf8Encode]
        rw [this, utf8EncodeChar_ascii c hc]
        rfl
      simp only [textLayout, hcons, List.take_succ_cons, List.length_cons, List.cons_append, Nat.add_sub_add_right]

mutual
theorem Elem.init_layout (e : Elem) (iv : InitVal) (v : PyVal) (bs : Bytes) (hd : e.Denotes iv v)
    (ha : iv.Ascii) (hf : e.InitFits iv) (hl : e.layout v = some bs) : e.initInner iv = .ok bs := by
  match e with
  | .prim tc mn mx a =>
    cases a with
    | none =>
      cases iv with
      | int i =>
        have hv : v = .int i := by simpa [Elem.Denotes] using hd
        subst hv
        simp only [Elem.layout] at hl
        split at hl
        · rename_i t ht
          simp only [intLayout] at hl
          split at hl
          · simp only [Option.some.injEq] at hl
            subst hl
            rw [← initBytes_le tc t ht i]
            cases tc <;> simp [TypeCode.integer] at ht <;> simp [Elem.initInner, initScalar]
          · simp at hl
        · simp at hl
      | _ => simp [Elem.Denotes] at hd
    | some n =>
      cases iv with
      | list l =>
        have : ∃ is : List Int, l = is.map .int ∧ v = .list (is.map .int) := by
          simpa [Elem.Denotes] using hd
        obtain ⟨is, rfl, rfl⟩ := this
        simp only [Elem.layout] at hl
        cases ht : tc.integer with
        | none => simp [ht] at hl
        | some t =>
          simp only [ht] at hl
          split at hl
          · simp only [Elem.InitFits, List.length_map] at hf
            rw [List.take_of_length_le (by simp; omega)] at hl
            have := initScalars_layout tc t ht is bs hl
            cases tc <;> simp [TypeCode.integer] at ht <;> simpa [Elem.initInner] using this
          · simp at hl
      | str s =>
        by_cases hs : tc = .str
        · subst hs
          have hv : v = .str s := by simpa [Elem.Denotes] using hd
          subst hv
          simp only [Elem.layout, TypeCode.integer, if_true, Option.some.injEq] at hl
          simp only [Elem.initInner]
          rw [initString_text n s (by simpa [InitVal.Ascii] using ha), hl]
        · simp [Elem.Denotes, hs] at hd
      | _ => simp [Elem.Denotes] at hd
  | .record fs a =>
    cases a with
    | some n => simp [Elem.Denotes] at hd
    | none =>
      cases iv with
      | list l =>
        cases v with
        | dict d =>
          simp only [Elem.Denotes] at hd
          obtain ⟨h1, h2⟩ := Fields.init_layout fs l d bs hd (by simpa [InitVal.Ascii] using ha)
            (by simpa [Elem.InitFits] using hf) (by simpa [Elem.layout] using hl)
          simp only [Elem.initInner]
          rw [if_neg (by simp [h2])]
          exact h1
        | _ => simp [Elem.Denotes] at hd
      | _ => simp [Elem.Denotes] at hd
  | .refType m t =>
    simp only [Elem.initInner]
    exact Elem.init_layout t iv v bs (by simpa [Elem.Denotes] using hd) ha
      (by simpa [Elem.InitFits] using hf) (by simpa [Elem.layout] using hl)
  | .refId i => simp [Elem.Denotes] at hd
  | .refName n => simp [Elem.Denotes] at hd

theorem Fields.init_layout (fs : Fields) (l : List InitVal) (d : List (Str × PyVal)) (bs : Bytes)
    (hd : fs.Denotes l d) (ha : InitVal.AsciiList l) (hf : fs.InitFits l) (hl : fs.layout d = some bs) :
    fs.initInner l = .ok bs ∧ l.length = fs.length := by
  match fs with
  | .nil =>
    cases l with
    | nil =>
      simp only [Fields.layout, Option.some.injEq] at hl
      simp [Fields.initInner, hl, Fields.length]
    | cons a l => simp [Fields.Denotes] at hd
  | .cons none e r => simp [Fields.Denotes] at hd
  | .cons (some k) e r =>
    cases l with
    | nil => simp [Fields.Denotes] at hd
    | cons iv l =>
      simp only [Fields.Denotes] at hd
      obtain ⟨⟨v, h1, h2⟩, h3⟩ := hd
      simp only [InitVal.AsciiList] at ha
      simp only [Fields.InitFits] at hf
      simp only [Fields.layout, h1] at hl
      split at hl
      · rename_i a b h4 h5
        simp only [Option.some.injEq] at hl
        subst hl
        obtain ⟨h6, h7⟩ := Fields.init_layout r l d b h3 ha.2 hf.2 h5
        simp only [Fields.initInner, Elem.init_layout e iv v a h2 ha.1 hf.1 h4, ok_bind, h6, Fields.length,
          List.length_cons, h7, and_self]
      · simp at hl
end

/-! ### Ports without init value -/

theorem littleEndian_zero (n : Nat) : ∀ b ∈ littleEndian n 0, b = 0 := by
  intro b hb
  simp only [littleEndian, List.mem_map] at hb
  obtain ⟨k, _, rfl⟩ := hb
  simp

theorem intsLayout_zero (t : IntT) (n : Nat) (bs : Bytes)
    (h : intsLayout t (List.replicate n (.int 0)) = some bs) : ∀ b ∈ bs, b = 0 := by
  induction n generalizing bs with
  | zero => simp only [List.replicate_zero, intsLayout, Option.some.injEq] at h; simp [← h]
  | succ n ih =>
    simp only [List.replicate_succ, intsLayout] at h
    split at h
    · rename_i a c h1 h2
      simp only [Option.some.injEq] at h
      subst h
      simp only [intLayout] at h1
      split at h1
      · simp only [Option.some.injEq] at h1
        subst h1
        intro b hb
        rcases List.mem_append.mp hb with hb | hb
        · exact littleEndian_zero _ b hb
        · exact ih c h2 b hb
      · simp at h1
    · simp at h

mutual
theorem Elem.zero_layout (e : Elem) (v : PyVal) (bs : Bytes) (hz : e.IsZero v) (hl : e.layout v = some bs) :
    ∀ b ∈ bs, b = 0 := by
  match e with
  | .prim tc mn mx a =>
    cases a with
    | none =>
      have hv : v = .int 0 := by simpa [Elem.IsZero] using hz
      subst hv
      simp only [Elem.layout] at hl
      split at hl
      · simp only [intLayout] at hl
        split at hl
        · simp only [Option.some.injEq] at hl
          subst hl
          exact littleEndian_zero _
        · simp at hl
      · simp at hl
    | some n =>
      by_cases hs : tc = .str
      · subst hs
        have hv : v = .str [] := by simpa [Elem.IsZero] using hz
        subst hv
        simp only [Elem.layout, TypeCode.integer, if_true, Option.some.injEq] at hl
        subst hl
        simp [textLayout, utf8Encode]
      · have hv : v = .list (List.replicate n (.int 0)) := by
          cases tc <;> simp_all [Elem.IsZero]
        subst hv
        simp only [Elem.layout] at hl
        cases ht : tc.integer with
        | none => simp [ht] at hl
        | some t =>
          simp only [ht, List.length_replicate, Nat.le_refl, if_true, List.take_replicate, Nat.min_self] at hl
          exact intsLayout_zero t n bs hl
  | .record fs a =>
    cases v with
    | dict d =>
      cases a with
      | some n => simp [Elem.layout] at hl
      | none => exact Fields.zero_layout fs d bs (by simpa [Elem.IsZero] using hz) (by simpa [Elem.layout] using hl)
    | _ => simp [Elem.IsZero] at hz
  | .refType m t => exact Elem.zero_layout t v bs (by simpa [Elem.IsZero] using hz) (by simpa [Elem.layout] using hl)
  | .refId i => simp [Elem.IsZero] at hz
  | .refName n => simp [Elem.IsZero] at hz

theorem Fields.zero_layout (fs : Fields) (d : List (Str × PyVal)) (bs : Bytes) (hz : fs.IsZero d)
    (hl : fs.layout d = some bs) : ∀ b ∈ bs, b = 0 := by
  match fs with
  | .nil =>
    simp only [Fields.layout, Option.some.injEq] at hl
    simp [← hl]
  | .cons none e r => simp [Fields.IsZero] at hz
  | .cons (some k) e r =>
    simp only [Fields.IsZero] at hz
    obtain ⟨⟨v, h1, h2⟩, h3⟩ := hz
    simp only [Fields.layout, h1] at hl
    split at hl
    · rename_i a c h4 h5
      simp only [Option.some.injEq] at hl
      subst hl
      intro b hb
      rcases List.mem_append.mp hb with hb | hb
      · exact Elem.zero_layout e v a h2 h4 b hb
      · exact Fields.zero_layout r d c h3 h5 b hb
    · simp at hl
end

/-! ### Where the initial bytes of a port are -/

theorem flatten_at {rs : List PortRange} {bs : List Bytes} {off k stop : Nat} (hc : Consecutive off k rs stop)
    (hlen : ∀ (i : Nat) (r : PortRange) (b : Bytes), rs[i]? = some r → bs[i]? = some b → b.length = r.len)
    (heq : rs.length = bs.length) {i : Nat} {r : PortRange} {b : Bytes} (hr : rs[i]? = some r)
    (hb : bs[i]? = some b) : ((bs.flatten).drop (r.offset - off)).take r.len = b ∧ off ≤ r.offset := by
  induction rs generalizing bs off k i with
  | nil => simp at hr
  | cons r0 rs ih =>
    cases bs with
    | nil => simp at hb
    | cons b0 bs =>
      obtain ⟨h1, h2, h3⟩ := hc
      have h0 := hlen 0 r0 b0 rfl rfl
      cases i with
      | zero =>
        simp only [List.getElem?_cons_zero, Option.some.injEq] at hr hb
        subst hr hb
        rw [h1, Nat.sub_self, List.drop_zero, List.flatten_cons, ← h0, List.take_left']
        exact ⟨rfl, by omega⟩
        rfl
      | succ i =>
        have := ih h3 (bs := bs) (fun i r b hi hb => hlen (i + 1) r b (by simpa using hi) (by simpa using hb))
          (by simpa using heq) (i := i) (by simpa using hr) (by simpa using hb)
        refine ⟨?_, by omega⟩
        rw [List.flatten_cons, show r.offset - off = b0.length + (r.offset - (off + r0.len)) by omega,
          ← List.drop_drop, List.drop_left']
        exact this.1
        rfl

end Apx
