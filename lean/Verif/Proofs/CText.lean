import Verif.Spec.CText
import Verif.Model.GenPrint
import Verif.Props.GenText

/-! Reading the text of generated functions. -/

namespace Apx

/-! ### Tokens -/

theorem lexC_word_cons (c d : Char) (s : Str) (hc : cWordChar c = true) (hd : cWordChar d = true) :
    lexC (c :: d :: s) = joinWord c (lexC (d :: s)) := by
  rw [lexC, if_pos hc, List.head?_cons, Option.any_some, if_pos hd]

theorem lexC_end (c d : Char) (s : Str) (hc : cWordChar c = true) (hd : cWordChar d = false) :
    lexC (c :: d :: s) = .word [c] :: lexC (d :: s) := by
  rw [lexC, if_pos hc, List.head?_cons, Option.any_some, if_neg (by simp [hd])]

theorem lexC_other (c : Char) (s : Str) (hc : cWordChar c = false) :
    lexC (c :: s) = if c = ' ' then lexC s else .sym c :: lexC s := by
  rw [lexC, if_neg (by simp [hc])]

/-- No word goes over the border. -/
def Apart (a b : Str) : Prop :=
  ∀ c d, a.getLast? = some c → b.head? = some d → cWordChar c = false ∨ cWordChar d = false

theorem lexC_append : ∀ (a b : Str), Apart a b → lexC (a ++ b) = lexC a ++ lexC b
  | [], b, _ => rfl
  | [c], b, h => by
    cases b with
    | nil => simp [lexC]
    | cons d b =>
      show lexC (c :: d :: b) = _
      cases hc : cWordChar c with
      | true =>
        have hd : cWordChar d = false := by
          rcases h c d rfl rfl with h | h
          · rw [hc] at h; cases h
          · exact h
        rw [lexC_end c d b hc hd]
        simp [lexC, hc]
      | false =>
        rw [lexC_other c _ hc, lexC_other c _ hc]
        split <;> simp [lexC]
  | c :: x :: a, b, h => by
    have ih : lexC (x :: (a ++ b)) = lexC (x :: a) ++ lexC b := lexC_append (x :: a) b (by
      intro c' d' h1 h2
      exact h c' d' (by rw [List.getLast?_cons_cons]; exact h1) h2)
    show lexC (c :: x :: (a ++ b)) = _
    cases hc : cWordChar c with
    | false =>
      rw [lexC_other c _ hc, lexC_other c _ hc, ih]
      split <;> rfl
    | true =>
      cases hx : cWordChar x with
      | false =>
        rw [lexC_end c x _ hc hx, lexC_end c x _ hc hx, ih]
        rfl
      | true =>
        rw [lexC_word_cons c x _ hc hx, lexC_word_cons c x _ hc hx, ih]
        have hne : ∃ w r, lexC (x :: a) = .word w :: r := by
          rw [lexC, if_pos hx]
          split
          · unfold joinWord
            split <;> exact ⟨_, _, rfl⟩
          · exact ⟨_, _, rfl⟩
        obtain ⟨w, r, hw⟩ := hne
        rw [hw]
        rfl

theorem lexC_word : ∀ (w : Str), CWord w → lexC w = [.word w]
  | [], h => absurd rfl h.1
  | [c], h => by simp [lexC, h.2 c (by simp)]
  | c :: d :: s, h => by
    rw [lexC_word_cons c d s (h.2 c (by simp)) (h.2 d (by simp)),
      lexC_word (d :: s) ⟨by simp, fun x hx => h.2 x (List.mem_cons_of_mem _ hx)⟩]
    rfl

/-- Text that ends with a character that is not part of a word. -/
theorem apart_left {a : Str} (b : Str) (h : a.getLast?.all (fun c => !cWordChar c) = true) : Apart a b := by
  intro c d h1 _
  rw [h1] at h
  left
  simpa using h

/-- Text that begins with a character that is not part of a word. -/
theorem apart_right (a : Str) {b : Str} (h : b.head?.all (fun c => !cWordChar c) = true) : Apart a b := by
  intro c d _ h2
  rw [h2] at h
  right
  simpa using h

theorem expect_append : ∀ (l r : List CTok), expect l (l ++ r) = some r
  | [], _ => rfl
  | x :: l, r => by
    show (if x = x then expect l (l ++ r) else none) = some r
    rw [if_pos rfl, expect_append l r]

/-! ### Numbers -/

theorem cDigits_append (a : Str) (c : Char) : ∀ n, cDigits n (a ++ [c]) = (cDigits n a).bind fun m =>
    if 48 ≤ c.toNat ∧ c.toNat ≤ 57 then some (m * 10 + (c.toNat - 48)) else none := by
  induction a with
  | nil => intro n; rfl
  | cons x a ih =>
    intro n
    simp only [List.cons_append, cDigits]
    split
    · rw [ih]
    · rfl

theorem cDigits_natStr (n : Nat) : cDigits 0 (natStr n) = some n := by
  induction n using Nat.strongRecOn with
  | _ n ih =>
    unfold natStr
    split
    · rename_i h
      have : (digitChar n).toNat = 48 + n := digitChar_toNat n h
      simp only [cDigits, this]
      rw [if_pos (by omega)]
      congr 1; omega
    · rename_i h
      rw [cDigits_append, ih _ (by omega)]
      have : (digitChar (n % 10)).toNat = 48 + n % 10 := digitChar_toNat _ (by omega)
      simp only [Option.bind_some, this]
      rw [if_pos (by omega)]
      congr 1; omega

theorem cNumber_natStr (n : Nat) : cNumber (natStr n) = some n := by
  unfold cNumber
  split
  · rename_i h
    have := cDigits_natStr n
    rw [h] at this
    rw [← this]; rfl
  · rename_i h
    rw [if_neg]
    · exact cDigits_natStr n
    · rintro (h1 | h1)
      · exact natStr_ne_nil n h1
      · exact h ((cDecimal_natStr n).2 h1)

theorem cWord_natStr (n : Nat) : CWord (natStr n) := by
  refine ⟨natStr_ne_nil n, fun c hc => ?_⟩
  have := natStr_chars n c hc
  simp only [cWordChar, Char.isAlphanum, Char.isDigit, Bool.or_eq_true, Bool.and_eq_true, decide_eq_true_eq]
  left; right
  constructor
  · show (48 : UInt32) ≤ c.val
    rw [UInt32.le_iff_toNat_le]; exact this.1
  · show c.val ≤ (57 : UInt32)
    rw [UInt32.le_iff_toNat_le]; exact this.2

/-! ### Parts of lines -/

/-- The text begins with a character that is not part of a word, if it is not empty. -/
def Sep (b : Str) : Prop := b.head?.all (fun c => !cWordChar c) = true

instance (b : Str) : Decidable (Sep b) := inferInstanceAs (Decidable (_ = _))

theorem lexC_lit (a b : Str) (h : a.getLast?.all (fun c => !cWordChar c) = true) : lexC (a ++ b) = lexC a ++ lexC b :=
  lexC_append a b (apart_left b h)

theorem lexC_sep (a b : Str) (h : Sep b) : lexC (a ++ b) = lexC a ++ lexC b :=
  lexC_append a b (apart_right a h)

theorem sep_append (a b : Str) (ha : a ≠ []) (h : Sep a) : Sep (a ++ b) := by
  cases a with
  | nil => exact absurd rfl ha
  | cons c a => exact h

theorem lexC_name (w b : Str) (hw : CWord w) (h : Sep b) : lexC (w ++ b) = .word w :: lexC b := by
  rw [lexC_sep w b h, lexC_word w hw]
  rfl

theorem readNat_natStr (n : Nat) (r : List CTok) : readNat (lexC (natStr n) ++ r) = some (n, r) := by
  rw [lexC_word _ (cWord_natStr n)]
  show (cNumber (natStr n)).map _ = _
  rw [cNumber_natStr]
  rfl

theorem readInt_decText (k : Int) (r : List CTok) : readInt (lexC (decText k) ++ r) = some (k, r) := by
  unfold decText intStr
  split
  · rw [lexC_other _ _ (by decide), if_neg (by decide), lexC_word _ (cWord_natStr _)]
    simp only [List.cons_append, List.nil_append, readInt, if_true, cNumber_natStr]
    simp only [Option.map_some, Option.some.injEq, Prod.mk.injEq, and_true, Int.ofNat_eq_natCast]
    omega
  · rw [lexC_word _ (cWord_natStr _)]
    simp only [List.cons_append, List.nil_append, readInt, cNumber_natStr]
    simp only [Option.map_some, Option.some.injEq, Prod.mk.injEq, and_true, Int.ofNat_eq_natCast]
    omega

theorem cWord_cname (t : IntT) : CWord t.cname := by cases t <;> decide +kernel

theorem readIntType_cname (t : IntT) (r : List CTok) : readIntType (lexC t.cname ++ r) = some (t, r) := by
  rw [lexC_word _ (cWord_cname t)]
  show (cIntType t.cname).map _ = _
  have : cIntType t.cname = some t := by cases t <;> decide +kernel
  rw [this]
  rfl

theorem readIndex_decText (k : Int) (r : List CTok) :
    readIndex (lexC "[".toList ++ (lexC (decText k) ++ (lexC "]".toList ++ r))) = some (k, r) := by
  have h1 : lexC "[".toList = [.sym '['] := by decide +kernel
  have h2 : lexC "]".toList = [.sym ']'] := by decide +kernel
  simp only [readIndex, h1, h2, expect_append, readInt_decText, Option.bind_eq_bind, Option.bind_some]

/-- A step of an lvalue after the variable. -/
def CAccess.Post : CAccess → Prop
  | .star => False
  | .arrow f => CIdent f
  | .dot f => CIdent f
  | .idx => True

/-- The tokens of steps after the variable. -/
def postToks : CPath → List CTok
  | [] => []
  | .star :: p => postToks p
  | .arrow f :: p => .sym '-' :: .sym '>' :: .word f :: postToks p
  | .dot f :: p => .sym '.' :: .word f :: postToks p
  | .idx :: p => .sym '[' :: .word ['i'] :: .sym ']' :: postToks p

/-- An lvalue that is printed the way it is read: `*` is applied last. -/
def ValueOk (v : CPath) : Prop := ∃ q : CPath, (∀ a ∈ q, a.Post) ∧ (v = q ∨ v = q ++ [.star])

theorem readPost_toks (r : List CTok) (hr : readPost r = ([], r)) : ∀ q : CPath, (∀ a ∈ q, a.Post) →
    readPost (postToks q ++ r) = (q, r)
  | [], _ => hr
  | .star :: p, h => (h .star (by simp)).elim
  | .arrow f :: p, h => by
    have ih := readPost_toks r hr p (fun a ha => h a (List.mem_cons_of_mem _ ha))
    show (if CIdent f then (CAccess.arrow f :: (readPost (postToks p ++ r)).1, (readPost (postToks p ++ r)).2) else _) = _
    rw [if_pos (show CIdent f from h _ (List.mem_cons_self ..)), ih]
  | .dot f :: p, h => by
    have ih := readPost_toks r hr p (fun a ha => h a (List.mem_cons_of_mem _ ha))
    show (if CIdent f then (CAccess.dot f :: (readPost (postToks p ++ r)).1, (readPost (postToks p ++ r)).2) else _) = _
    rw [if_pos (show CIdent f from h _ (List.mem_cons_self ..)), ih]
  | .idx :: p, h => by
    have ih := readPost_toks r hr p (fun a ha => h a (List.mem_cons_of_mem _ ha))
    show (CAccess.idx :: (readPost (postToks p ++ r)).1, (readPost (postToks p ++ r)).2) = _
    rw [ih]

/-- The step that prints an access. -/
def accessStep (s : Str) (a : CAccess) : Str :=
  match a with
  | .star => '*' :: s
  | .arrow f => s ++ "->".toList ++ f
  | .dot f => s ++ ['.'] ++ f
  | .idx => s ++ "[i]".toList

theorem lexC_steps : ∀ (q : CPath) (acc : Str), (∀ a ∈ q, a.Post) →
    lexC (q.foldl accessStep acc) = lexC acc ++ postToks q
  | [], acc, _ => by simp [postToks]
  | a :: q, acc, h => by
    have h1 := h a (by simp)
    rw [List.foldl_cons, lexC_steps q _ (fun b hb => h b (List.mem_cons_of_mem _ hb))]
    cases a with
    | star => exact h1.elim
    | arrow f =>
      show lexC (acc ++ "->".toList ++ f) ++ _ = _
      rw [List.append_assoc, lexC_sep acc _ (sep_append _ _ (by decide +kernel) (by decide +kernel)), lexC_lit _ _ (by decide +kernel), lexC_word f h1.1]
      have : lexC "->".toList = [.sym '-', .sym '>'] := by decide +kernel
      rw [this]
      simp [postToks]
    | dot f =>
      show lexC (acc ++ ['.'] ++ f) ++ _ = _
      rw [List.append_assoc, lexC_sep acc _ (sep_append _ _ (by decide +kernel) (by decide +kernel)), lexC_lit _ _ (by decide +kernel), lexC_word f h1.1]
      have : lexC ['.'] = [.sym '.'] := by decide +kernel
      rw [this]
      simp [postToks]
    | idx =>
      show lexC (acc ++ "[i]".toList) ++ _ = _
      rw [lexC_sep acc _ (by decide +kernel)]
      have : lexC "[i]".toList = [.sym '[', .word ['i'], .sym ']'] := by decide +kernel
      rw [this]
      simp [postToks]

theorem readValue_text (v : CPath) (h : ValueOk v) (r : List CTok) (hr : readPost r = ([], r)) :
    readValue (lexC (CPath.text v) ++ r) = some (v, r) := by
  obtain ⟨q, h1, h2⟩ := h
  have hv : lexC "val".toList = [kw "val"] := by decide +kernel
  have hne : (kw "val") ≠ .sym '*' := by simp [kw]
  have hq : lexC (q.foldl accessStep "val".toList) = kw "val" :: postToks q := by
    rw [lexC_steps q _ h1, hv]
    rfl
  rcases h2 with rfl | rfl
  · have : lexC (CPath.text v) = kw "val" :: postToks v := hq
    rw [this]
    unfold readValue
    rw [if_neg (by simp [kw])]
    have e : (kw "val" :: postToks v ++ r) = [kw "val"] ++ (postToks v ++ r) := rfl
    simp only [e, expect_append, Option.bind_eq_bind, Option.bind_some, readPost_toks r hr v h1]
  · have : lexC (CPath.text (q ++ [.star])) = .sym '*' :: kw "val" :: postToks q := by
      show lexC ((q ++ [CAccess.star]).foldl accessStep "val".toList) = _
      rw [List.foldl_append]
      show lexC ('*' :: q.foldl accessStep "val".toList) = _
      rw [lexC_other _ _ (by decide), if_neg (by decide), hq]
    rw [this]
    unfold readValue
    rw [if_pos (by rfl)]
    have e : (.sym '*' :: kw "val" :: postToks q ++ r) = [.sym '*', kw "val"] ++ (postToks q ++ r) := rfl
    simp only [e, expect_append, Option.bind_eq_bind, Option.bind_some, readPost_toks r hr q h1]

/-! ### Places in the buffer -/

theorem lexC_indent (n : Nat) (s : Str) : lexC (indentBy n s) = lexC s := by
  unfold indentBy
  induction n with
  | zero => rfl
  | succ n ih =>
    rw [List.replicate_succ, List.cons_append, lexC_other _ _ (by decide), if_pos rfl, ih]

/-- The name of the buffer is a word that is not used otherwise. -/
structure BufOk (buf : Str) : Prop where
  word : CWord buf
  p : CTok.word buf ≠ kw "p"
  packLE : CTok.word buf ≠ kw "packLE"
  memcpy : CTok.word buf ≠ kw "memcpy"
  val : CTok.word buf ≠ kw "val"
  loop : CTok.word buf ≠ kw "for"
  notify : CTok.word buf ≠ kw "apx_nodeData_outPortDataWriteNotify"
  lockOut : CTok.word buf ≠ kw "apx_nodeData_lockOutPortData"
  lockIn : CTok.word buf ≠ kw "apx_nodeData_lockInPortData"
  unlockIn : CTok.word buf ≠ kw "apx_nodeData_unlockInPortData"
  unpackLE : CTok.word buf ≠ kw "unpackLE"
  types : CTok.word buf ∉ [kw "uint8_t", kw "uint16_t", kw "uint32_t"]

theorem bufOk_out : BufOk "m_outPortdata".toList := by constructor <;> decide +kernel
theorem bufOk_in : BufOk "m_inPortdata".toList := by constructor <;> decide +kernel

theorem lex_bracket : lexC ['['] = [.sym '['] := by decide +kernel
theorem lex_bracket' : lexC [']'] = [.sym ']'] := by decide +kernel
theorem lex_p : lexC ['p'] = [kw "p"] := by decide +kernel
theorem lex_semi : lexC [';'] = [.sym ';'] := by decide +kernel

/-- The tokens of `[k]`. -/
theorem lexC_index (k : Int) (b : Str) :
    lexC (['['] ++ (decText k ++ ([']'] ++ b))) = [.sym '['] ++ (lexC (decText k) ++ ([.sym ']'] ++ lexC b)) := by
  rw [lexC_lit _ _ (by decide +kernel), lexC_sep (decText k) _ (sep_append _ _ (by decide) (by decide +kernel)),
    lexC_lit _ _ (by decide +kernel), lex_bracket, lex_bracket']

theorem readIndex_ok (k : Int) (r : List CTok) :
    readIndex ([.sym '['] ++ (lexC (decText k) ++ ([.sym ']'] ++ r))) = some (k, r) := by
  simp only [readIndex, expect_append, readInt_decText, Option.bind_eq_bind, Option.bind_some]

theorem lexC_addressText (buf : Str) (hb : BufOk buf) (k : Int) (b : Str) :
    lexC ((CLoc.abs k).address buf ++ b) =
      [.sym '&', .word buf] ++ ([.sym '['] ++ (lexC (decText k) ++ ([.sym ']'] ++ lexC b))) := by
  show lexC (['&'] ++ buf ++ ['['] ++ decText k ++ [']'] ++ b) = _
  simp only [List.append_assoc]
  rw [lexC_lit _ _ (by decide +kernel), lexC_name buf _ hb.word (sep_append _ _ (by decide) (by decide +kernel)), lexC_index]
  have : lexC ['&'] = [.sym '&'] := by decide +kernel
  rw [this]
  rfl

/-- An address that is printed the way it is read. -/
def CLoc.AddressOk : CLoc → Prop
  | .rel k => k = 0
  | .abs _ => True

theorem lexC_address (buf : Str) (hb : BufOk buf) (d : CLoc) (hd : d.AddressOk) (b : Str) (h : Sep b) :
    ∃ ts, lexC (d.address buf ++ b) = ts ++ lexC b ∧ (∀ r, readAddress buf (ts ++ r) = some (d, r)) ∧
      (∀ r, (ts ++ r).head? = some (kw "p") ∨ (ts ++ r).head? = some (.sym '&')) := by
  cases d with
  | rel k =>
    cases hd
    refine ⟨[kw "p"], ?_, fun r => ?_, fun r => .inl rfl⟩
    · show lexC (['p'] ++ b) = _
      rw [lexC_sep _ _ h, lex_p]
    · unfold readAddress
      rw [if_pos (by rfl)]
      rfl
  | abs k =>
    refine ⟨[.sym '&', .word buf] ++ ([.sym '['] ++ (lexC (decText k) ++ [.sym ']'])), ?_, fun r => ?_, fun r => .inr rfl⟩
    · rw [lexC_addressText buf hb]
      simp only [List.append_assoc]
    · unfold readAddress
      rw [if_neg (by simp [kw])]
      simp only [List.append_assoc]
      simp only [expect_append, readIndex_ok, Option.bind_eq_bind, Option.bind_some]

/-! ### Statements -/

theorem readPost_stop (c : Char) (r : List CTok) (h1 : c ≠ '-') (h2 : c ≠ '.') (h3 : c ≠ '[') :
    readPost (.sym c :: r) = ([], .sym c :: r) := by
  unfold readPost
  split
  · rename_i h; simp only [List.cons.injEq, CTok.sym.injEq] at h; exact absurd h.1 h1
  · rename_i h; simp only [List.cons.injEq, CTok.sym.injEq] at h; exact absurd h.1 h2
  · rename_i h; simp only [List.cons.injEq, CTok.sym.injEq] at h; exact absurd h.1 h3
  · rfl

theorem readPost_stop' (c : Char) (r : List CTok) (h1 : c ≠ '-') (h2 : c ≠ '.') (h3 : c ≠ '[') :
    readPost ([.sym c] ++ r) = ([], [.sym c] ++ r) := readPost_stop c r h1 h2 h3

theorem lex_store : lexC "=(uint8_t) ".toList = [.sym '='] ++ lexC "(uint8_t)".toList := by decide +kernel
theorem lex_cast8 : lexC "(uint8_t)".toList = [.sym '(', kw "uint8_t", .sym ')'] := by decide +kernel
theorem lex_zero : lexC "]='\\0'".toList = [.sym ']', .sym '=', .sym '\'', .sym '\\', .word ['0'], .sym '\''] := by decide +kernel
theorem lex_zero' : lexC "'\\0';".toList = [.sym '\'', .sym '\\', .word ['0'], .sym '\'', .sym ';'] := by decide +kernel

theorem readStore_value (loc : CLoc) (v : CPath) (hv : ValueOk v) :
    readStore loc (lexC "=(uint8_t) ".toList ++ (lexC (CPath.text v) ++ [.sym ';'])) = some (.storeByte loc v) := by
  unfold readStore
  rw [lex_store, List.append_assoc, expect_append]
  simp only [Option.bind_eq_bind, Option.bind_some]
  rw [if_neg (by rw [lex_cast8]; simp), expect_append]
  simp only [Option.bind_some]
  rw [readValue_text v hv _ (readPost_stop _ _ (by decide) (by decide) (by decide))]
  simp

theorem readStore_zero (loc : CLoc) :
    readStore loc [.sym '=', .sym '\'', .sym '\\', .word ['0'], .sym '\'', .sym ';'] = some (.zero loc) := by
  unfold readStore
  have e : ([.sym '=', .sym '\'', .sym '\\', .word ['0'], .sym '\'', .sym ';'] : List CTok) =
    [.sym '='] ++ (lexC "'\\0';".toList ++ []) := by rw [lex_zero']; rfl
  rw [e, expect_append]
  simp only [Option.bind_eq_bind, Option.bind_some]
  rw [if_pos (by rw [lex_zero']; rfl), expect_append]
  simp

/-- The reader finds an element of the buffer and goes on with what is stored. -/
theorem readSimple_elem (buf : Str) (hb : BufOk buf) (d : CLoc) (b : Str) (hs : Sep b) (c : Char) (r : List CTok)
    (hr : lexC b = .sym c :: r) :
    readSimple buf (lexC (d.elem buf ++ b)) = readStore d (.sym c :: r) := by
  cases d with
  | rel k =>
    by_cases hk : k = 0
    · subst hk
      have e : (CLoc.rel 0).elem buf = "*p".toList := rfl
      have e2 : lexC "*p".toList = [.sym '*', kw "p"] := by decide +kernel
      rw [e, lexC_sep _ _ hs, hr]
      unfold readSimple
      rw [e2]
      simp [kw]
    · have e : (CLoc.rel k).elem buf = ['p'] ++ (['['] ++ (decText k ++ [']'])) := by
        show (if k = 0 then _ else _) = _
        rw [if_neg hk]
        have : "p[".toList = ['p', '['] := by decide +kernel
        rw [this]
        simp
      rw [e]
      simp only [List.append_assoc]
      rw [lexC_sep ['p'] _ (sep_append _ _ (by decide) (by decide +kernel)), lexC_index, lex_p, hr]
      unfold readSimple
      rw [if_neg (by simp [kw]), if_neg (by simp [kw]), if_pos (by rfl)]
      show readPointer ([.sym '['] ++ (lexC (decText k) ++ ([.sym ']'] ++ .sym c :: r))) = _
      unfold readPointer
      have h1 : lexC "++;".toList = [.sym '+', .sym '+', .sym ';'] := by decide +kernel
      have h2 : lexC "+=sizeof".toList = [.sym '+', .sym '=', kw "sizeof"] := by decide +kernel
      have h3 : lexC "+=".toList = [.sym '+', .sym '='] := by decide +kernel
      rw [if_neg (by rw [h1]; simp), if_neg (by rw [h2]; simp), if_neg (by rw [h3]; simp), readIndex_ok]
      rfl
  | abs k =>
    have e : (CLoc.abs k).elem buf = buf ++ (['['] ++ (decText k ++ [']'])) := by
      show buf ++ ['['] ++ decText k ++ [']'] = _
      simp
    rw [e]
    simp only [List.append_assoc]
    rw [lexC_name buf _ hb.word (sep_append _ _ (by decide) (by decide +kernel)), lexC_index, hr]
    unfold readSimple
    have hh : ∀ l : List CTok, (CTok.word buf :: l).head? = some (.word buf) := fun _ => rfl
    rw [hh, if_neg (by simp [hb.packLE]), if_neg (by simp [hb.memcpy]), if_neg (by simp [hb.p]), if_pos rfl]
    show ((readIndex ([.sym '['] ++ (lexC (decText k) ++ ([.sym ']'] ++ .sym c :: r)))).bind _) = _
    rw [readIndex_ok]
    rfl

/-- A statement that is printed the way it is read. -/
def CSimple.PrintOk : CSimple → Prop
  | .storeByte _ v => ValueOk v
  | .packLE d v _ => d.AddressOk ∧ ValueOk v
  | .loadByte v _ _ => ValueOk v
  | .unpackLE v _ d => d.AddressOk ∧ ValueOk v
  | .advance _ => True
  | .copyIn d v _ => d.AddressOk ∧ ValueOk v
  | .copyOut v d _ => d.AddressOk ∧ ValueOk v
  | .zero _ => True

/-- The pointer is advanced by the size of what has been read or written before. -/
def AdvanceOk : Option CSimple → CSimple → Prop
  | some (.packLE _ _ t), .advance n => n = t.size
  | some (.unpackLE _ t _), .advance n => n = t.size
  | some (.storeByte _ _), .advance n => n = 1
  | some (.loadByte _ _ _), .advance n => n = 1
  | _, _ => True

theorem lexC_value (v : CPath) (b : Str) (h : Sep b) : lexC (CPath.text v ++ b) = lexC (CPath.text v) ++ lexC b :=
  lexC_sep _ _ h

theorem value_head (v : CPath) (h : ValueOk v) (r : List CTok) :
    (lexC (CPath.text v) ++ r).head? = some (kw "val") ∨
      ∃ r', lexC (CPath.text v) ++ r = .sym '*' :: kw "val" :: r' := by
  obtain ⟨q, h1, h2⟩ := h
  have hv : lexC "val".toList = [kw "val"] := by decide +kernel
  have hq : lexC (q.foldl accessStep "val".toList) = kw "val" :: postToks q := by
    rw [lexC_steps q _ h1, hv]
    rfl
  rcases h2 with rfl | rfl
  · left
    have : lexC (CPath.text v) = kw "val" :: postToks v := hq
    rw [this]
    rfl
  · right
    have : lexC (CPath.text (q ++ [.star])) = .sym '*' :: kw "val" :: postToks q := by
      show lexC ((q ++ [CAccess.star]).foldl accessStep "val".toList) = _
      rw [List.foldl_append]
      show lexC ('*' :: q.foldl accessStep "val".toList) = _
      rw [lexC_other _ _ (by decide), if_neg (by decide), hq]
    rw [this]
    exact ⟨_, rfl⟩

/-- A statement that begins with an lvalue is a load. -/
theorem readSimple_value (buf : Str) (hb : BufOk buf) (v : CPath) (h : ValueOk v) (r : List CTok) :
    readSimple buf (lexC (CPath.text v) ++ r) = readLoad buf (lexC (CPath.text v) ++ r) := by
  have e2 : lexC "*p".toList = [.sym '*', kw "p"] := by decide +kernel
  have hval : (kw "val") ≠ .word buf := fun h => hb.val h.symm
  unfold readSimple
  rcases value_head v h r with hh | ⟨r', hh⟩
  · rw [hh, if_neg (by simp [kw]), if_neg (by simp [kw]), if_neg (by simp [kw]), if_neg (by simp [hval]), if_neg]
    rw [e2]
    intro h2
    have h3 : ((lexC (CPath.text v) ++ r).take 2).head? = some (.sym '*') := by rw [h2]; rfl
    rw [List.head?_take, if_neg (by decide), hh] at h3
    simp [kw] at h3
  · rw [hh, if_neg (by simp [kw]), if_neg (by simp [kw]), if_neg (by simp [kw]), if_neg (by simp), if_neg (by rw [e2]; simp [kw])]

theorem readElem_ok (buf : Str) (hb : BufOk buf) (d : CLoc) (b : Str) (hs : Sep b) :
    readElem buf (lexC (d.elem buf ++ b)) = some (d, lexC b) := by
  cases d with
  | rel k =>
    by_cases hk : k = 0
    · subst hk
      have e : (CLoc.rel 0).elem buf = "*p".toList := rfl
      have e2 : lexC "*p".toList = [.sym '*', kw "p"] := by decide +kernel
      rw [e, lexC_sep _ _ hs]
      unfold readElem
      rw [e2, if_pos (by rfl), expect_append]
      rfl
    · have e : (CLoc.rel k).elem buf = ['p'] ++ (['['] ++ (decText k ++ [']'])) := by
        show (if k = 0 then _ else _) = _
        rw [if_neg hk]
        have : "p[".toList = ['p', '['] := by decide +kernel
        rw [this]
        simp
      rw [e]
      simp only [List.append_assoc]
      rw [lexC_sep ['p'] _ (sep_append _ _ (by decide) (by decide +kernel)), lexC_index, lex_p]
      unfold readElem
      rw [if_neg (by simp [kw]), if_pos (by rfl)]
      show ((readIndex ([.sym '['] ++ (lexC (decText k) ++ ([.sym ']'] ++ lexC b)))).bind _) = _
      rw [readIndex_ok]
      rfl
  | abs k =>
    have e : (CLoc.abs k).elem buf = buf ++ (['['] ++ (decText k ++ [']'])) := by
      show buf ++ ['['] ++ decText k ++ [']'] = _
      simp
    rw [e]
    simp only [List.append_assoc]
    rw [lexC_name buf _ hb.word (sep_append _ _ (by decide) (by decide +kernel)), lexC_index]
    unfold readElem
    rw [if_neg (by simp), if_neg (by simp [hb.p])]
    show (expect [.word buf] ([.word buf] ++ ([.sym '['] ++ (lexC (decText k) ++ ([.sym ']'] ++ lexC b))))).bind _ = _
    rw [expect_append]
    simp only [Option.bind_eq_bind, Option.bind_some, readIndex_ok]

theorem lexC_cname (t : IntT) (b : Str) (h : Sep b) : lexC (t.cname ++ b) = lexC t.cname ++ lexC b := lexC_sep _ _ h

theorem elem_not_unpack (buf : Str) (hb : CTok.word buf ≠ kw "unpackLE") (hw : CWord buf) (d : CLoc) (b : Str) (hs : Sep b) :
    (lexC (d.elem buf ++ b)).head? ≠ some (kw "unpackLE") := by
  cases d with
  | rel k =>
    by_cases hk : k = 0
    · subst hk
      have e : (CLoc.rel 0).elem buf = "*p".toList := rfl
      have e2 : lexC "*p".toList = [.sym '*', kw "p"] := by decide +kernel
      rw [e, lexC_sep _ _ hs, e2]
      simp [kw]
    · have e : (CLoc.rel k).elem buf = ['p'] ++ (['['] ++ (decText k ++ [']'])) := by
        show (if k = 0 then _ else _) = _
        rw [if_neg hk]
        have : "p[".toList = ['p', '['] := by decide +kernel
        rw [this]
        simp
      rw [e]
      simp only [List.append_assoc]
      rw [lexC_sep ['p'] _ (sep_append _ _ (by decide) (by decide +kernel)), lexC_index, lex_p]
      simp [kw]
  | abs k =>
    have e : (CLoc.abs k).elem buf = buf ++ (['['] ++ (decText k ++ [']'])) := by
      show buf ++ ['['] ++ decText k ++ [']'] = _
      simp
    rw [e]
    simp only [List.append_assoc]
    rw [lexC_name buf _ hw (sep_append _ _ (by decide) (by decide +kernel))]
    simpa using hb

theorem readSimple_text (buf : Str) (hb : BufOk buf) (prev : Option CSimple) (s : CSimple)
    (hs : s.PrintOk) (ha : AdvanceOk prev s) : readSimple buf (lexC (s.text buf prev ++ [';'])) = some s := by
  have hsemi : Sep [';'] := by decide +kernel
  cases s with
  | storeByte d v =>
    show readSimple buf (lexC (d.elem buf ++ "=(uint8_t) ".toList ++ CPath.text v ++ [';'])) = _
    simp only [List.append_assoc]
    have e : lexC ("=(uint8_t) ".toList ++ (CPath.text v ++ [';'])) =
        lexC "=(uint8_t) ".toList ++ (lexC (CPath.text v) ++ [.sym ';']) := by
      rw [lexC_lit _ _ (by decide +kernel), lexC_value v _ hsemi, lex_semi]
    rw [readSimple_elem buf hb d _ (sep_append _ _ (by decide +kernel) (by decide +kernel)) '=' _
      (by rw [e, lex_store]; rfl)]
    have := readStore_value d v hs
    rw [lex_store] at this
    exact this
  | packLE d v t =>
    show readSimple buf (lexC ("packLE(".toList ++ d.address buf ++ ",(uint32_t) ".toList ++ CPath.text v ++
      ",(uint8_t) sizeof(".toList ++ t.cname ++ "))".toList ++ [';'])) = _
    simp only [List.append_assoc]
    obtain ⟨ts, h1, h2, h3⟩ := lexC_address buf hb d hs.1 (",(uint32_t) ".toList ++ (CPath.text v ++
      (",(uint8_t) sizeof(".toList ++ (t.cname ++ ("))".toList ++ [';']))))) (sep_append _ _ (by decide +kernel) (by decide +kernel))
    have e1 : lexC "packLE(".toList = [kw "packLE", .sym '('] := by decide +kernel
    have e2 : lexC ",(uint32_t) ".toList = lexC ",(uint32_t)".toList := by decide +kernel
    have e3 : lexC ",(uint8_t) sizeof(".toList = lexC ",(uint8_t)sizeof(".toList := by decide +kernel
    have e3' : lexC ",(uint8_t)sizeof(".toList = .sym ',' :: lexC "(uint8_t)sizeof(".toList := by decide +kernel
    have e4 : lexC ("))".toList ++ [';']) = lexC "));".toList := by decide +kernel
    rw [lexC_lit _ _ (by decide +kernel), h1, lexC_lit _ _ (by decide +kernel), lexC_value v _ (sep_append _ _ (by decide +kernel) (by decide +kernel)),
      lexC_lit _ _ (by decide +kernel), lexC_cname t _ (sep_append _ _ (by decide +kernel) (by decide +kernel)), e1, e2, e3, e4]
    unfold readSimple
    rw [if_pos (by rfl)]
    show readPackLE buf ([.sym '('] ++ _) = _
    unfold readPackLE
    rw [expect_append]
    simp only [Option.bind_eq_bind, Option.bind_some, h2, expect_append]
    rw [readValue_text v hs.2 _ (by rw [e3']; exact readPost_stop _ _ (by decide) (by decide) (by decide))]
    simp only [Option.bind_some, expect_append]
    rw [readIntType_cname]
    simp
  | loadByte v t d =>
    show readSimple buf (lexC (CPath.text v ++ " = (".toList ++ t.cname ++ ") ".toList ++ d.elem buf ++ [';'])) = _
    simp only [List.append_assoc]
    have e1 : lexC " = (".toList = lexC "=(".toList := by decide +kernel
    have e1' : lexC "=(".toList = [.sym '=', .sym '('] := by decide +kernel
    have e2 : lexC ") ".toList = [.sym ')'] := by decide +kernel
    rw [lexC_value v _ (sep_append _ _ (by decide +kernel) (by decide +kernel)), lexC_lit _ _ (by decide +kernel),
      lexC_cname t _ (sep_append _ _ (by decide +kernel) (by decide +kernel)), lexC_lit _ _ (by decide +kernel), e1, e2,
      readSimple_value buf hb v hs]
    unfold readLoad
    rw [readValue_text v hs _ (by rw [e1']; exact readPost_stop _ _ (by decide) (by decide) (by decide))]
    simp only [Option.bind_eq_bind, Option.bind_some, expect_append, readIntType_cname]
    rw [if_neg (elem_not_unpack buf hb.unpackLE hb.word d _ hsemi), readElem_ok buf hb d _ hsemi, lex_semi]
    simp
  | unpackLE v t d =>
    show readSimple buf (lexC (CPath.text v ++ " = (".toList ++ t.cname ++ ") unpackLE(".toList ++ d.address buf ++
      ",(uint8_t) sizeof(".toList ++ t.cname ++ "))".toList ++ [';'])) = _
    simp only [List.append_assoc]
    obtain ⟨ts, h1, h2, h3⟩ := lexC_address buf hb d hs.1 (",(uint8_t) sizeof(".toList ++ (t.cname ++ ("))".toList ++ [';'])))
      (sep_append _ _ (by decide +kernel) (by decide +kernel))
    have e1 : lexC " = (".toList = lexC "=(".toList := by decide +kernel
    have e1' : lexC "=(".toList = [.sym '=', .sym '('] := by decide +kernel
    have e2 : lexC ") unpackLE(".toList = [.sym ')'] ++ [kw "unpackLE", .sym '('] := by decide +kernel
    have e3 : lexC ",(uint8_t) sizeof(".toList = lexC ",(uint8_t)sizeof(".toList := by decide +kernel
    have e4 : lexC ("))".toList ++ [';']) = lexC "));".toList := by decide +kernel
    rw [lexC_value v _ (sep_append _ _ (by decide +kernel) (by decide +kernel)), lexC_lit _ _ (by decide +kernel),
      lexC_cname t _ (sep_append _ _ (by decide +kernel) (by decide +kernel)), lexC_lit _ _ (by decide +kernel), h1,
      lexC_lit _ _ (by decide +kernel), lexC_cname t _ (sep_append _ _ (by decide +kernel) (by decide +kernel)), e1, e2, e3, e4,
      readSimple_value buf hb v hs.2]
    unfold readLoad
    rw [readValue_text v hs.2 _ (by rw [e1']; exact readPost_stop _ _ (by decide) (by decide) (by decide))]
    simp only [Option.bind_eq_bind, Option.bind_some, expect_append, readIntType_cname, List.append_assoc]
    rw [if_pos (by rfl)]
    show ((expect [.sym '('] ([.sym '('] ++ _)).bind _) = _
    rw [expect_append]
    simp only [Option.bind_some, h2, expect_append, readIntType_cname, and_self, if_true]
  | copyIn d v n =>
    show readSimple buf (lexC ("memcpy(".toList ++ d.address buf ++ [','] ++ CPath.text v ++ [','] ++ decText n ++ [')'] ++ [';'])) = _
    simp only [List.append_assoc]
    obtain ⟨ts, h1, h2, h3⟩ := lexC_address buf hb d hs.1 ([','] ++ (CPath.text v ++ ([','] ++ (decText n ++ ([')'] ++ [';'])))))
      (sep_append _ _ (by decide +kernel) (by decide +kernel))
    have e1 : lexC "memcpy(".toList = [kw "memcpy", .sym '('] := by decide +kernel
    have e2 : lexC [','] = [.sym ','] := by decide +kernel
    have e4 : lexC ([')'] ++ [';']) = lexC ");".toList := by decide +kernel
    rw [lexC_lit _ _ (by decide +kernel), h1, lexC_lit _ _ (by decide +kernel), lexC_value v _ (sep_append _ _ (by decide +kernel) (by decide +kernel)),
      lexC_lit _ _ (by decide +kernel), lexC_sep (decText n) _ (sep_append _ _ (by decide +kernel) (by decide +kernel)), e1, e2, e4]
    unfold readSimple
    rw [if_neg (by simp [kw]), if_pos (by rfl)]
    show readMemcpy buf ([.sym '('] ++ _) = _
    unfold readMemcpy
    rw [expect_append]
    simp only [Option.bind_eq_bind, Option.bind_some]
    rw [if_pos (h3 _)]
    simp only [h2, expect_append, Option.bind_some]
    rw [readValue_text v hs.2 _ (readPost_stop' ',' _ (by decide) (by decide) (by decide))]
    simp only [Option.bind_some, expect_append, readInt_decText, if_true]
  | copyOut v d n =>
    show readSimple buf (lexC ("memcpy(".toList ++ CPath.text v ++ [','] ++ d.address buf ++ [','] ++ decText n ++ [')'] ++ [';'])) = _
    simp only [List.append_assoc]
    obtain ⟨ts, h1, h2, h3⟩ := lexC_address buf hb d hs.1 ([','] ++ (decText n ++ ([')'] ++ [';'])))
      (sep_append _ _ (by decide +kernel) (by decide +kernel))
    have e1 : lexC "memcpy(".toList = [kw "memcpy", .sym '('] := by decide +kernel
    have e2 : lexC [','] = [.sym ','] := by decide +kernel
    have e4 : lexC ([')'] ++ [';']) = lexC ");".toList := by decide +kernel
    rw [lexC_lit _ _ (by decide +kernel), lexC_value v _ (sep_append _ _ (by decide +kernel) (by decide +kernel)),
      lexC_lit _ _ (by decide +kernel), h1, lexC_lit _ _ (by decide +kernel), lexC_sep (decText n) _ (sep_append _ _ (by decide +kernel) (by decide +kernel)), e1, e2, e4]
    unfold readSimple
    rw [if_neg (by simp [kw]), if_pos (by rfl)]
    show readMemcpy buf ([.sym '('] ++ _) = _
    unfold readMemcpy
    rw [expect_append]
    simp only [Option.bind_eq_bind, Option.bind_some]
    rw [if_neg (by rcases value_head v hs.2 ([.sym ','] ++ (ts ++ ([.sym ','] ++ (lexC (decText n) ++ lexC ");".toList)))) with hh | ⟨r', hh⟩ <;> rw [hh] <;> simp [kw])]
    rw [readValue_text v hs.2 _ (readPost_stop' ',' _ (by decide) (by decide) (by decide))]
    simp only [Option.bind_some, h2, expect_append, readInt_decText, if_true]
  | zero d =>
    cases d with
    | rel k =>
      show readSimple buf (lexC ("p[".toList ++ decText k ++ "]='\\0'".toList ++ [';'])) = _
      have e1 : "p[".toList = ['p'] ++ ['['] := by decide +kernel
      have e2 : "]='\\0'".toList = [']'] ++ "='\\0'".toList := by decide +kernel
      have e3 : lexC ("='\\0'".toList ++ [';']) = [.sym '=', .sym '\'', .sym '\\', .word ['0'], .sym '\'', .sym ';'] := by
        decide +kernel
      rw [e1, e2]
      simp only [List.append_assoc]
      rw [lexC_sep ['p'] _ (sep_append _ _ (by decide) (by decide +kernel)), lexC_index, lex_p, e3]
      unfold readSimple
      rw [if_neg (by simp [kw]), if_neg (by simp [kw]), if_pos (by rfl)]
      show readPointer ([.sym '['] ++ (lexC (decText k) ++ ([.sym ']'] ++ _))) = _
      unfold readPointer
      have h1 : lexC "++;".toList = [.sym '+', .sym '+', .sym ';'] := by decide +kernel
      have h2 : lexC "+=sizeof".toList = [.sym '+', .sym '=', kw "sizeof"] := by decide +kernel
      have h3 : lexC "+=".toList = [.sym '+', .sym '='] := by decide +kernel
      rw [if_neg (by rw [h1]; simp), if_neg (by rw [h2]; simp), if_neg (by rw [h3]; simp), readIndex_ok]
      exact readStore_zero _
    | abs k =>
      show readSimple buf (lexC (buf ++ ['['] ++ decText k ++ "]='\\0'".toList ++ [';'])) = _
      have e2 : "]='\\0'".toList = [']'] ++ "='\\0'".toList := by decide +kernel
      have e3 : lexC ("='\\0'".toList ++ [';']) = [.sym '=', .sym '\'', .sym '\\', .word ['0'], .sym '\'', .sym ';'] := by
        decide +kernel
      rw [e2]
      simp only [List.append_assoc]
      rw [lexC_name buf _ hb.word (sep_append _ _ (by decide) (by decide +kernel)), lexC_index, e3]
      unfold readSimple
      have hh : ∀ l : List CTok, (CTok.word buf :: l).head? = some (.word buf) := fun _ => rfl
      rw [hh, if_neg (by simp [hb.packLE]), if_neg (by simp [hb.memcpy]), if_neg (by simp [hb.p]), if_pos rfl]
      show ((readIndex ([.sym '['] ++ (lexC (decText k) ++ ([.sym ']'] ++ _)))).bind _) = _
      rw [readIndex_ok]
      exact readStore_zero _
  | advance n =>
    have hpp : readSimple buf (lexC ("p++".toList ++ [';'])) = some (.advance 1) := by
      have : lexC ("p++".toList ++ [';']) = [kw "p", .sym '+', .sym '+', .sym ';'] := by decide +kernel
      rw [this]
      unfold readSimple
      rw [if_neg (by simp [kw]), if_neg (by simp [kw]), if_pos (by rfl)]
      unfold readPointer
      rw [if_pos (by decide +kernel)]
    have hsz : ∀ t : IntT, readSimple buf (lexC ("p+=sizeof(".toList ++ t.cname ++ [')'] ++ [';'])) = some (.advance t.size) := by
      intro t
      simp only [List.append_assoc]
      have e1 : lexC "p+=sizeof(".toList = [kw "p", .sym '+', .sym '=', kw "sizeof", .sym '('] := by decide +kernel
      have e4 : lexC ([')'] ++ [';']) = lexC ");".toList := by decide +kernel
      rw [lexC_lit _ _ (by decide +kernel), lexC_cname t _ (sep_append _ _ (by decide +kernel) (by decide +kernel)), e1, e4]
      unfold readSimple
      rw [if_neg (by simp [kw]), if_neg (by simp [kw]), if_pos (by rfl)]
      show readPointer (.sym '+' :: .sym '=' :: kw "sizeof" :: ([.sym '('] ++ (lexC t.cname ++ lexC ");".toList))) = _
      unfold readPointer
      have h1 : lexC "++;".toList = [.sym '+', .sym '+', .sym ';'] := by decide +kernel
      have h2 : lexC "+=sizeof".toList = [.sym '+', .sym '=', kw "sizeof"] := by decide +kernel
      rw [if_neg (by rw [h1]; simp), if_pos (by rw [h2]; rfl)]
      show ((expect [.sym '('] ([.sym '('] ++ _)).bind _) = _
      rw [expect_append]
      simp only [Option.bind_eq_bind, Option.bind_some, readIntType_cname, if_true]
    have hn : readSimple buf (lexC ("p+=".toList ++ natStr n ++ [';'])) = some (.advance n) := by
      simp only [List.append_assoc]
      have e1 : lexC "p+=".toList = [kw "p", .sym '+', .sym '='] := by decide +kernel
      rw [lexC_lit _ _ (by decide +kernel), lexC_sep (natStr n) _ hsemi, e1, lex_semi]
      unfold readSimple
      rw [if_neg (by simp [kw]), if_neg (by simp [kw]), if_pos (by rfl)]
      show readPointer (.sym '+' :: .sym '=' :: (lexC (natStr n) ++ [.sym ';'])) = _
      unfold readPointer
      have h1 : lexC "++;".toList = [.sym '+', .sym '+', .sym ';'] := by decide +kernel
      have h2 : lexC "+=sizeof".toList = [.sym '+', .sym '=', kw "sizeof"] := by decide +kernel
      have h3 : lexC "+=".toList = [.sym '+', .sym '='] := by decide +kernel
      rw [if_neg (by rw [h1]; simp), if_neg, if_pos (by rw [h3]; rfl)]
      · show ((readNat (lexC (natStr n) ++ [.sym ';'])).bind _) = _
        rw [readNat_natStr]
        simp
      · rw [h2, lexC_word _ (cWord_natStr n)]
        intro h
        have h5 : natStr n = "sizeof".toList := by simpa [kw] using h
        have h6 := cNumber_natStr n
        rw [h5] at h6
        revert h6
        have : cNumber "sizeof".toList = none := by decide +kernel
        rw [this]
        simp
    cases prev with
    | none => exact hn
    | some q =>
      cases q with
      | packLE _ _ t => cases ha; exact hsz t
      | unpackLE _ t _ => cases ha; exact hsz t
      | storeByte _ _ => cases ha; exact hpp
      | loadByte _ _ _ => cases ha; exact hpp
      | _ => exact hn

/-! ### Lines -/

/-- Every `p+=...` fits to the statement before it. -/
def AdvancesOk : Option CSimple → List CSimple → Prop
  | _, [] => True
  | prev, s :: l => AdvanceOk prev s ∧ AdvancesOk (some s) l

/-- No statement is taken for the beginning or end of a loop, or for one of the other statements. -/
theorem simple_first (buf : Str) (hb : BufOk buf) (prev : Option CSimple) (s : CSimple) (hs : s.PrintOk) :
    ∃ t ts, lexC (s.text buf prev ++ [';']) = t :: ts ∧ (t = kw "packLE" ∨ t = kw "memcpy" ∨ (t = kw "p" ∧ ts.head? ≠ some (.sym '=')) ∨
      t = .word buf ∨ t = .sym '*' ∨ t = kw "val") := by
  have hsemi : Sep [';'] := by decide +kernel
  have helem : ∀ (d : CLoc) (b : Str), Sep b → ∃ t ts, lexC (d.elem buf ++ b) = t :: ts ∧ ((t = kw "p" ∧ ts.head? ≠ some (.sym '=')) ∨
      t = .word buf ∨ t = .sym '*') := by
    intro d b hs
    cases d with
    | rel k =>
      by_cases hk : k = 0
      · subst hk
        have e : (CLoc.rel 0).elem buf = "*p".toList := rfl
        have e2 : lexC "*p".toList = [.sym '*', kw "p"] := by decide +kernel
        rw [e, lexC_sep _ _ hs, e2]
        exact ⟨_, _, rfl, by simp⟩
      · have e : (CLoc.rel k).elem buf = ['p'] ++ (['['] ++ (decText k ++ [']'])) := by
          show (if k = 0 then _ else _) = _
          rw [if_neg hk]
          have : "p[".toList = ['p', '['] := by decide +kernel
          rw [this]
          simp
        rw [e]
        simp only [List.append_assoc]
        rw [lexC_sep ['p'] _ (sep_append _ _ (by decide) (by decide +kernel)), lexC_index, lex_p]
        exact ⟨_, _, rfl, by simp⟩
    | abs k =>
      have e : (CLoc.abs k).elem buf = buf ++ (['['] ++ (decText k ++ [']'])) := by
        show buf ++ ['['] ++ decText k ++ [']'] = _
        simp
      rw [e]
      simp only [List.append_assoc]
      rw [lexC_name buf _ hb.word (sep_append _ _ (by decide) (by decide +kernel))]
      exact ⟨_, _, rfl, by simp⟩
  have hval : ∀ (v : CPath) (b : Str), ValueOk v → Sep b → ∃ t ts, lexC (CPath.text v ++ b) = t :: ts ∧ (t = .sym '*' ∨ t = kw "val") := by
    intro v b hv hb
    rw [lexC_value v b hb]
    rcases value_head v hv (lexC b) with h | ⟨r, h⟩
    · cases hl : lexC (CPath.text v) ++ lexC b with
      | nil => rw [hl] at h; cases h
      | cons t ts =>
        rw [hl, List.head?_cons, Option.some.injEq] at h
        exact ⟨t, ts, rfl, .inr h⟩
    · exact ⟨_, _, h, .inl rfl⟩
  cases s with
  | storeByte d v =>
    show ∃ t ts, lexC (d.elem buf ++ "=(uint8_t) ".toList ++ CPath.text v ++ [';']) = t :: ts ∧ _
    simp only [List.append_assoc]
    obtain ⟨t, ts, h1, h2⟩ := helem d ("=(uint8_t) ".toList ++ (CPath.text v ++ [';'])) (sep_append _ _ (by decide +kernel) (by decide +kernel))
    refine ⟨t, ts, h1, ?_⟩
    rcases h2 with h | h | h <;> simp [h]
  | packLE d v t =>
    show ∃ t' ts, lexC ("packLE(".toList ++ d.address buf ++ ",(uint32_t) ".toList ++ CPath.text v ++
      ",(uint8_t) sizeof(".toList ++ t.cname ++ "))".toList ++ [';']) = t' :: ts ∧ _
    simp only [List.append_assoc]
    have e1 : lexC "packLE(".toList = [kw "packLE", .sym '('] := by decide +kernel
    rw [lexC_lit _ _ (by decide +kernel), e1]
    exact ⟨_, _, rfl, .inl rfl⟩
  | loadByte v t d =>
    show ∃ t' ts, lexC (CPath.text v ++ " = (".toList ++ t.cname ++ ") ".toList ++ d.elem buf ++ [';']) = t' :: ts ∧ _
    simp only [List.append_assoc]
    obtain ⟨t', ts, h1, h2⟩ := hval v (" = (".toList ++ (t.cname ++ (") ".toList ++ (d.elem buf ++ [';'])))) hs
      (sep_append _ _ (by decide +kernel) (by decide +kernel))
    refine ⟨t', ts, h1, ?_⟩
    rcases h2 with h | h <;> simp [h]
  | unpackLE v t d =>
    show ∃ t' ts, lexC (CPath.text v ++ " = (".toList ++ t.cname ++ ") unpackLE(".toList ++ d.address buf ++
      ",(uint8_t) sizeof(".toList ++ t.cname ++ "))".toList ++ [';']) = t' :: ts ∧ _
    simp only [List.append_assoc]
    obtain ⟨t', ts, h1, h2⟩ := hval v (" = (".toList ++ (t.cname ++ (") unpackLE(".toList ++ (d.address buf ++
      (",(uint8_t) sizeof(".toList ++ (t.cname ++ ("))".toList ++ [';']))))))) hs.2
      (sep_append _ _ (by decide +kernel) (by decide +kernel))
    refine ⟨t', ts, h1, ?_⟩
    rcases h2 with h | h <;> simp [h]
  | copyIn d v n =>
    show ∃ t ts, lexC ("memcpy(".toList ++ d.address buf ++ [','] ++ CPath.text v ++ [','] ++ decText n ++ [')'] ++ [';']) = t :: ts ∧ _
    simp only [List.append_assoc]
    have e1 : lexC "memcpy(".toList = [kw "memcpy", .sym '('] := by decide +kernel
    rw [lexC_lit _ _ (by decide +kernel), e1]
    exact ⟨_, _, rfl, .inr (.inl rfl)⟩
  | copyOut v d n =>
    show ∃ t ts, lexC ("memcpy(".toList ++ CPath.text v ++ [','] ++ d.address buf ++ [','] ++ decText n ++ [')'] ++ [';']) = t :: ts ∧ _
    simp only [List.append_assoc]
    have e1 : lexC "memcpy(".toList = [kw "memcpy", .sym '('] := by decide +kernel
    rw [lexC_lit _ _ (by decide +kernel), e1]
    exact ⟨_, _, rfl, .inr (.inl rfl)⟩
  | zero d =>
    cases d with
    | rel k =>
      show ∃ t ts, lexC ("p[".toList ++ decText k ++ "]='\\0'".toList ++ [';']) = t :: ts ∧ _
      simp only [List.append_assoc]
      have e1 : lexC "p[".toList = [kw "p", .sym '['] := by decide +kernel
      rw [lexC_lit _ _ (by decide +kernel), e1]
      exact ⟨_, _, rfl, by simp⟩
    | abs k =>
      show ∃ t ts, lexC (buf ++ ['['] ++ decText k ++ "]='\\0'".toList ++ [';']) = t :: ts ∧ _
      simp only [List.append_assoc]
      rw [lexC_name buf _ hb.word (sep_append _ _ (by decide) (by decide +kernel))]
      exact ⟨_, _, rfl, by simp⟩
  | advance n =>
    have e1 : lexC "p+=sizeof(".toList = [kw "p", .sym '+', .sym '=', kw "sizeof", .sym '('] := by decide +kernel
    have e2 : lexC "p+=".toList = [kw "p", .sym '+', .sym '='] := by decide +kernel
    have e3 : lexC ("p++".toList ++ [';']) = [kw "p", .sym '+', .sym '+', .sym ';'] := by decide +kernel
    have hn : ∃ t ts, lexC ("p+=".toList ++ natStr n ++ [';']) = t :: ts ∧ t = kw "p" ∧ ts.head? ≠ some (.sym '=') := by
      simp only [List.append_assoc]
      rw [lexC_lit _ _ (by decide +kernel), e2]
      exact ⟨_, _, rfl, rfl, by simp⟩
    have hsz : ∀ t : IntT, ∃ t' ts, lexC ("p+=sizeof(".toList ++ t.cname ++ [')'] ++ [';']) = t' :: ts ∧ t' = kw "p" ∧
        ts.head? ≠ some (.sym '=') := by
      intro t
      simp only [List.append_assoc]
      rw [lexC_lit _ _ (by decide +kernel), e1]
      exact ⟨_, _, rfl, rfl, by simp⟩
    have hpp : ∃ t ts, lexC ("p++".toList ++ [';']) = t :: ts ∧ t = kw "p" ∧ ts.head? ≠ some (.sym '=') :=
      ⟨_, _, e3, rfl, by simp⟩
    have done : ∀ x : Str, (∃ t ts, lexC (x ++ [';']) = t :: ts ∧ t = kw "p" ∧ ts.head? ≠ some (.sym '=')) →
        ∃ t ts, lexC (x ++ [';']) = t :: ts ∧ (t = kw "packLE" ∨ t = kw "memcpy" ∨ (t = kw "p" ∧ ts.head? ≠ some (.sym '=')) ∨
          t = .word buf ∨ t = .sym '*' ∨ t = kw "val") := by
      rintro x ⟨t, ts, h1, h2⟩
      exact ⟨t, ts, h1, .inr (.inr (.inl h2))⟩
    cases prev with
    | none => exact done _ hn
    | some q =>
      cases q with
      | packLE _ _ t => exact done _ (hsz t)
      | unpackLE _ t _ => exact done _ (hsz t)
      | storeByte _ _ => exact done _ hpp
      | loadByte _ _ _ => exact done _ hpp
      | _ => exact done _ hn

/-- The line is not a declaration of a variable. -/
def NoDecl (ts : List CTok) : Prop := ∀ x ∈ [kw "uint8_t", kw "uint16_t", kw "uint32_t"], ts.head? ≠ some x

instance (ts : List CTok) : Decidable (NoDecl ts) := by unfold NoDecl; infer_instance

/-- A statement is read on the outermost level, too. -/
theorem readTop_simple (buf : Str) (hb : BufOk buf) (prev : Option CSimple) (s : CSimple)
    (hs : s.PrintOk) (ha : AdvanceOk prev s) :
    readTop buf (lexC (s.text buf prev ++ [';'])) = some (.stmt (.simple s)) ∧
    (lexC (s.text buf prev ++ [';'])).head? ≠ some (kw "for") ∧ lexC (s.text buf prev ++ [';']) ≠ [.sym '}'] ∧
    NoDecl (lexC (s.text buf prev ++ [';'])) := by
  have h0 := readSimple_text buf hb prev s hs ha
  obtain ⟨t, ts, h1, h2⟩ := simple_first buf hb prev s hs
  rw [h1] at h0 ⊢
  have e1 : lexC "apx_nodeData_lockOutPortData(&m_nodeData);".toList = kw "apx_nodeData_lockOutPortData" :: lexC "(&m_nodeData);".toList := by
    decide +kernel
  have e2 : lexC "apx_nodeData_lockInPortData(&m_nodeData);".toList = kw "apx_nodeData_lockInPortData" :: lexC "(&m_nodeData);".toList := by
    decide +kernel
  have e3 : lexC "apx_nodeData_unlockInPortData(&m_nodeData);".toList = kw "apx_nodeData_unlockInPortData" :: lexC "(&m_nodeData);".toList := by
    decide +kernel
  have e4 : lexC "p=".toList = [kw "p", .sym '='] := by decide +kernel
  have hne : ∀ x ∈ [kw "apx_nodeData_lockOutPortData", kw "apx_nodeData_lockInPortData", kw "apx_nodeData_unlockInPortData",
      kw "apx_nodeData_outPortDataWriteNotify", kw "for", .sym '}'], t ≠ x := by
    rcases h2 with rfl | rfl | ⟨rfl, _⟩ | rfl | rfl | rfl
    · decide +kernel
    · decide +kernel
    · decide +kernel
    · intro x hx
      rw [List.mem_cons] at hx
      rcases hx with rfl | hx
      · exact hb.lockOut
      rw [List.mem_cons] at hx
      rcases hx with rfl | hx
      · exact hb.lockIn
      rw [List.mem_cons] at hx
      rcases hx with rfl | hx
      · exact hb.unlockIn
      rw [List.mem_cons] at hx
      rcases hx with rfl | hx
      · exact hb.notify
      rw [List.mem_cons] at hx
      rcases hx with rfl | hx
      · exact hb.loop
      rw [List.mem_singleton] at hx
      rw [hx]
      intro h
      cases h
    · decide +kernel
    · decide +kernel
  have hp : (t :: ts).take 2 ≠ lexC "p=".toList := by
    rw [e4]
    intro h
    have ht : t = kw "p" := by
      have := congrArg List.head? h
      simpa using this
    have h3 : ts.head? = some (.sym '=') := by
      cases ts with
      | nil => simp at h
      | cons y ys =>
        simp only [List.take_succ_cons, List.take_zero, List.cons.injEq, and_true] at h
        rw [List.head?_cons, h.2]
    rcases h2 with rfl | rfl | ⟨_, h4⟩ | rfl | rfl | rfl
    · revert ht; decide +kernel
    · revert ht; decide +kernel
    · exact h4 h3
    · exact hb.p ht
    · cases ht
    · revert ht; decide +kernel
  refine ⟨?_, ?_, ?_, ?_⟩
  · unfold readTop
    rw [if_neg (by rw [e1]; intro h; exact hne _ (.head _) (List.cons.inj h).1),
      if_neg (by rw [e2]; intro h; exact hne _ (.tail _ (.head _)) (List.cons.inj h).1),
      if_neg (by rw [e3]; intro h; exact hne _ (.tail _ (.tail _ (.head _))) (List.cons.inj h).1),
      if_neg (by intro h; exact hne _ (.tail _ (.tail _ (.tail _ (.head _)))) (Option.some.inj h)), if_neg hp, h0]
    rfl
  · intro h
    exact hne (kw "for") (.tail _ (.tail _ (.tail _ (.tail _ (.head _))))) (Option.some.inj h)
  · intro h
    exact hne (.sym '}') (.tail _ (.tail _ (.tail _ (.tail _ (.tail _ (.head _)))))) (List.cons.inj h).1
  · have ht : ∀ x ∈ [kw "uint8_t", kw "uint16_t", kw "uint32_t"], t ≠ x := by
      rcases h2 with rfl | rfl | ⟨rfl, _⟩ | rfl | rfl | rfl
      · decide +kernel
      · decide +kernel
      · decide +kernel
      · intro x hx h
        exact hb.types (h ▸ hx)
      · decide +kernel
      · decide +kernel
    intro x hx h
    exact ht x hx (Option.some.inj h)

/-- The statements inside of a loop. -/
theorem readStmts_inside (buf : Str) (hb : BufOk buf) (ind n : Nat) (rest : List (List CTok)) : ∀ (body : List CSimple)
    (b : List CSimple) (prev : Option CSimple), (∀ s ∈ body, s.PrintOk) → AdvancesOk prev body →
    readStmts buf (.inside n b) ((simpleLines buf ind prev body).map lexC ++ [.sym '}'] :: rest) =
      (readStmts buf .outside rest).map fun r => .stmt (.loop n (b ++ body)) :: r
  | [], b, prev, _, _ => by
    simp only [simpleLines, List.map_nil, List.nil_append, List.append_nil]
    rw [readStmts, if_pos rfl]
    cases readStmts buf .outside rest <;> rfl
  | s :: body, b, prev, h1, h2 => by
    obtain ⟨_, _, a3, _⟩ := readTop_simple buf hb prev s (h1 s (by simp)) h2.1
    simp only [simpleLines, List.map_cons, List.cons_append, lexC_indent]
    rw [readStmts, if_neg a3, readSimple_text buf hb prev s (h1 s (by simp)) h2.1]
    simp only [Option.bind_eq_bind, Option.bind_some]
    rw [readStmts_inside buf hb ind n rest body (b ++ [s]) (some s) (fun x hx => h1 x (List.mem_cons_of_mem _ hx)) h2.2]
    simp

/-- Statements that are printed the way they are read. -/
def StmtsOk : Option CSimple → List CStmt → Prop
  | _, [] => True
  | prev, .simple s :: l => s.PrintOk ∧ AdvanceOk prev s ∧ StmtsOk (some s) l
  | _, .loop _ body :: l => (∀ s ∈ body, s.PrintOk) ∧ AdvancesOk none body ∧ StmtsOk none l

theorem readFor_text (n : Nat) : readFor (lexC ("for(i=0;i<".toList ++ (natStr n ++ ";i++)".toList))) = some n ∧
    (lexC ("for(i=0;i<".toList ++ (natStr n ++ ";i++)".toList))).head? = some (kw "for") := by
  have e : lexC "for(i=0;i<".toList = kw "for" :: lexC "(i=0;i<".toList := by decide +kernel
  rw [lexC_lit _ _ (by decide +kernel), lexC_sep (natStr n) _ (by decide +kernel)]
  constructor
  · unfold readFor
    rw [expect_append]
    simp only [Option.bind_eq_bind, Option.bind_some, readNat_natStr, if_true]
  · rw [e]; rfl

theorem readStmts_outside (buf : Str) (hb : BufOk buf) (ind : Nat) (rest : List (List CTok)) : ∀ (l : List CStmt)
    (prev : Option CSimple), StmtsOk prev l →
    readStmts buf .outside ((stmtLines buf ind prev l).map lexC ++ rest) =
      (readStmts buf .outside rest).map fun r => l.map CTop.stmt ++ r
  | [], prev, _ => by
    simp only [stmtLines, List.map_nil, List.nil_append]
    cases readStmts buf .outside rest <;> rfl
  | .simple s :: l, prev, h => by
    obtain ⟨a1, a2, _⟩ := readTop_simple buf hb prev s h.1 h.2.1
    simp only [stmtLines, List.map_cons, List.cons_append, lexC_indent]
    rw [readStmts, if_neg a2, a1, readStmts_outside buf hb ind rest l (some s) h.2.2]
    cases readStmts buf .outside rest <;> rfl
  | .loop n body :: l, prev, h => by
    obtain ⟨a1, a2⟩ := readFor_text n
    have e1 : lexC ['{'] = [.sym '{'] := by decide +kernel
    have e2 : lexC ['}'] = [.sym '}'] := by decide +kernel
    simp only [stmtLines, List.map_cons, List.map_append, List.cons_append, List.nil_append, lexC_indent,
      List.append_assoc, e1, e2]
    rw [readStmts, if_pos a2, a1]
    simp only [Option.bind_eq_bind, Option.bind_some]
    rw [readStmts, if_pos rfl, readStmts_inside buf hb (ind + 3) n _ body [] none h.1 h.2.1,
      readStmts_outside buf hb ind rest l none h.2.2]
    cases readStmts buf .outside rest <;> rfl

/-- Is it part of the code for the value? -/
def CTop.isCode : CTop → Bool
  | .stmt _ => true
  | _ => false

theorem readTop_other (buf : Str) (hb : BufOk buf) (t : CTop) (ht : t.isCode = false) :
    readTop buf (lexC (t.text buf ++ [';'])) = some t ∧ (lexC (t.text buf ++ [';'])).head? ≠ some (kw "for") ∧
    NoDecl (lexC (t.text buf ++ [';'])) := by
  have e4 : lexC "p=".toList = [kw "p", .sym '='] := by decide +kernel
  cases t with
  | lockOut =>
    have : lexC (CTop.lockOut.text buf ++ [';']) = lexC "apx_nodeData_lockOutPortData(&m_nodeData);".toList :=
      congrArg lexC (show (CTop.lockOut.text [] ++ [';']) = _ by decide +kernel)
    rw [this]
    exact ⟨if_pos rfl, by decide +kernel, by decide +kernel⟩
  | lockIn =>
    have : lexC (CTop.lockIn.text buf ++ [';']) = lexC "apx_nodeData_lockInPortData(&m_nodeData);".toList :=
      congrArg lexC (show (CTop.lockIn.text [] ++ [';']) = _ by decide +kernel)
    rw [this]
    refine ⟨?_, by decide +kernel, by decide +kernel⟩
    unfold readTop
    rw [if_neg (by decide +kernel), if_pos rfl]
  | unlockIn =>
    have : lexC (CTop.unlockIn.text buf ++ [';']) = lexC "apx_nodeData_unlockInPortData(&m_nodeData);".toList :=
      congrArg lexC (show (CTop.unlockIn.text [] ++ [';']) = _ by decide +kernel)
    rw [this]
    refine ⟨?_, by decide +kernel, by decide +kernel⟩
    unfold readTop
    rw [if_neg (by decide +kernel), if_neg (by decide +kernel), if_pos rfl]
  | setP k =>
    have : lexC ((CTop.setP k).text buf ++ [';']) = [kw "p", .sym '='] ++ ([.sym '&', .word buf, .sym '['] ++
        (lexC (natStr k) ++ lexC "];".toList)) := by
      show lexC ("p=&".toList ++ buf ++ ['['] ++ natStr k ++ [']'] ++ [';']) = _
      have e1 : lexC "p=&".toList = [kw "p", .sym '=', .sym '&'] := by decide +kernel
      have e2 : lexC ([']'] ++ [';']) = lexC "];".toList := by decide +kernel
      simp only [List.append_assoc]
      rw [lexC_lit _ _ (by decide +kernel), lexC_name buf _ hb.word (sep_append _ _ (by decide +kernel) (by decide +kernel)),
        lexC_lit _ _ (by decide +kernel), lexC_sep (natStr k) _ (by decide +kernel), e1, e2, lex_bracket]
      rfl
    rw [this]
    have hne : ∀ s ∈ [kw "apx_nodeData_lockOutPortData", kw "apx_nodeData_lockInPortData", kw "apx_nodeData_unlockInPortData",
        kw "apx_nodeData_outPortDataWriteNotify", kw "for", kw "uint8_t", kw "uint16_t", kw "uint32_t"], kw "p" ≠ s := by decide +kernel
    have h1 : (lexC "apx_nodeData_lockOutPortData(&m_nodeData);".toList).head? ≠ some (kw "p") := by decide +kernel
    have h2 : (lexC "apx_nodeData_lockInPortData(&m_nodeData);".toList).head? ≠ some (kw "p") := by decide +kernel
    have h3 : (lexC "apx_nodeData_unlockInPortData(&m_nodeData);".toList).head? ≠ some (kw "p") := by decide +kernel
    have hd : ∀ r : List CTok, ([kw "p", .sym '='] ++ r).head? = some (kw "p") := fun _ => rfl
    refine ⟨?_, ?_, ?_⟩
    · unfold readTop
      rw [if_neg (fun h => h1 (by rw [← h]; rfl)), if_neg (fun h => h2 (by rw [← h]; rfl)), if_neg (fun h => h3 (by rw [← h]; rfl)),
        if_neg (by rw [hd]; decide +kernel), if_pos (by rw [e4]; rfl)]
      show (expect [.sym '&', .word buf, .sym '['] ([.sym '&', .word buf, .sym '['] ++ _)).bind _ = _
      rw [expect_append]
      simp only [Option.bind_eq_bind, Option.bind_some, readNat_natStr, if_true]
    · rw [hd]; decide +kernel
    · intro x hx
      rw [hd]
      intro h
      cases h
      revert hx
      decide +kernel
  | stmt _ => cases ht
  | notify o n d =>
    have : lexC ((CTop.notify o n d).text buf ++ [';']) = kw "apx_nodeData_outPortDataWriteNotify" :: (lexC "(&m_nodeData,".toList ++
        (lexC (natStr o) ++ ([.sym ','] ++ (lexC (natStr n) ++ ([.sym ','] ++ lexC (if d then "true);".toList else "false);".toList)))))) := by
      show lexC ("apx_nodeData_outPortDataWriteNotify(&m_nodeData, ".toList ++ natStr o ++ ", ".toList ++ natStr n ++
        ", ".toList ++ (if d then "true".toList else "false".toList) ++ [')'] ++ [';']) = _
      have e1 : lexC "apx_nodeData_outPortDataWriteNotify(&m_nodeData, ".toList =
        kw "apx_nodeData_outPortDataWriteNotify" :: lexC "(&m_nodeData,".toList := by decide +kernel
      have e2 : lexC ", ".toList = [.sym ','] := by decide +kernel
      have e3 : lexC ((if d then "true".toList else "false".toList) ++ ([')'] ++ [';'])) =
        lexC (if d then "true);".toList else "false);".toList) := by cases d <;> decide +kernel
      simp only [List.append_assoc]
      rw [lexC_lit _ _ (by decide +kernel), lexC_sep (natStr o) _ (sep_append _ _ (by decide +kernel) (by decide +kernel)),
        lexC_lit _ _ (by decide +kernel), lexC_sep (natStr n) _ (sep_append _ _ (by decide +kernel) (by decide +kernel)),
        lexC_lit _ _ (by decide +kernel), e1, e2, e3]
      rfl
    rw [this]
    have h1 : (lexC "apx_nodeData_lockOutPortData(&m_nodeData);".toList).head? ≠ some (kw "apx_nodeData_outPortDataWriteNotify") := by decide +kernel
    have h2 : (lexC "apx_nodeData_lockInPortData(&m_nodeData);".toList).head? ≠ some (kw "apx_nodeData_outPortDataWriteNotify") := by decide +kernel
    have h3 : (lexC "apx_nodeData_unlockInPortData(&m_nodeData);".toList).head? ≠ some (kw "apx_nodeData_outPortDataWriteNotify") := by decide +kernel
    refine ⟨?_, ?_, ?_⟩
    · unfold readTop
      rw [if_neg (fun h => h1 (by rw [← h]; rfl)), if_neg (fun h => h2 (by rw [← h]; rfl)), if_neg (fun h => h3 (by rw [← h]; rfl)),
        if_pos (by rw [List.head?_cons]), List.tail_cons]
      unfold readNotify
      rw [expect_append]
      simp only [Option.bind_eq_bind, Option.bind_some, readNat_natStr, expect_append]
      cases d with
      | true => rw [if_pos (by rfl)]
      | false => rw [if_neg (by decide +kernel), if_pos (by rfl)]
    · rw [List.head?_cons]; decide +kernel
    · intro x hx
      rw [List.head?_cons]
      intro h
      cases h
      revert hx
      decide +kernel

theorem readStmts_others (buf : Str) (hb : BufOk buf) (rest : List (List CTok)) : ∀ l : List CTop,
    (∀ t ∈ l, t.isCode = false) →
    readStmts buf .outside ((l.map fun t => indentBy 3 (t.text buf ++ [';'])).map lexC ++ rest) =
      (readStmts buf .outside rest).map fun r => l ++ r
  | [], _ => by
    simp only [List.map_nil, List.nil_append]
    cases readStmts buf .outside rest <;> rfl
  | t :: l, h => by
    obtain ⟨a1, a2, _⟩ := readTop_other buf hb t (h t (by simp))
    simp only [List.map_cons, List.cons_append, lexC_indent]
    rw [readStmts, if_neg a2, a1, readStmts_others buf hb rest l (fun x hx => h x (List.mem_cons_of_mem _ hx))]
    cases readStmts buf .outside rest <;> rfl

end Apx
