import Verif.Proofs.PortAttr

/-! C51: init value attributes. -/

namespace Apx

/-- C51: every text of an init value, in decimal or hexadecimal and with blanks anywhere around the
elements, is parsed to exactly that value. -/
theorem C51_every_spelling (v : InitVal) (s a : Str) (h : Spells v s) (ha : Blank a) :
    portAttribute ('=' :: (a ++ s)) = .ok ⟨false, false, none, some v, '=' :: (a ++ s)⟩ := by
  have hp := parseInit_spells v s h a ha [] (by simp [Ends])
  simp only [List.append_nil] at hp
  obtain ⟨c, t, hs, _⟩ := spells_start v s h
  unfold portAttribute
  simp only [attrLoop]
  rw [if_neg (by simp)]
  rw [lstrip_start _ _ (by decide)]
  simp only [hp, ok_bind]
  rw [show ('=' :: (a ++ s)).length = (a ++ s).length + 1 from rfl]
  simp [attrLoop]

/-- C51: parsing the attribute printed for an init value built from integers, strings without quote
or brace characters and non-empty lists of any nesting gives back the value. -/
theorem C51_roundtrip (v : InitVal) (h : v.Plain) :
    portAttribute v.attrText = .ok ⟨false, false, none, some v, v.attrText⟩ := by
  have := C51_every_spelling v v.derive [] (spells_derive v h) (by simp [Blank])
  simpa [InitVal.attrText] using this

/-- C51: two different such values never have the same attribute text. -/
theorem C51_text_determines_value (v w : InitVal) (hv : v.Plain) (hw : w.Plain) (h : v.attrText = w.attrText) :
    v = w := by
  have h1 := C51_roundtrip v hv
  rw [h, C51_roundtrip w hw] at h1
  simp only [Except.ok.injEq, PortAttr.mk.injEq, Option.some.injEq] at h1
  exact h1.2.2.2.1.symm

/-- C51: the value survives next to the other attributes: a parameter mark in front of it and a
queue length behind it. -/
theorem C51_with_other_attributes (v : InitVal) (h : v.Plain) (n : Nat) (b : Str) (hb : Blank b) :
    portAttribute ('P' :: (v.attrText ++ (b ++ ('Q' :: '[' :: (natStr n ++ [']']))))) =
      .ok ⟨true, true, some (natStr n), some v,
        'P' :: (v.attrText ++ (b ++ ('Q' :: '[' :: (natStr n ++ [']']))))⟩ := by
  have hd : (natStr n ++ [']']).takeWhile isDec = natStr n ∧ (natStr n ++ [']']).dropWhile isDec = [']'] :=
    takeWhile_all isDec _ _ (fun c hc => by have := natStr_chars n c hc; simp [isDec]; omega)
      (fun c t e => by simp only [List.cons.injEq] at e; rw [← e.1]; decide)
  have hp := parseInit_spells v v.derive (spells_derive v h) [] (by simp [Blank])
    (b ++ ('Q' :: '[' :: (natStr n ++ [']']))) (ends_blank b _ hb (by
      intro c t e; simp only [List.cons.injEq] at e; rw [← e.1]; decide))
  simp only [List.nil_append] at hp
  unfold portAttribute
  simp only [InitVal.attrText, List.cons_append]
  generalize hL : 'P' :: '=' :: (v.derive ++ (b ++ 'Q' :: '[' :: (natStr n ++ [']']))) = L
  have hlen : L.length + 1 = (v.derive ++ b ++ natStr n).length + 3 + 3 := by
    rw [← hL]; simp only [List.length_cons, List.length_append, List.length_nil]; omega
  rw [hlen]
  conv => lhs; arg 3; rw [← hL]
  rw [attrLoop, if_neg (by simp), lstrip_start _ _ (by decide)]
  simp only []
  rw [attrLoop, if_neg (by simp), lstrip_start _ _ (by decide)]
  simp only [hp, ok_bind]
  rw [attrLoop, if_neg (by simp), lstrip_blank b _ hb, lstrip_start _ _ (by decide)]
  simp [matchQueueLen, hd.1, hd.2, natStr_ne_nil]

/-- C51: numbers up to 255 are printed in decimal, others in hexadecimal. -/
theorem C51_printed_numbers (n : Nat) :
    (n ≤ 255 → ∃ s, Numeral 10 s n ∧ (InitVal.int n).attrText = '=' :: s) ∧
      (255 < n → ∃ s, Numeral 16 s n ∧ (InitVal.int n).attrText = '=' :: '0' :: 'x' :: s) := by
  constructor
  · intro h
    refine ⟨natStr n, numeral_natStr n, ?_⟩
    unfold InitVal.attrText InitVal.derive
    rw [if_neg (by omega)]
    simp [intStr]
  · intro h
    refine ⟨hexStr n, numeral_hexStr n, ?_⟩
    unfold InitVal.attrText InitVal.derive
    rw [if_pos (by omega)]
    simp

/-- C51: the queue length is the number in brackets directly after the mark, if the brackets are
complete; otherwise there is none. -/
theorem C51_queue_length (r : Str) : ∃ q, portAttribute ('Q' :: r) = .ok ⟨true, false, q, none, 'Q' :: r⟩ ∧
    ∀ ds, q = some ds ↔ ds ≠ [] ∧ (∀ c ∈ ds, '0' ≤ c ∧ c ≤ '9') ∧ ∃ rest, r = '[' :: (ds ++ ']' :: rest) := by
  refine ⟨matchQueueLen r, ?_, ?_⟩
  · unfold portAttribute
    simp only [attrLoop]
    rw [if_neg (by simp), lstrip_start _ _ (by decide)]
    rfl
  · intro ds
    have hdig : ∀ c : Char, isDec c = true ↔ '0' ≤ c ∧ c ≤ '9' := by
      intro c
      have e1 : ('0' ≤ c) ↔ 48 ≤ c.toNat := Iff.rfl
      have e2 : (c ≤ '9') ↔ c.toNat ≤ 57 := Iff.rfl
      simp [isDec, e1, e2]
    constructor
    · intro h
      unfold matchQueueLen at h
      split at h
      · rename_i t
        split at h
        · simp at h
        · split at h
          · rename_i h1 h2
            simp only [Option.some.injEq] at h
            subst h
            refine ⟨by simpa [List.isEmpty_iff] using h1, ?_, ?_⟩
            · intro c hc
              exact (hdig c).mp (List.all_eq_true.mp (List.all_takeWhile (p := isDec) (l := t)) c hc)
            · cases hd : t.dropWhile isDec with
              | nil => simp [hd] at h2
              | cons x rest =>
                simp only [hd, List.head?_cons, Option.some.injEq] at h2
                refine ⟨rest, ?_⟩
                rw [← h2, ← hd, List.takeWhile_append_dropWhile]
          · simp at h
      · simp at h
    · rintro ⟨hne, hall, rest, rfl⟩
      have hd := takeWhile_all isDec ds (']' :: rest) (fun c hc => (hdig c).mpr (hall c hc))
        (fun c t e => by simp only [List.cons.injEq] at e; rw [← e.1]; decide)
      simp [matchQueueLen, hd.1, hd.2, hne]

/-- C51: the bounds in the model of the attribute parser are never reached (the parser terminates on
every text with a result independent of them). -/
theorem C51_parser_terminates (text : Str) (a : PortAttr) (n : Nat) (h : text.length + 1 ≤ n) (m : Nat)
    (hm : 2 * text.length + 1 ≤ m) :
    attrLoop n a text = attrLoop (text.length + 1) a text ∧ parseInitF m text = parseInit text :=
  ⟨attrLoop_fuel _ a text n (by omega) h, parseInit_fuel text m hm⟩

section Examples

/-- `{1,{-7,"a,b"},4660}` -/
def paVal : InitVal := .list [.int 1, .list [.int (-7), .str "a,b".toList], .int 4660]

example : paVal.Plain ∧ paVal.attrText = "={1,{-7,\"a,b\"},0x1234}".toList := by
  refine ⟨by simp [paVal, InitVal.Plain, AllPlain], ?_⟩
  decide +kernel

example : Spells paVal ['{',' ','1',' ',',','{','-','0','7',',',' ','"','a',',','b','"','}',',','4','6','6','0','}'] := by
  refine .list _ [' ','1',' ',',','{','-','0','7',',',' ','"','a',',','b','"','}',',','4','6','6','0'] ?_
  refine .cons _ ['1'] [' '] [' '] _ ['{','-','0','7',',',' ','"','a',',','b','"','}',',','4','6','6','0']
    (.dec _ 1 (.digit _ _ (by simp [IsDigit]) (by decide))) (by simp [Blank]) (by simp [Blank]) ?_
  refine .cons _ ['{','-','0','7',',',' ','"','a',',','b','"','}'] [] [] _ ['4','6','6','0'] (.list _ ['-','0','7',',',' ','"','a',',','b','"'] ?_) (by simp [Blank]) (by simp [Blank]) ?_
  · refine .cons _ ['-','0','7'] [] [] _ [' ','"','a',',','b','"'] (.neg _ 7 ?_) (by simp [Blank]) (by simp [Blank]) ?_
    · exact .snoc ['0'] 0 _ 7 (.digit _ _ (by simp [IsDigit]) (by decide)) (by simp [IsDigit]) (by decide)
    · exact .last _ ['"','a',',','b','"'] [' '] [] (.str _ (by decide) (by decide) (by decide)) (by simp [Blank]) (by simp [Blank])
  · refine .last _ ['4','6','6','0'] [] [] (.dec _ 4660 ?_) (by simp [Blank]) (by simp [Blank])
    have := numeral_natStr 4660; rwa [show natStr 4660 = ['4','6','6','0'] by decide +kernel] at this

/-- Why lists must not be empty and strings in lists must not contain braces. -/
example : (match portAttribute "={}".toList with | .error .parseError => true | _ => false) = true := by decide +kernel
example : (match portAttribute "={\"a}\"}".toList with | .error .parseError => true | _ => false) = true := by decide +kernel

end Examples

end Apx
