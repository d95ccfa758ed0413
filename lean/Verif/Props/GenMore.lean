import Verif.Props.GenCode

/-! C67: where the emitted code goes wrong, for all types. -/

namespace Apx

/-- The function that is emitted for a string. -/
theorem genFunc_text (types : List NamedType) (sfx : Str) (op : COp) (pointer : Bool) (offset : Nat) (direct : Bool)
    (mn mx : Option Int) (n : Nat) : genFunc types sfx op pointer true offset direct (.prim .str mn mx (some n)) =
      .ok (⟨none, funcHead op false offset n ++ ((emitString op false [] n offset).map (fun s => CTop.stmt (.simple s)) ++
        funcTail op offset n direct)⟩, n) := by
  have h1 : (Elem.prim .str mn mx (some n)).resolveDataElement = .ok (.prim .str mn mx (some n)) := rfl
  have h2 : (Elem.prim .str mn mx (some n)).isComplexType = .ok true := rfl
  simp only [genFunc, Elem.resolveType, ok_bind, h1, genElem, h2, if_true, CName.path, List.map_map]
  rfl

/-- C67 is violated by every text that fills its field: the emitted function replaces the last byte by zero, whereas the
runtime sends all bytes (`C25_pack`). -/
theorem C67_full_text_violated (types : List NamedType) (sfx : Str) (offset : Nat) (direct : Bool) (mn mx : Option Int)
    (n : Nat) (b buf : Bytes) (hb : b.length = n + 1) (hbuf : offset + (n + 1) ≤ buf.length) :
    ∃ f m, genFunc types sfx .pack true true offset direct (.prim .str mn mx (some (n + 1))) = .ok (f, n + 1) ∧
      f.call buf (.ptr (.chars b)) = some m ∧
      (m.buf.drop offset).take (n + 1) = b.take n ++ [0] ∧
      (b.getLast? ≠ some 0 → (m.buf.drop offset).take (n + 1) ≠ b) := by
  have hn : ((n + 1 : Nat) : Int) - 1 = (n : Int) := by omega
  have ht : (b.take n).length = n := by rw [List.length_take]; omega
  have h1 : offset + (b.take n).length ≤ buf.length := by omega
  have hlen : (buf.take offset ++ b.take n ++ buf.drop (offset + (b.take n).length)).length = buf.length := by
    simp only [List.length_append, List.length_take, List.length_drop]; omega
  have ha : asIndex ((offset : Int) + (n : Int)) = some (offset + n) := by
    unfold asIndex
    rw [if_pos (by omega)]
    congr 1
  have hb' : (buf.take offset ++ b.take n ++ buf.drop (offset + (b.take n).length)).take (offset + n) =
      buf.take offset ++ b.take n := by
    apply List.take_left'
    simp only [List.length_append, List.length_take]
    omega
  have key : (((buf.take offset ++ b.take n ++ buf.drop (offset + (b.take n).length)).take (offset + n) ++ [(0 : UInt8)] ++
      (buf.take offset ++ b.take n ++ buf.drop (offset + (b.take n).length)).drop (offset + n + 1)).drop offset).take (n + 1)
      = b.take n ++ [0] := by
    rw [hb', List.append_assoc, List.append_assoc, List.drop_left' (by rw [List.length_take]; omega), ← List.append_assoc]
    apply List.take_left'
    simp only [List.length_append, ht, List.length_singleton]
  refine ⟨_, ⟨(buf.take offset ++ b.take n ++ buf.drop (offset + (b.take n).length)).take (offset + n) ++ [(0 : UInt8)] ++
      (buf.take offset ++ b.take n ++ buf.drop (offset + (b.take n).length)).drop (offset + n + 1), none, .ptr (.chars b), false,
      0, [(offset, n + 1, direct)]⟩, genFunc_text .., ?_, key, ?_⟩
  · have hi : ∀ k : Nat, asIndex (k : Int) = some k := by
      intro k
      unfold asIndex
      rw [if_pos (by omega)]
      rfl
    simp only [CFunc.call, funcHead, funcTail, emitString, hn, runTops, CTop.run, CStmt.run, CSimple.run, List.map_cons,
      List.map_nil, List.cons_append, List.nil_append, Bool.false_eq_true, if_false, Option.bind_some, CVal.get, CVal.asChars,
      Option.bind_eq_bind, hi, ha, CMach.addr, CMach.write]
    rw [if_pos (by omega), if_pos ⟨trivial, h1⟩]
    simp only [Option.bind_some]
    rw [if_pos ⟨trivial, by rw [hlen]; simp only [List.length_singleton]; omega⟩]
    simp only [Option.bind_some, if_true, List.length_singleton, List.nil_append]
    rw [if_pos ⟨by omega, trivial⟩]
  · intro hl he
    rw [key] at he
    apply hl
    rw [← he]
    simp

/-- C67 is violated whenever text is read into an array: its last byte is left as it was, so that text that just fits is
not terminated unless the array already ended in a zero byte. -/
theorem C67_not_terminated_violated (types : List NamedType) (sfx : Str) (offset : Nat) (mn mx : Option Int)
    (n : Nat) (b buf : Bytes) (hb : b.length = n + 1) (hbuf : offset + (n + 1) ≤ buf.length) :
    ∃ f m b', genFunc types sfx .unpack true true offset false (.prim .str mn mx (some (n + 1))) = .ok (f, n + 1) ∧
      f.call buf (.ptr (.chars b)) = some m ∧ m.arg = .ptr (.chars b') ∧
      b' = (buf.drop offset).take n ++ b.drop n ∧ b'.getLast? = b.getLast? := by
  have hn : ((n + 1 : Nat) : Int) - 1 = (n : Int) := by omega
  have ht : ((buf.drop offset).take n).length = n := by rw [List.length_take, List.length_drop]; omega
  have hi : ∀ k : Nat, asIndex (k : Int) = some k := by
    intro k
    unfold asIndex
    rw [if_pos (by omega)]
    rfl
  have hlast : ((buf.drop offset).take n ++ b.drop n).getLast? = b.getLast? := by
    rw [List.getLast?_append]
    have hne : b.drop n ≠ [] := by
      intro h
      have := congrArg List.length h
      simp only [List.length_drop, List.length_nil] at this
      omega
    rw [List.getLast?_drop, if_neg (by omega)]
    cases hbl : b.getLast? with
    | none =>
      rw [List.getLast?_eq_none_iff] at hbl
      rw [hbl] at hb
      simp at hb
    | some x => rfl
  have hread : ∀ p arg locked bare notes, CMach.read ⟨buf, p, arg, locked, bare, notes⟩ n offset =
      some ((buf.drop offset).take n, ⟨buf, p, arg, locked, if locked then bare else bare + n, notes⟩) := by
    intro p arg locked bare notes
    unfold CMach.read
    rw [if_pos (by simp only; omega)]
  refine ⟨_, ⟨buf, none, .ptr (.chars ((buf.drop offset).take n ++ b.drop n)), false, 0, []⟩, _, genFunc_text .., ?_, rfl, rfl, hlast⟩
  cases n with
  | zero =>
    simp only [CFunc.call, funcHead, funcTail, emitString, hn, Nat.zero_add, gt_iff_lt, Nat.lt_irrefl, runTops, CTop.run, CStmt.run, CSimple.run, List.map_cons,
      List.map_nil, List.cons_append, List.nil_append, Bool.false_eq_true, if_false, Option.bind_some,
      Option.bind_eq_bind, hi, CMach.addr, hread, CMach.assign, CVal.update, assignChars, ht]
    simp
  | succ n =>
    have h2 : n + 1 + 1 > 1 := by omega
    simp only [CFunc.call, funcHead, funcTail, emitString, hn, runTops, CTop.run, CStmt.run, CSimple.run, List.map_cons,
      List.map_nil, List.cons_append, List.nil_append, Bool.false_eq_true, if_false, Option.bind_some, if_pos h2,
      Option.bind_eq_bind, hi, CMach.addr, hread, CMach.assign, CVal.update, assignChars, ht, if_true]
    rw [if_pos (by omega)]
    simp

/-- C67 is violated by text of length zero, wherever it is: `memcpy` is asked to copy -1 bytes. -/
theorem C67_empty_text_violated (types : List NamedType) (sfx : Str) (offset : Nat) (direct : Bool) (mn mx : Option Int) :
    ∃ f g, genFunc types sfx .pack true true offset direct (.prim .str mn mx (some 0)) = .ok (f, 0) ∧
      genFunc types sfx .unpack true true offset direct (.prim .str mn mx (some 0)) = .ok (g, 0) ∧
      (∀ buf c, f.call buf c = none) ∧ (∀ buf c, g.call buf c = none) := by
  refine ⟨_, _, genFunc_text .., genFunc_text .., ?_, ?_⟩
  · intro buf c
    cases hc : (CVal.get 0 [] c).bind CVal.asChars <;>
      simp_all [CFunc.call, funcHead, funcTail, emitString, runTops, CTop.run, CStmt.run, CSimple.run, asIndex]
  · intro buf c
    simp [CFunc.call, funcHead, funcTail, emitString, runTops, CTop.run, CStmt.run, CSimple.run, asIndex]

/-! ### References inside records -/

/-- A reference to a record: nothing is emitted. -/
theorem genElem_record_reference (sfx : Str) (op : COp) (lv : CLocals) (offset : Nat) (val : CName) (name : Str) (t : Elem)
    (fs : Fields) (hr : (Elem.refType name t).resolveDataElement = .ok (.record fs none)) :
    genElem sfx op lv offset val (.refType name t) = .ok ([], 0, lv) := by
  have ha : (Elem.refType name t).isArray = .ok false := by simp only [Elem.isArray, hr, ok_bind]; rfl
  have hc : (Elem.refType name t).isComplexType = .ok true := by
    simp only [Elem.isComplexType, ha, hr, ok_bind, Bool.false_eq_true, if_false]
  simp only [genElem, hc, genOther, ha, ok_bind, Bool.false_eq_true, if_false]

theorem genFields_append (sfx : Str) (op : COp) (val : CName) (fs gs gs' : Fields)
    (h : ∀ lv offset, genFields sfx op lv offset val gs = genFields sfx op lv offset val gs') (lv : CLocals) (offset : Nat) :
    genFields sfx op lv offset val (fs.append gs) = genFields sfx op lv offset val (fs.append gs') := by
  match fs with
  | .nil => exact h lv offset
  | .cons n e r =>
    simp only [Fields.append, genFields]
    cases genElem sfx op lv offset (val.child sfx n) e with
    | error x => rfl
    | ok q => simp only [ok_bind, genFields_append sfx op val r gs gs' h]

/-- C67 is violated by every record with a field whose type is a reference to a record: the emitted function is the one
for the record without this field, so that the fields after it are stored in its place. -/
theorem C67_record_reference_violated (types : List NamedType) (sfx : Str) (op : COp) (pointer hasBuf : Bool) (offset : Nat)
    (direct : Bool) (e e' : Elem) (fs gs : Fields) (field : Option Str) (name : Str) (t : Elem) (rs : Fields) (a : Option Nat)
    (he : e.resolveType types = .ok (.record (fs.append (.cons field (.refType name t) gs)) a))
    (he' : e'.resolveType types = .ok (.record (fs.append gs) a))
    (hr : (Elem.refType name t).resolveDataElement = .ok (.record rs none)) :
    genFunc types sfx op pointer hasBuf offset direct e = genFunc types sfx op pointer hasBuf offset direct e' := by
  have hg := genFields_append sfx op (.var pointer) fs (.cons field (.refType name t) gs) gs (by
    intro lv offset
    simp only [genFields, genElem_record_reference sfx op lv offset _ name t rs hr, ok_bind, Nat.add_zero, List.nil_append,
      Nat.zero_add]
    cases genFields sfx op lv offset (.var pointer) gs <;> rfl)
  have h1 : ∀ l : Fields, (Elem.record l a).resolveDataElement = .ok (.record l a) := fun _ => rfl
  have h2 : ∀ l : Fields, (Elem.record l a).isComplexType = .ok true := by
    intro l
    cases a <;> rfl
  simp only [genFunc, he, he', ok_bind, h1, genElem, h2, hg]

mutual
theorem genElem_array_reference (sfx : Str) (op : COp) (name : Str) (t : Elem)
    (hr : (Elem.refType name t).isArray = .ok true) : ∀ (e : Elem) (lv : CLocals) (offset : Nat) (val : CName),
      Elem.Mentions (.refType name t) e → ∃ x, genElem sfx op lv offset val e = .error x
  | .record fs a, lv, offset, val, h => by
    have h2 : (Elem.record fs a).isComplexType = .ok true := by cases a <;> rfl
    simp only [genElem, h2]
    exact genFields_array_reference sfx op name t hr fs _ offset val h
  | .refType n u, lv, offset, val, h => by
    simp only [Elem.Mentions] at h
    cases h
    have hc : (Elem.refType name t).isComplexType = .ok true := by simp only [Elem.isComplexType, hr, ok_bind, if_true]
    simp only [genElem, hc, genOther, hr, ok_bind, if_true, genArray, Elem.arrayLen]
    exact ⟨_, rfl⟩
  | .refId _, _, _, _, h => by simp only [Elem.Mentions] at h; cases h
  | .refName _, _, _, _, h => by simp only [Elem.Mentions] at h; cases h
  | .prim _ _ _ _, _, _, _, h => by simp only [Elem.Mentions] at h; cases h
theorem genFields_array_reference (sfx : Str) (op : COp) (name : Str) (t : Elem)
    (hr : (Elem.refType name t).isArray = .ok true) : ∀ (fs : Fields) (lv : CLocals) (offset : Nat) (val : CName),
      fs.Mentions (.refType name t) → ∃ x, genFields sfx op lv offset val fs = .error x
  | .nil, _, _, _, h => by simp only [Fields.Mentions] at h
  | .cons n e r, lv, offset, val, h => by
    simp only [genFields]
    simp only [Fields.Mentions] at h
    cases he : genElem sfx op lv offset (val.child sfx n) e with
    | error x => exact ⟨x, rfl⟩
    | ok q =>
      rcases h with h | h
      · obtain ⟨x, hx⟩ := genElem_array_reference sfx op name t hr e lv offset (val.child sfx n) h
        rw [he] at hx
        cases hx
      · obtain ⟨x, hx⟩ := genFields_array_reference sfx op name t hr r q.2.2 (offset + q.2.1) val h
        simp only [ok_bind, hx, error_bind]
        exact ⟨x, rfl⟩
end

/-- C67: a field whose type is a reference to an array or a string, at any depth, makes the generator fail. -/
theorem C67_array_reference_violated (types : List NamedType) (sfx : Str) (op : COp) (pointer hasBuf : Bool) (offset : Nat)
    (direct : Bool) (e : Elem) (fs : Fields) (a : Option Nat) (name : Str) (t : Elem)
    (he : e.resolveType types = .ok (.record fs a)) (hm : fs.Mentions (.refType name t))
    (hr : (Elem.refType name t).isArray = .ok true) :
    ∃ x, genFunc types sfx op pointer hasBuf offset direct e = .error x := by
  have h1 : (Elem.record fs a).resolveDataElement = .ok (.record fs a) := rfl
  obtain ⟨x, hx⟩ := genElem_array_reference sfx op name t hr (.record fs a) ⟨false, none⟩ offset (.var pointer) hm
  simp only [genFunc, he, ok_bind, h1, hx, error_bind]
  exact ⟨x, rfl⟩

/-- The hypotheses hold of `{"a"T["A"]}` with `T"A"C[2]`, and of `{"a"T["R"]"b"C}` with `T"R"{"x"C}`. -/
example : (Elem.record (.cons (some "a".toList) (.refName "A".toList) .nil) none).resolveType
      [⟨"A".toList, .prim .u8 none none (some 2)⟩] =
      .ok (.record (.cons (some "a".toList) (.refType "A".toList (.prim .u8 none none (some 2))) .nil) none) ∧
    (Elem.refType "A".toList (.prim .u8 none none (some 2))).isArray = .ok true ∧
    (Elem.refType "R".toList (.record (.cons (some "x".toList) (.prim .u8 none none none) .nil) none)).resolveDataElement =
      .ok (.record (.cons (some "x".toList) (.prim .u8 none none none) .nil) none) := by
  refine ⟨by decide +kernel, by decide +kernel, rfl⟩

end Apx
