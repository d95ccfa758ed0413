import Verif.Proofs.Signature

/-! C22, C23: data signatures. -/

namespace Apx

/-- C22: printing any well-formed element and parsing the text consumes all of it and yields the
element, with references as the text mentions them (by number if the type has one and the text is
not normalized, by name otherwise). -/
theorem C22_roundtrip (ids : Str → Option Int) (normalized : Bool) (e : Elem) (h : e.WellFormed) :
    ∃ s, e.toStr ids normalized = .ok s ∧ dataSignature s = .ok (e.asWritten ids normalized) := by
  obtain ⟨s, hs, _, _, hp⟩ := Elem.parse_toStr ids normalized e h
  refine ⟨s, hs, ?_⟩
  have := hp [] (2 * s.length + 2) (by simp [Stops]) (by simp)
  simp only [List.append_nil] at this
  unfold dataSignature parseSig
  rw [this]
  simp

/-- C22, elements without resolved references: exactly the same element comes back. -/
theorem C22_same_element (e : Elem) (h : e.WellFormed) (hn : e.NoResolved) (ids : Str → Option Int)
    (normalized : Bool) :
    ∃ s, e.toStr ids normalized = .ok s ∧ dataSignature s = .ok e := by
  obtain ⟨s, h1, h2⟩ := C22_roundtrip ids normalized e h
  exact ⟨s, h1, by rw [h2, Elem.asWritten_noResolved ids normalized e hn]⟩

/-- C22, elements with resolved references: parsing and resolving against the type list gives
back exactly the same element. -/
theorem C22_resolved (types : List NamedType) (ids : Str → Option Int) (normalized : Bool) (e : Elem)
    (h : e.WellFormed) (hr : e.ResolvedIn types ids) :
    ∃ s, e.toStr ids normalized = .ok s ∧
      (dataSignature s >>= Elem.resolveType types) = .ok e := by
  obtain ⟨s, h1, h2⟩ := C22_roundtrip ids normalized e h
  exact ⟨s, h1, by rw [h2, ok_bind, Elem.resolve_asWritten types ids normalized e hr]⟩

/-- C22: two different well-formed elements never have the same text. -/
theorem C22_text_determines_element (e e' : Elem) (h : e.WellFormed) (hn : e.NoResolved)
    (h' : e'.WellFormed) (hn' : e'.NoResolved) (ids : Str → Option Int) (normalized : Bool)
    (hs : e.toStr ids normalized = e'.toStr ids normalized) : e = e' := by
  obtain ⟨s, h1, h2⟩ := C22_same_element e h hn ids normalized
  obtain ⟨s', h1', h2'⟩ := C22_same_element e' h' hn' ids normalized
  rw [h1, h1'] at hs
  simp only [Except.ok.injEq] at hs
  subst hs
  rw [h2] at h2'
  simpa using h2'

/-- C22: the recursion bound in the model of the parser is never reached (the parser terminates
on every text with a result independent of the bound). -/
theorem C22_parser_terminates (s : Str) (n : Nat) (h : 2 * s.length + 1 ≤ n) :
    parseSigF n s = parseSig s := parseSig_fuel s n h

section Examples

/-- `{"a"C(0,7)[3]"b"{"c"a[10]}"d"T["X"]}` -/
def exElem : Elem :=
  .record (.cons (some "a".toList) (.prim .u8 (some 0) (some 7) (some 3))
    (.cons (some "b".toList) (.record (.cons (some "c".toList) (.prim .str none none (some 10)) .nil) none)
      (.cons (some "d".toList) (.refName "X".toList) .nil))) none

def exResolved : Elem :=
  .record (.cons (some "a".toList) (.refType "X".toList (.prim .s16 (some (-5)) (some 5) none))
    (.cons (some "b".toList) (.prim .u32 none none none) .nil)) none

def exTypes : List NamedType := [⟨"W".toList, .prim .u8 none none none⟩, ⟨"X".toList, .prim .s16 (some (-5)) (some 5) none⟩]

example : exElem.WellFormed ∧ exElem.NoResolved := by
  simp [exElem, Elem.WellFormed, Fields.WellFormed, Elem.NoResolved, Fields.NoResolved, QuoteFree, RefNameOk]

example : exElem.toStr (fun _ => none) false = .ok "{\"a\"C(0,7)[3]\"b\"{\"c\"a[10]}\"d\"T[\"X\"]}".toList := by
  decide +kernel

example : exResolved.WellFormed ∧ exResolved.ResolvedIn exTypes (fun n => if n = "X".toList then some 1 else none) := by
  refine ⟨by simp [exResolved, Elem.WellFormed, Fields.WellFormed, QuoteFree, RefNameOk], ?_⟩
  simp [exResolved, exTypes, Elem.ResolvedIn, Fields.ResolvedIn]

example : exResolved.toStr (fun n => if n = "X".toList then some 1 else none) false
    = .ok "{\"a\"T[1]\"b\"L}".toList := by decide +kernel

end Examples

/-- C23: `packLen` is the sum over all leaves of element size times number of items. -/
theorem C23_packLen (e : Elem) (ls : List (Nat × Nat)) (h : e.leaves = some ls) :
    e.packLen = .ok (totalSize ls) := packLen_leaves e ls h

/-- C23: `packLen` of a record is the sum of the pack lengths of its fields. -/
theorem C23_record_sum (n : Option Str) (e : Elem) (r : Fields) (la lb : List (Nat × Nat))
    (ha : e.leaves = some la) (hb : (Elem.record r none).leaves = some lb) :
    ∃ a b, e.packLen = .ok a ∧ (Elem.record r none).packLen = .ok b ∧
      (Elem.record (.cons n e r) none).packLen = .ok (a + b) := by
  refine ⟨_, _, packLen_leaves e la ha, packLen_leaves _ lb hb, ?_⟩
  rw [packLen_leaves _ (la ++ lb) _, totalSize_append]
  simp only [Elem.leaves] at hb
  simp [Elem.leaves, Fields.leaves, ha, hb]

/-- C23: a reference takes as many bytes as the type it denotes. -/
theorem C23_reference (n : Str) (t : Elem) (ls : List (Nat × Nat)) (h : t.leaves = some ls) :
    (Elem.refType n t).packLen = t.packLen := by
  rw [packLen_leaves t ls h, packLen_leaves _ ls (by simpa [Elem.leaves] using h)]

/-- C23 for arrays of records, which no text describes (a record gets an array length only by assigning the
attribute): a reference to one has the length of the record times the number of elements, but the array
itself has the length of a single record. -/
theorem C23_record_array (n : Str) (fs : Fields) (k : Nat) (ls : List (Nat × Nat)) (h : fs.leaves = some ls) :
    (Elem.refType n (.record fs (some k))).packLen = .ok (totalSize ls * k) ∧
      (Elem.record fs (some k)).packLen = .ok (totalSize ls) := by
  constructor
  · simp [Elem.packLen, packLenLoop, Elem.calcElemSize, Fields.calcElemSize_leaves fs ls h, timesArray, ok_bind]
  · unfold Elem.packLen
    rw [packLenLoop, packLenLoop_leaves 0 fs [.nil] ls [] h (by simp [stackLeaves, Fields.leaves])]
    simp [totalSize]

example : exResolved.leaves = some [(2, 1), (4, 1)] ∧ exResolved.packLen = .ok 6 := by decide +kernel

example : (Elem.record (.cons (some "a".toList) (.prim .u16 none none (some 5)) (.cons (some "b".toList)
    (.refType "R".toList (.record (.cons (some "x".toList) (.prim .str none none (some 7)) .nil) none)) .nil)) none).packLen
    = .ok 17 := by decide +kernel

end Apx
