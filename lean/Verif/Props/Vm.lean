import Verif.Proofs.VmProg
import Verif.Model.Signature

/-!
C24-C30, C57, C58: compiler and virtual machine.
-/

namespace Apx

/-! ### C24 -/

/-- C24: whenever compilation succeeds, the program starts with the opcode of its kind (1 pack,
2 unpack) followed by `packLen` as little-endian 32-bit number. -/
theorem C24_header (d : Dir) (e : Elem) (prog : Bytes) (h : compileProg d e = .ok prog) :
    ∃ n, e.packLen = .ok n ∧
      prog.take 5 = (match d with | .pack => 1 | .unpack => 2) :: littleEndian 4 n := by
  obtain ⟨code, n, hc, rfl⟩ := compileProg_inv h
  refine ⟨n, compile_packLen e code n hc, ?_⟩
  rw [littleEndian_nat]
  cases d <;> simp [progHeader, opProg, leBytes4]

/-- C24: pack and unpack program of the same type announce the same length. -/
theorem C24_same_length (e : Elem) (p u : Bytes) (hp : compileProg .pack e = .ok p)
    (hu : compileProg .unpack e = .ok u) : (p.take 5).drop 1 = (u.take 5).drop 1 := by
  obtain ⟨n, h1, h2⟩ := C24_header _ e p hp
  obtain ⟨m, h3, h4⟩ := C24_header _ e u hu
  rw [h1] at h3
  simp only [Except.ok.injEq] at h3
  subst h3
  rw [h2, h4]
  rfl

/-- C24: the announced length determines `packLen` (below 4 GiB). -/
theorem C24_exact (d : Dir) (e : Elem) (prog : Bytes) (h : compileProg d e = .ok prog) (n : Nat)
    (hn : e.packLen = .ok n) (hlt : n < 4294967296) : leNat ((prog.take 5).drop 1) = n := by
  obtain ⟨m, h1, h2⟩ := C24_header d e prog h
  rw [hn] at h1
  simp only [Except.ok.injEq] at h1
  subst h1
  rw [h2, List.drop_succ_cons, List.drop_zero, littleEndian_nat, leNat_leBytes_mod]
  omega

/-! ### C25 -/

/-- C25: a value that fits the type is packed into exactly `packLen` bytes: its layout, and
nothing else in the buffer changes. (`ArraysOk` is the additional requirement of C29.) -/
theorem C25_pack (e : Elem) (prog : Bytes) (hc : compileProg .pack e = .ok prog) (hl : e.LensOk)
    (hn : e.NamesOk) (v : PyVal) (bs : Bytes) (hlay : e.layout v = some bs) (ha : e.ArraysOk v)
    (data : Bytes) (off : Nat) (hd : off + bs.length ≤ data.length) :
    execPackProg prog data off v = .ok (data.take off ++ bs ++ data.drop (off + bs.length)) ∧
      e.packLen = .ok bs.length :=
  pack_forward e prog hc hl hn v bs hlay ha data off hd

/-- C25: bytes outside the `packLen` bytes at the offset keep their value. -/
theorem C25_untouched (e : Elem) (prog : Bytes) (hc : compileProg .pack e = .ok prog) (hl : e.LensOk)
    (hn : e.NamesOk) (hne : e.NoEmptyInside) (v : PyVal) (data r : Bytes) (off n : Nat)
    (hlen : e.packLen = .ok n) (h : execPackProg prog data off v = .ok r) :
    r.length = data.length ∧ ∀ i, i < off ∨ off + n ≤ i → r[i]? = data[i]? := by
  obtain ⟨bs, h1, h2, h3⟩ := pack_inverse e prog hc hl hn hne v data off r h
  obtain ⟨h4, h5⟩ := C25_pack e prog hc hl hn v bs h1 h2 data off h3
  rw [hlen] at h5
  simp only [Except.ok.injEq] at h5
  subst h5
  rw [h] at h4
  simp only [Except.ok.injEq] at h4
  subst h4
  refine ⟨put_length _ _ _ h3, ?_⟩
  intro i hi
  rcases hi with hi | hi
  · rw [List.append_assoc, List.getElem?_append_left (by simp; omega), List.getElem?_take_of_lt hi]
  · rw [List.getElem?_append_right (by simp; omega), List.getElem?_drop]
    congr 1
    simp; omega

section
/-- `{"a"{"x"S"y"c}"b"a[4]"c"T[..]}` with a nested record, a string and a reference. -/
def exVm : Elem :=
  .record (.cons (some "a".toList) (.record (.cons (some "x".toList) (.prim .u16 none none none)
      (.cons (some "y".toList) (.prim .s8 none none none) .nil)) none)
    (.cons (some "b".toList) (.prim .str none none (some 4))
      (.cons (some "c".toList) (.refType "R".toList (.prim .s32 none none none))
        (.cons (some "d".toList) (.prim .u16 none none (some 2)) .nil)))) none

def exVmVal : PyVal :=
  .dict [("c".toList, .int (-2)), ("a".toList, .dict [("x".toList, .int 258), ("y".toList, .int (-1))]),
    ("d".toList, .list [.int 1, .int 65535]), ("b".toList, .str "hi".toList)]

example : exVm.LensOk ∧ exVm.NamesOk ∧ exVm.ArraysOk exVmVal ∧
    exVm.layout exVmVal = some [2, 1, 255, 104, 105, 0, 0, 254, 255, 255, 255, 1, 0, 255, 255] := by
  refine ⟨?_, ?_, ?_, by decide +kernel⟩
  · simp [exVm, Elem.LensOk, Fields.LensOk]
  · simp [exVm, Elem.NamesOk, Fields.NamesOk]
  · simp [exVm, exVmVal, Elem.ArraysOk, Fields.ArraysOk, Elem.IsIntArray]
    rintro _ v rfl hv
    simp [List.lookup] at hv
    subst hv
    simp [Elem.ArraysOk, Fields.ArraysOk, Elem.IsIntArray]

example : ∃ prog, compileProg .pack exVm = .ok prog ∧
    execPackProg prog (List.replicate 17 7) 1 exVmVal
      = .ok [7, 2, 1, 255, 104, 105, 0, 0, 254, 255, 255, 255, 1, 0, 255, 255, 7] :=
  ⟨(compileProg .pack exVm).toOption.getD [], by decide +kernel, by decide +kernel⟩
end

/-! ### C26 -/

/-- C26 fails for nested records: an unpack program for a type with a record inside a record
raises an exception whatever the data. -/
theorem C26_nested_violated (e : Elem) (u : Bytes) (hu : compileProg .unpack e = .ok u) (hn : e.NamesOk)
    (hnest : ¬ e.NoNested) (data : Bytes) (off : Nat) : ∃ x, execUnpackProg u data off = .error x := by
  cases h : execUnpackProg u data off with
  | error x => exact ⟨x, rfl⟩
  | ok v => exact absurd (unpack_inverse e u hu hn data off v h) hnest

/-- A nested record that packs but does not unpack. -/
theorem C26_witness_violated :
    ∃ (e : Elem) (v : PyVal) (p u data : Bytes), e.Exact v ∧ compileProg .pack e = .ok p ∧
      compileProg .unpack e = .ok u ∧ execPackProg p [0] 0 v = .ok data ∧
      execUnpackProg u data 0 = .error .notImplemented := by
  refine ⟨.record (.cons (some "a".toList) (.record (.cons (some "b".toList) (.prim .u8 none none none) .nil) none)
      .nil) none, .dict [("a".toList, .dict [("b".toList, .int 5)])],
    [1, 1, 0, 0, 0, 29, 30, 97, 0, 29, 30, 98, 0, 3, 31, 31],
    [2, 1, 0, 0, 0, 29, 30, 97, 0, 29, 30, 98, 0, 16, 31, 31], [5], ?_, by decide +kernel, by decide +kernel,
    by decide +kernel, by decide +kernel⟩
  simp only [Elem.Exact, Fields.Exact, Fields.names]
  refine ⟨by simp, ?_, ⟨_, _, rfl, rfl, by simp [Fields.names], ?_, ⟨_, _, rfl, rfl, .u8, 5, rfl, rfl, by decide⟩, trivial⟩, trivial⟩
  · intro k
    by_cases h : k = "a".toList
    · subst h; simp [List.lookup]
    · have hb : (k == "a".toList) = false := by simpa using h
      simp only [List.lookup, hb]
      simpa using h
  · intro k
    by_cases h : k = "b".toList
    · subst h; simp [List.lookup, Fields.names]
    · have hb : (k == "b".toList) = false := by simpa using h
      simp only [List.lookup, hb, Fields.names]
      simpa using h

/-- C26 for types without records inside records: whenever a value of exactly the type's shape has
been packed, unpacking the buffer at the same offset gives the value back. -/
theorem C26_roundtrip_partial (e : Elem) (p u : Bytes) (hp : compileProg .pack e = .ok p)
    (hu : compileProg .unpack e = .ok u) (hl : e.LensOk) (hn : e.NamesOk) (hf : e.NoNested)
    (v : PyVal) (hx : e.Exact v) (data data' : Bytes) (off : Nat)
    (h : execPackProg p data off v = .ok data') :
    ∃ v', execUnpackProg u data' off = .ok v' ∧ v'.Same v := by
  obtain ⟨bs, h1, h2, h3⟩ := pack_inverse e p hp hl hn (noNested_noEmpty e hf) v data off data' h
  obtain ⟨h4, _⟩ := pack_forward e p hp hl hn v bs h1 h2 data off h3
  rw [h] at h4
  simp only [Except.ok.injEq] at h4
  subst h4
  exact unpack_forward e u hu hl hn hf v bs hx h1 _ off (put_holds data off bs h3)

section
/-- `{"b"a[4]"c"T[..]"d"S[2]}` -/
def exFlat : Elem :=
  .record (.cons (some "b".toList) (.prim .str none none (some 4))
    (.cons (some "c".toList) (.refType "R".toList (.prim .s32 none none none))
      (.cons (some "d".toList) (.prim .u16 none none (some 2)) .nil))) none

example : exFlat.NoNested ∧ exFlat.LensOk ∧ exFlat.NamesOk := by
  refine ⟨?_, ?_, ?_⟩
  · simp [exFlat, Elem.NoNested, Fields.AllFlat, Elem.IsFlat]
  · simp [exFlat, Elem.LensOk, Fields.LensOk]
  · simp [exFlat, Elem.NamesOk, Fields.NamesOk]

example : ∃ p u data, compileProg .pack exFlat = .ok p ∧ compileProg .unpack exFlat = .ok u ∧
    execPackProg p (List.replicate 12 0) 0 (.dict [("b".toList, .str "é".toList), ("c".toList, .int (-7)),
      ("d".toList, .list [.int 3, .int 4])]) = .ok data ∧
    execUnpackProg u data 0 = .ok (.dict [("b".toList, .str "é".toList), ("c".toList, .int (-7)),
      ("d".toList, .list [.int 3, .int 4])]) :=
  ⟨(compileProg .pack exFlat).toOption.getD [], (compileProg .unpack exFlat).toOption.getD [],
    [195, 169, 0, 0, 249, 255, 255, 255, 3, 0, 4, 0], by decide +kernel, by decide +kernel, by decide +kernel,
    by decide +kernel⟩
end

/-! ### C27 -/

/-- C27: for numeric types every byte string of `packLen` bytes unpacks to a value that fits the
type and whose layout is these bytes. -/
theorem C27_every_pattern (e : Elem) (u : Bytes) (hu : compileProg .unpack e = .ok u)
    (hl : e.LensOk) (hn : e.NamesOk) (hnum : e.Numeric) (n : Nat) (hlen : e.packLen = .ok n)
    (data : Bytes) (off : Nat) (hd : off + n ≤ data.length) :
    ∃ v, execUnpackProg u data off = .ok v ∧ e.layout v = some ((data.drop off).take n) := by
  obtain ⟨code, m, hc, rfl⟩ := compileProg_inv hu
  have hm := compile_packLen e code m hc
  rw [hlen] at hm
  simp only [Except.ok.injEq] at hm
  subst hm
  obtain ⟨v, h1, h2⟩ := numeric_surj e code n hc hnum ((data.drop off).take n) (by simp; omega)
  have hlb : ((data.drop off).take n).length = n := by simp; omega
  obtain ⟨v', h3, h4⟩ := unpack_forward e _ hu hl hn (numeric_noNested e hnum) v _ h1 h2 data off
    ⟨by rw [hlb]; exact hd, by rw [hlb]⟩
  refine ⟨v', h3, ?_⟩
  have hsame : e.layout v' = e.layout v := by
    have hcomp := comp_of_compile hc
    have hleaf : v' = v → e.layout v' = e.layout v := fun h => by rw [h]
    cases v with
    | dict d =>
      cases v' with
      | dict d' =>
        cases hcomp with
        | record fs code n hcf =>
          simp only [Elem.layout]
          exact (Fields.congr_lookup fs d' d (fun k _ => h4 k)).1
        | recordRef m fs code n hcf =>
          simp only [Elem.layout]
          exact (Fields.congr_lookup fs d' d (fun k _ => h4 k)).1
        | scalar tc mn mx t ht => simp [Elem.Exact] at h1
        | scalarRef m tc mn mx t ht => simp [Elem.Exact] at h1
        | array tc mn mx k t ht => simp [Elem.Exact] at h1
        | str mn mx k => simp [Elem.Exact] at h1
      | _ => simp [PyVal.Same] at h4
    | _ => exact hleaf (by cases v' <;> simp_all [PyVal.Same])
  rw [hsame, h2]

/-- C27: for integers and integer arrays, packing the unpacked value restores the bytes. -/
theorem C27_pack_back (tc : TypeCode) (mn mx : Option Int) (a : Option Nat) (p u : Bytes)
    (hp : compileProg .pack (.prim tc mn mx a) = .ok p)
    (hu : compileProg .unpack (.prim tc mn mx a) = .ok u) (hi : tc.integer.isSome)
    (ha : ∀ n, a = some n → 1 ≤ n ∧ n ≤ 65535) (n : Nat) (hlen : (Elem.prim tc mn mx a).packLen = .ok n)
    (data : Bytes) (hd : data.length = n) :
    ∃ v, execUnpackProg u data 0 = .ok v ∧ ∀ buf : Bytes, buf.length = n →
      execPackProg p buf 0 v = .ok data := by
  have hl : (Elem.prim tc mn mx a).LensOk := by simpa [Elem.LensOk] using ha
  have hn : (Elem.prim tc mn mx a).NamesOk := by simp [Elem.NamesOk]
  obtain ⟨v, h1, h2⟩ := C27_every_pattern _ u hu hl hn (by simpa [Elem.Numeric] using hi) n hlen data 0 (by omega)
  refine ⟨v, h1, ?_⟩
  intro buf hb
  rw [List.drop_zero, List.take_of_length_le (by omega)] at h2
  have := (C25_pack _ p hp hl hn v data h2 (by simp [Elem.ArraysOk]) buf 0 (by omega)).1
  rw [this]
  simp [List.drop_of_length_le (show buf.length ≤ data.length by omega)]

/-- C27 for flat records: packing the unpacked value restores the bytes if and only if the condition of
C29 on array fields holds; otherwise packing raises. -/
theorem C27_record_pack_back_partial (e : Elem) (p u : Bytes) (hp : compileProg .pack e = .ok p)
    (hu : compileProg .unpack e = .ok u) (hl : e.LensOk) (hn : e.NamesOk) (hnum : e.Numeric) (n : Nat)
    (hlen : e.packLen = .ok n) (data : Bytes) (hd : data.length = n) :
    ∃ v, execUnpackProg u data 0 = .ok v ∧ ∀ buf : Bytes, buf.length = n →
      (e.ArraysOk v → execPackProg p buf 0 v = .ok data) ∧
      (¬ e.ArraysOk v → ∃ x, execPackProg p buf 0 v = .error x) := by
  obtain ⟨v, h1, h2⟩ := C27_every_pattern _ u hu hl hn hnum n hlen data 0 (by omega)
  refine ⟨v, h1, ?_⟩
  intro buf hb
  rw [List.drop_zero, List.take_of_length_le (by omega)] at h2
  constructor
  · intro ha
    have := (C25_pack _ p hp hl hn v data h2 ha buf 0 (by omega)).1
    rw [this]
    simp [List.drop_of_length_le (show buf.length ≤ data.length by omega)]
  · intro ha
    cases hx : execPackProg p buf 0 v with
    | error x => exact ⟨x, rfl⟩
    | ok r =>
      exact absurd (pack_inverse e p hp hl hn (noNested_noEmpty e (numeric_noNested e hnum)) v buf 0 r hx).choose_spec.2.1 ha

/-- C27 fails for records with an array field that has more elements than the record has fields: the
bytes 1 2 3 unpack to a value of `{"a"C[3]}` that cannot be packed back. -/
theorem C27_record_array_violated : ∃ (e : Elem) (p u : Bytes) (v : PyVal), e.LensOk ∧ e.NamesOk ∧ e.Numeric ∧
    compileProg .pack e = .ok p ∧ compileProg .unpack e = .ok u ∧ e.packLen = .ok 3 ∧
    execUnpackProg u [1, 2, 3] 0 = .ok v ∧ execPackProg p [0, 0, 0] 0 v = .error .valueError := by
  refine ⟨.record (.cons (some "a".toList) (.prim .u8 none none (some 3)) .nil) none,
    [1, 3, 0, 0, 0, 29, 30, 97, 0, 10, 3, 0, 31], [2, 3, 0, 0, 0, 29, 30, 97, 0, 23, 3, 0, 31],
    .dict [("a".toList, .list [.int 1, .int 2, .int 3])], ?_, ?_, ?_, by decide +kernel, by decide +kernel,
    by decide +kernel, by decide +kernel, by decide +kernel⟩
  · simp [Elem.LensOk, Fields.LensOk]
  · simp [Elem.NamesOk, Fields.NamesOk]
  · simp [Elem.Numeric, Fields.AllNumeric, Fields.names, Elem.NumericLeaf, TypeCode.integer]

example : (Elem.prim .s16 none none (some 3)).LensOk ∧ (Elem.prim .s16 none none (some 3)).Numeric ∧
    (compileProg .unpack (.prim .s16 none none (some 3))).toOption.isSome := by
  refine ⟨by simp [Elem.LensOk], by simp [Elem.Numeric, TypeCode.integer], by decide +kernel⟩

example : execUnpackProg [2, 4, 0, 0, 0, 27, 2, 0] [0xfe, 0xff, 0, 0x80] 0
    = .ok (.list [.int (-2), .int (-32768)]) := by decide +kernel

/-! ### C28 -/

/-- C28 fails in one corner: an empty record inside a record accepts any value. -/
theorem C28_empty_record_violated :
    ∃ (e : Elem) (v : PyVal) (p : Bytes), parseSig "{\"a\"{}}".toList = .ok (some e, []) ∧
      compileProg .pack e = .ok p ∧ e.layout v = none ∧ execPackProg p [] 0 v = .ok [] := by
  refine ⟨.record (.cons (some "a".toList) (.record .nil none) .nil) none, .dict [("a".toList, .int 5)],
    [1, 0, 0, 0, 0, 29, 30, 97, 0, 29, 31, 31], by decide +kernel, by decide +kernel, by decide +kernel,
    by decide +kernel⟩

/-- C28 with that exception: a value that does not fit the type (it has no layout) is rejected with
an exception, for any buffer and offset. -/
theorem C28_rejects_partial (e : Elem) (p : Bytes) (hp : compileProg .pack e = .ok p) (hl : e.LensOk)
    (hn : e.NamesOk) (hne : e.NoEmptyInside) (v : PyVal) (hv : e.layout v = none) (data : Bytes) (off : Nat) :
    ∃ x, execPackProg p data off v = .error x := by
  cases h : execPackProg p data off v with
  | error x => exact ⟨x, rfl⟩
  | ok r =>
    obtain ⟨bs, h1, _⟩ := pack_inverse e p hp hl hn hne v data off r h
    rw [hv] at h1
    simp at h1

/-- C28: integers out of range are rejected (full, for scalar ports). -/
theorem C28_out_of_range (tc : TypeCode) (t : IntT) (mn mx : Option Int) (p : Bytes)
    (hp : compileProg .pack (.prim tc mn mx none) = .ok p) (ht : tc.integer = some t) (i : Int)
    (hi : ¬ t.InRange i) (data : Bytes) (off : Nat) : ∃ x, execPackProg p data off (.int i) = .error x := by
  refine C28_rejects_partial _ p hp (by simp [Elem.LensOk]) (by simp [Elem.NamesOk])
    (by simp [Elem.NoEmptyInside]) _ ?_ data off
  simp [Elem.layout, ht, intLayout, hi]

/-- C28: the buffer is never overrun: if it is too short at the offset, packing raises. -/
theorem C28_too_short (e : Elem) (p : Bytes) (hp : compileProg .pack e = .ok p) (hl : e.LensOk)
    (hn : e.NamesOk) (hne : e.NoEmptyInside) (v : PyVal) (data : Bytes) (off n : Nat)
    (hlen : e.packLen = .ok n) (hd : data.length < off + n) :
    ∃ x, execPackProg p data off v = .error x := by
  cases h : execPackProg p data off v with
  | error x => exact ⟨x, rfl⟩
  | ok r =>
    obtain ⟨bs, h1, h2, h3⟩ := pack_inverse e p hp hl hn hne v data off r h
    obtain ⟨_, h5⟩ := pack_forward e p hp hl hn v bs h1 h2 data off h3
    rw [hlen] at h5
    simp only [Except.ok.injEq] at h5
    omega

example : exVm.NoEmptyInside ∧ exVm.layout (.dict [("a".toList, .int 3)]) = none := by
  refine ⟨?_, by decide +kernel⟩
  simp [exVm, Elem.NoEmptyInside, Fields.NoEmptyInside]

/-! ### C29 -/

/-- C29 fails: a record with one field, an array of three numbers, cannot be packed. -/
theorem C29_violated :
    ∃ (e : Elem) (v : PyVal) (p : Bytes), e.Exact v ∧ compileProg .pack e = .ok p ∧
      execPackProg p [0, 0, 0] 0 v = .error .valueError := by
  refine ⟨.record (.cons (some "a".toList) (.prim .u8 none none (some 3)) .nil) none,
    .dict [("a".toList, .list [.int 1, .int 2, .int 3])], [1, 3, 0, 0, 0, 29, 30, 97, 0, 10, 3, 0, 31], ?_,
    by decide +kernel, by decide +kernel⟩
  simp only [Elem.Exact, Fields.Exact, Fields.names]
  refine ⟨by simp, ?_, ⟨_, _, rfl, rfl, Or.inl ⟨.u8, _, rfl, rfl, rfl, ?_⟩⟩, trivial⟩
  · intro k
    by_cases h : k = "a".toList
    · subst h; simp [List.lookup]
    · have hb : (k == "a".toList) = false := by simpa using h
      simp only [List.lookup, hb]
      simpa using h
  · intro x hx
    simp only [List.mem_cons, List.not_mem_nil, or_false] at hx
    rcases hx with rfl | rfl | rfl
    · exact ⟨1, rfl, by decide⟩
    · exact ⟨2, rfl, by decide⟩
    · exact ⟨3, rfl, by decide⟩

/-- C29, the exact extent: a value that fits the type can be packed (into a buffer that is large
enough) if and only if no integer array in a record has more elements than the record's dict has
entries. -/
theorem C29_condition_partial (e : Elem) (p : Bytes) (hp : compileProg .pack e = .ok p) (hl : e.LensOk)
    (hn : e.NamesOk) (hne : e.NoEmptyInside) (v : PyVal) (bs : Bytes) (hlay : e.layout v = some bs)
    (data : Bytes) (off : Nat) (hd : off + bs.length ≤ data.length) :
    (∃ r, execPackProg p data off v = .ok r) ↔ e.ArraysOk v := by
  constructor
  · rintro ⟨r, h⟩
    exact (pack_inverse e p hp hl hn hne v data off r h).choose_spec.2.1
  · intro ha
    exact ⟨_, (pack_forward e p hp hl hn v bs hlay ha data off hd).1⟩

/-! ### C30 -/

/-- C30 fails: programs for `n` and for `n + 65536 k` elements have the same instructions. -/
theorem C30_same_code_violated (d : Dir) (tc : TypeCode) (mn mx : Option Int) (n k : Nat) (c1 c2 : Bytes)
    (m1 m2 : Nat) (h1 : compileElem d (.prim tc mn mx (some n)) = .ok (c1, m1))
    (h2 : compileElem d (.prim tc mn mx (some (n + 65536 * k))) = .ok (c2, m2)) : c1 = c2 := by
  have hb : leBytes 2 (n + 65536 * k) = leBytes 2 n := by
    rw [leBytes2, leBytes2]
    rw [show (n + 65536 * k) % 256 = n % 256 by omega,
      show (n + 65536 * k) / 256 % 256 = n / 256 % 256 by omega]
  have e1 := comp_of_compile h1
  have e2 := comp_of_compile h2
  cases e1 with
  | array _ _ _ _ t ht =>
    cases e2 with
    | array _ _ _ _ t' ht' =>
      rw [ht] at ht'
      simp only [Option.some.injEq] at ht'
      subst ht'
      rw [hb]
    | str _ _ _ => simp [TypeCode.intT] at ht
  | str _ _ _ =>
    cases e2 with
    | array _ _ _ _ t' ht' => simp [TypeCode.intT] at ht'
    | str _ _ _ => rw [hb]

/-- C30 fails: if the array length is a positive multiple of 65536 (or zero), no list can be packed. -/
theorem C30_multiple_violated (tc : TypeCode) (mn mx : Option Int) (n : Nat) (p : Bytes) (hs : tc ≠ .str)
    (hp : compileProg .pack (.prim tc mn mx (some n)) = .ok p) (hn : n % 65536 = 0) (l : List PyVal)
    (data : Bytes) (off : Nat) : ∃ x, execPackProg p data off (.list l) = .error x := by
  cases h : execPackProg p data off (.list l) with
  | error x => exact ⟨x, rfl⟩
  | ok r =>
    exfalso
    obtain ⟨code, m, hc, rfl⟩ := compileProg_inv hp
    unfold execPackProg at h
    rw [run_header, bind_ok_iff] at h
    obtain ⟨mm, h, _⟩ := h
    rw [bind_ok_iff] at h
    obtain ⟨m0, h0, h⟩ := h
    unfold verifyDataLen at h0
    split at h0
    · simp at h0
    · simp only [Except.ok.injEq] at h0
      subst h0
      have hcomp := comp_of_compile hc
      cases hcomp with
      | array _ _ _ _ t ht =>
        have h' : runVm .pack false ((opArray .pack t :: leBytes 2 n) ++ []) ⟨VmState.init (.list l), data, off⟩
            = .ok mm := by rw [List.append_nil]; exact h
        obtain ⟨m', hx, _⟩ := run_ok_step (parse_array .pack t n []) h'
        simp [arrayInstr, execInstr, execPack, VmState.packStruct, hn, VmState.init, VmState.current,
          PyVal.isDict, packInt, error_bind, ok_bind] at hx
      | str _ _ _ => exact hs rfl

/-- C30 fails: for longer arrays only `n mod 65536` elements are read (and the rest of the buffer is
ignored). -/
theorem C30_count (tc : TypeCode) (t : IntT) (ht : tc.integer = some t) (mn mx : Option Int) (n : Nat)
    (u : Bytes) (hu : compileProg .unpack (.prim tc mn mx (some n)) = .ok u) (hn : n % 65536 ≠ 0)
    (data : Bytes) (off : Nat) (hd : off + t.width * n ≤ data.length) :
    ∃ l, execUnpackProg u data off = .ok (.list l) ∧ l.length = n % 65536 := by
  rw [width_eq] at hd
  obtain ⟨code, m, hc, rfl⟩ := compileProg_inv hu
  rw [integer_eq] at ht
  have hcomp := comp_of_compile hc
  cases hcomp with
  | array _ _ _ _ t' ht' =>
    rw [ht] at ht'
    simp only [Option.some.injEq] at ht'
    subst ht'
    have hmod : n % 65536 ≤ n := Nat.mod_le _ _
    have hmul : t.size * (n % 65536) ≤ t.size * n := Nat.mul_le_mul_left _ hmod
    obtain ⟨l, h1, _, h3⟩ := ints_surj t (n % 65536) ((data.drop off).take (t.size * (n % 65536)))
      (by simp; omega)
    have hlen : ((data.drop off).take (t.size * (n % 65536))).length = t.size * (n % 65536) := by simp; omega
    have hitems := unpackItems_ok t l _ data off h3 ⟨by omega, by rw [hlen]⟩
    rw [h1] at hitems
    refine ⟨l, ?_, h1⟩
    unfold execUnpackProg
    rw [run_header]
    have hv : verifyDataLen (t.size * n % 4294967296) ⟨VmState.init .null, data, off⟩
        = .ok ⟨VmState.init .null, data, off⟩ := by
      unfold verifyDataLen
      have : t.size * n % 4294967296 ≤ t.size * n := Nat.mod_le _ _
      rw [if_neg (show ¬ (data.length : Int) - (off : Nat) < ((t.size * n % 4294967296 : Nat) : Int) by omega)]
    rw [hv, ok_bind]
    have hp := parse_array .unpack t n []
    rw [List.append_nil] at hp
    rw [runVm_step _ hp]
    simp only [arrayInstr, execInstr, execUnpack, VmState.unpackStruct]
    rw [if_pos (by omega), hitems]
    simp only [ok_bind, VmState.store, VmState.init, runVm_nil]
  | str _ _ _ => simp [TypeCode.intT] at ht

/-- C30 for lengths 1 to 65535: unpacking yields exactly `n` elements ... -/
theorem C30_unpack_partial (tc : TypeCode) (t : IntT) (ht : tc.integer = some t) (mn mx : Option Int) (n : Nat)
    (u : Bytes) (hu : compileProg .unpack (.prim tc mn mx (some n)) = .ok u) (hn : 1 ≤ n ∧ n ≤ 65535)
    (data : Bytes) (off : Nat) (hd : off + t.width * n ≤ data.length) :
    ∃ l, execUnpackProg u data off = .ok (.list l) ∧ l.length = n := by
  obtain ⟨l, h1, h2⟩ := C30_count tc t ht mn mx n u hu (by omega) data off hd
  exact ⟨l, h1, by omega⟩

/-- ... and packing stores exactly the first `n` elements of the list. -/
theorem C30_pack_partial (tc : TypeCode) (t : IntT) (ht : tc.integer = some t) (mn mx : Option Int) (n : Nat)
    (p : Bytes) (hp : compileProg .pack (.prim tc mn mx (some n)) = .ok p) (hn : 1 ≤ n ∧ n ≤ 65535)
    (l : List PyVal) (hl : n ≤ l.length) (hr : ∀ x ∈ l.take n, ∃ i, x = .int i ∧ t.InRange i)
    (data : Bytes) (off : Nat) (hd : off + t.width * n ≤ data.length) :
    ∃ bs, intsLayout t (l.take n) = some bs ∧ bs.length = t.width * n ∧
      execPackProg p data off (.list l) = .ok (data.take off ++ bs ++ data.drop (off + bs.length)) := by
  obtain ⟨bs, hbs⟩ := intsLayout_inRange hr
  have hlen := intsLayout_length t _ bs hbs
  rw [List.length_take, Nat.min_eq_left hl, ← width_eq] at hlen
  refine ⟨bs, hbs, hlen, ?_⟩
  exact (C25_pack _ p hp (by intro k hk; simp only [Option.some.injEq] at hk; omega) (by simp [Elem.NamesOk])
    (.list l) bs (by simp [Elem.layout, ht, hl, hbs]) (by simp [Elem.ArraysOk]) data off (by omega)).1

example : (compileProg .unpack (.prim .u16 none none (some 65537))).toOption.isSome ∧
    (compileProg .pack (.prim .u16 none none (some 65536))).toOption.isSome := by decide +kernel

/-! ### C57: text -/

/-- C57 fails: text longer than the field is cut off silently. -/
theorem C57_truncated_violated :
    ∃ (e : Elem) (p u data : Bytes) (s s' : Str), compileProg .pack e = .ok p ∧ compileProg .unpack e = .ok u ∧
      execPackProg p [0, 0] 0 (.str s) = .ok data ∧ execUnpackProg u data 0 = .ok (.str s') ∧ s' ≠ s :=
  ⟨.prim .str none none (some 2), [1, 2, 0, 0, 0, 9, 2, 0], [2, 2, 0, 0, 0, 22, 2, 0], [97, 98], "abc".toList,
    "ab".toList, by decide +kernel, by decide +kernel, by decide +kernel, by decide +kernel, by decide⟩

/-- C57 fails: text can be cut in the middle of a character, so that reading it back raises. -/
theorem C57_unreadable_violated :
    ∃ (e : Elem) (p u data : Bytes) (s : Str), compileProg .pack e = .ok p ∧ compileProg .unpack e = .ok u ∧
      execPackProg p [0] 0 (.str s) = .ok data ∧ execUnpackProg u data 0 = .error .unicodeError :=
  ⟨.prim .str none none (some 1), [1, 1, 0, 0, 0, 9, 1, 0], [2, 1, 0, 0, 0, 22, 1, 0], [195], "é".toList,
    by decide +kernel, by decide +kernel, by decide +kernel, by decide +kernel⟩

/-- C57 for text that fits: it is read back unchanged. -/
theorem C57_text_partial (mn mx : Option Int) (n : Nat) (hn : 1 ≤ n ∧ n ≤ 65535) (p u : Bytes)
    (hp : compileProg .pack (.prim .str mn mx (some n)) = .ok p)
    (hu : compileProg .unpack (.prim .str mn mx (some n)) = .ok u) (s : Str)
    (hs : (utf8Encode s).length ≤ n) (h0 : '\x00' ∉ s) (data : Bytes) (off : Nat)
    (hd : off + n ≤ data.length) :
    ∃ data', execPackProg p data off (.str s) = .ok data' ∧ execUnpackProg u data' off = .ok (.str s) := by
  have hl : (Elem.prim .str mn mx (some n)).LensOk := by
    simpa [Elem.LensOk] using hn
  have hlay : (Elem.prim .str mn mx (some n)).layout (.str s) = some (textLayout n s) := by
    simp [Elem.layout, TypeCode.integer]
  obtain ⟨h1, _⟩ := C25_pack _ p hp hl (by simp [Elem.NamesOk]) (.str s) _ hlay (by simp [Elem.ArraysOk]) data off
    (by rw [packS_textLayout_length]; exact hd)
  refine ⟨_, h1, ?_⟩
  obtain ⟨v', h2, h3⟩ := C26_roundtrip_partial _ p u hp hu hl (by simp [Elem.NamesOk]) (by simp [Elem.NoNested])
    (.str s) (by rw [Elem.Exact]; exact Or.inr ⟨s, rfl, rfl, hs, h0⟩) data _ off h1
  rw [h2]
  cases v' <;> simp_all [PyVal.Same]

/-- C57: what is read from a text field is the text whose UTF-8 encoding the bytes before the first null byte are; if they
are no such encoding, reading raises. -/
theorem C57_read (mn mx : Option Int) (n : Nat) (hn : n ≤ 65535) (u : Bytes)
    (hu : compileProg .unpack (.prim .str mn mx (some n)) = .ok u) (data : Bytes) (off : Nat)
    (hd : off + n ≤ data.length) :
    (∀ v, execUnpackProg u data off = .ok v ↔ ∃ s, v = .str s ∧ utf8Encode s = ((data.drop off).take n).takeWhile (· ≠ 0)) ∧
    ((∀ s, utf8Encode s ≠ ((data.drop off).take n).takeWhile (· ≠ 0)) →
      execUnpackProg u data off = .error .unicodeError) := by
  obtain ⟨code, m, hc, rfl⟩ := compileProg_inv hu
  have key : execUnpackProg (progHeader .unpack m ++ code) data off =
      (utf8Decode (((data.drop off).take n).takeWhile (· ≠ 0)) >>= fun s => .ok (.str s)) := by
    have hcomp := comp_of_compile hc
    cases hcomp with
    | array tc mn mx k t ht => simp [TypeCode.intT] at ht
    | str mn mx k =>
      unfold execUnpackProg
      rw [run_header]
      have hv : verifyDataLen (n % 4294967296) ⟨VmState.init .null, data, off⟩ = .ok ⟨VmState.init .null, data, off⟩ := by
        unfold verifyDataLen
        have : n % 4294967296 ≤ n := Nat.mod_le _ _
        rw [if_neg (show ¬ (data.length : Int) - (off : Nat) < ((n % 4294967296 : Nat) : Int) by omega)]
      rw [hv, ok_bind, ← List.append_nil (opStr .unpack :: leBytes 2 n),
        run_unpack_step (α := utf8Decode (((data.drop off).take n).takeWhile (· ≠ 0)) >>=
            fun s => .ok { VmState.init .null with value := .str s }) (off := off + n) (parse_str .unpack n []) (by
          have hm : n % 65536 = n := by omega
          simp only [strInstr, execUnpack, VmState.unpackStr, hm]
          rw [if_neg (by omega)]
          cases utf8Decode (((data.drop off).take n).takeWhile (· ≠ 0)) <;> rfl)]
      cases utf8Decode (((data.drop off).take n).takeWhile (· ≠ 0)) with
      | error x => rfl
      | ok s => simp only [ok_bind, runVm_nil]
  rw [key]
  constructor
  · intro v
    rw [bind_ok_iff]
    constructor
    · rintro ⟨s, h1, h2⟩
      exact ⟨s, by simpa using h2.symm, (utf8Decode_iff _ _).mp h1⟩
    · rintro ⟨s, rfl, h⟩
      exact ⟨s, (utf8Decode_iff _ _).mpr h, rfl⟩
  · intro h
    unfold utf8Decode
    split
    · rename_i cs hcs
      exact absurd ((utf8Decode_iff _ _).mp (by unfold utf8Decode; rw [hcs])) (h _)
    · rfl

/-- C57: text is read back unchanged if and only if its UTF-8 encoding fits into the field and it contains no null
character; writing it never raises. -/
theorem C57_exactly_partial (mn mx : Option Int) (n : Nat) (hn : 1 ≤ n ∧ n ≤ 65535) (p u : Bytes)
    (hp : compileProg .pack (.prim .str mn mx (some n)) = .ok p)
    (hu : compileProg .unpack (.prim .str mn mx (some n)) = .ok u) (s : Str) (data : Bytes) (off : Nat)
    (hd : off + n ≤ data.length) :
    ∃ data', execPackProg p data off (.str s) = .ok data' ∧
      (execUnpackProg u data' off = .ok (.str s) ↔ (utf8Encode s).length ≤ n ∧ '\x00' ∉ s) := by
  have hl : (Elem.prim .str mn mx (some n)).LensOk := by
    simpa [Elem.LensOk] using hn
  have hlay : (Elem.prim .str mn mx (some n)).layout (.str s) = some (textLayout n s) := by
    simp [Elem.layout, TypeCode.integer]
  obtain ⟨h1, _⟩ := C25_pack _ p hp hl (by simp [Elem.NamesOk]) (.str s) _ hlay (by simp [Elem.ArraysOk]) data off
    (by rw [packS_textLayout_length]; exact hd)
  refine ⟨_, h1, ?_, ?_⟩
  · intro h
    have hlen : off + n ≤ (data.take off ++ textLayout n s ++ data.drop (off + (textLayout n s).length)).length := by
      simp only [List.length_append, List.length_take, List.length_drop, packS_textLayout_length]; omega
    obtain ⟨s', hs', he⟩ := ((C57_read mn mx n hn.2 u hu _ off hlen).1 _).mp h
    simp only [PyVal.str.injEq] at hs'
    subst hs'
    have hle : (utf8Encode s).length ≤ n := by
      rw [he]
      refine Nat.le_trans (List.takeWhile_sublist _).length_le ?_
      rw [List.length_take]; omega
    refine ⟨hle, ?_⟩
    intro hz
    have h0 : (0 : UInt8) ∈ utf8Encode s := by
      unfold utf8Encode
      exact List.mem_flatMap.mpr ⟨_, hz, by decide⟩
    rw [he] at h0
    have := List.all_eq_true.mp (List.all_takeWhile (p := fun x : UInt8 => decide (x ≠ 0))) 0 h0
    simp at this
  · rintro ⟨h2, h3⟩
    obtain ⟨d', h4, h5⟩ := C57_text_partial mn mx n hn p u hp hu s h2 h3 data off hd
    rw [h1] at h4
    simp only [Except.ok.injEq] at h4
    rw [h4]
    exact h5

/-! ### C58: arbitrary programs -/

/-- C58: whatever the program (also malformed ones), a successful run of `exec_pack_prog` keeps the
length of the buffer and all bytes before the offset. -/
theorem C58_frame (prog data r : Bytes) (off : Nat) (v : PyVal) (h : execPackProg prog data off v = .ok r) :
    r.length = data.length ∧ r.take off = data.take off := by
  simp only [execPackProg, bind_ok_iff, Except.ok.injEq] at h
  obtain ⟨m, h, rfl⟩ := h
  obtain ⟨h1, h2, _⟩ := runPack_frame true prog _ m h
  exact ⟨h1, h2⟩

/-- C58: a program that does not start with the header of the right kind is refused before
anything is written. -/
theorem C58_wrong_kind (d : Dir) (prog : Bytes) (m : Vm) (i : Instr) (rest : Bytes)
    (hp : parseInstr prog = .ok (some (i, rest))) (hi : isProgHeader d i = false) :
    runVm d true prog m = .error .runtimeError := by
  rw [runVm]
  split
  · rename_i h; rw [hp] at h; simp at h
  · rename_i h; rw [hp] at h; simp at h
  · rename_i i' rest' h
    rw [hp] at h
    simp only [Except.ok.injEq, Option.some.injEq, Prod.mk.injEq] at h
    obtain ⟨rfl, rfl⟩ := h
    simp [hi]

/-- C58: a pack program is not accepted as unpack program and vice versa. -/
theorem C58_not_interchangeable (e : Elem) (p u : Bytes) (hp : compileProg .pack e = .ok p)
    (hu : compileProg .unpack e = .ok u) (data : Bytes) (off : Nat) (v : PyVal) :
    execPackProg u data off v = .error .runtimeError ∧ execUnpackProg p data off = .error .runtimeError := by
  obtain ⟨c1, n1, _, rfl⟩ := compileProg_inv hp
  obtain ⟨c2, n2, _, rfl⟩ := compileProg_inv hu
  constructor
  · unfold execPackProg
    rw [C58_wrong_kind .pack _ _ _ _ (parse_prog .unpack n2 c2) rfl]
    rfl
  · unfold execUnpackProg
    rw [C58_wrong_kind .unpack _ _ _ _ (parse_prog .pack n1 c1) rfl]
    rfl

example : execPackProg [1, 0, 0, 0, 0, 3, 3, 9, 1, 0] [9, 9, 9, 9] 1 (.int 5) = .error .attributeError ∧
    execPackProg [1, 0, 0, 0, 0, 3, 3] [9, 9, 9, 9] 1 (.int 5) = .ok [9, 5, 5, 9] := by decide +kernel

end Apx
