import Verif.Props.GenPrint
import Verif.Spec.CReceive

/-! C67: member names with a suffix inside nested records. -/

namespace Apx

/-! ### Members that do not exist -/

theorem CFields.update_missing {n b : Str} {g : CVal → Option CVal} : ∀ {cs cs' : CFields}, cs.update n g = some cs' →
    cs.get b = none → cs'.get b = none
  | .nil, _, h, _ => by cases h
  | .cons k v r, cs', h, hb => by
    simp only [CFields.get] at hb
    split at hb
    · cases hb
    rename_i hk
    simp only [CFields.update] at h
    split at h
    · simp only [Option.map_eq_some_iff] at h
      obtain ⟨v', -, rfl⟩ := h
      simp only [CFields.get, if_neg hk, hb]
    · simp only [Option.map_eq_some_iff] at h
      obtain ⟨r', h1, rfl⟩ := h
      simp only [CFields.get, if_neg hk, CFields.update_missing h1 hb]

theorem CFields.update_present {n k : Str} {g : CVal → Option CVal} : ∀ {cs cs' : CFields} {v : CVal}, cs.update n g = some cs' →
    cs.get k = some v → cs'.get k = some v ∨ ∃ v', g v = some v' ∧ cs'.get k = some v'
  | .nil, _, _, h, _ => by cases h
  | .cons a w r, cs', v, h, hb => by
    simp only [CFields.get] at hb
    simp only [CFields.update] at h
    split at h
    · simp only [Option.map_eq_some_iff] at h
      obtain ⟨w', h1, rfl⟩ := h
      split at hb
      · rename_i hk
        cases hb
        exact .inr ⟨w', h1, by simp only [CFields.get, if_pos hk]⟩
      · rename_i hk
        exact .inl (by simp only [CFields.get, if_neg hk, hb])
    · simp only [Option.map_eq_some_iff] at h
      obtain ⟨r', h1, rfl⟩ := h
      split at hb
      · rename_i hk
        exact .inl (by simp only [CFields.get, if_pos hk, hb])
      · rename_i hk
        simp only [CFields.get, if_neg hk]
        exact CFields.update_present h1 hb

/-- A pointer to a struct whose member `k` is a struct without member `b`. -/
def CVal.Missing (k b : Str) (c : CVal) : Prop :=
  ∃ cs cs2, c = .ptr (.struct cs) ∧ cs.get k = some (.struct cs2) ∧ cs2.get b = none

/-- What an assignment leaves alone. -/
def KeepsStructs (f : CVal → Option CVal) : Prop := (∀ cs, f (.struct cs) = none) ∧ ∀ cs, f (.ptr (.struct cs)) = none

theorem assignInt_keeps (n : Int) : KeepsStructs (assignInt n) := ⟨fun _ => rfl, fun _ => rfl⟩

theorem assignChars_keeps (bs : Bytes) : KeepsStructs (assignChars bs) := ⟨fun _ => rfl, fun _ => rfl⟩

theorem update_struct {i : Nat} {f : CVal → Option CVal} (hf : KeepsStructs f) {p : CPath} {cs : CFields} {c : CVal}
    (h : CVal.update i f p (.struct cs) = some c) :
    ∃ n g cs', cs.update n g = some cs' ∧ c = .struct cs' ∧ ∃ q, g = CVal.update i f q := by
  cases p with
  | nil => simp only [CVal.update, hf.1] at h; cases h
  | cons a p =>
    cases a <;> simp only [CVal.update] at h
    case dot n =>
      simp only [Option.map_eq_some_iff] at h
      obtain ⟨cs', h1, rfl⟩ := h
      exact ⟨n, _, cs', h1, rfl, p, rfl⟩
    all_goals cases h

theorem update_keeps {i : Nat} {f : CVal → Option CVal} (hf : KeepsStructs f) {p : CPath} {k b : Str} {c c' : CVal}
    (hc : c.Missing k b) (h : CVal.update i f p c = some c') : c'.Missing k b := by
  obtain ⟨cs, cs2, rfl, h1, h2⟩ := hc
  have key : ∃ n g cs', cs.update n g = some cs' ∧ c' = .ptr (.struct cs') ∧ ∃ q, g = CVal.update i f q := by
    cases p with
    | nil => simp only [CVal.update, hf.2] at h; cases h
    | cons a p =>
      cases a <;> simp only [CVal.update] at h
      case star =>
        simp only [Option.map_eq_some_iff] at h
        obtain ⟨t, h3, rfl⟩ := h
        obtain ⟨n, g, cs', h4, rfl, h5⟩ := update_struct hf h3
        exact ⟨n, g, cs', h4, rfl, h5⟩
      case arrow n =>
        simp only [Option.map_eq_some_iff] at h
        obtain ⟨cs', h3, rfl⟩ := h
        exact ⟨n, _, cs', h3, rfl, p, rfl⟩
      all_goals cases h
  obtain ⟨n, g, cs', h3, rfl, q, rfl⟩ := key
  rcases CFields.update_present h3 h1 with h4 | ⟨v', h4, h5⟩
  · exact ⟨cs', cs2, rfl, h4, h2⟩
  · obtain ⟨n', g', cs2', h6, rfl, -⟩ := update_struct hf h4
    exact ⟨cs', cs2', rfl, h5, CFields.update_missing h6 h2⟩

/-! ### Execution -/

theorem write_arg {m m' : CMach} {bs : Bytes} {a : Nat} (h : m.write bs a = some m') : m'.arg = m.arg := by
  unfold CMach.write at h
  split at h
  · cases h; rfl
  · cases h

theorem read_arg {m : CMach} {n a : Nat} {r : Bytes × CMach} (h : m.read n a = some r) : r.2.arg = m.arg := by
  unfold CMach.read at h
  split at h
  · cases h; rfl
  · cases h

theorem assign_keeps {m m' : CMach} {i : Nat} {v : CPath} {f : CVal → Option CVal} {k b : Str} (hf : KeepsStructs f)
    (hm : m.arg.Missing k b) (h : m.assign i v f = some m') : m'.arg.Missing k b := by
  simp only [CMach.assign, Option.map_eq_some_iff] at h
  obtain ⟨c, h1, rfl⟩ := h
  exact update_keeps hf hm h1

theorem simple_keeps {i : Nat} {m m' : CMach} {s : CSimple} {k b : Str} (hm : m.arg.Missing k b) (h : s.run i m = some m') :
    m'.arg.Missing k b := by
  cases s <;> simp only [CSimple.run, Option.bind_eq_bind, Option.bind_eq_some_iff] at h
  · obtain ⟨_, _, _, _, _, _, h⟩ := h
    rw [write_arg h]; exact hm
  · obtain ⟨_, _, _, _, _, _, h⟩ := h
    rw [write_arg h]; exact hm
  · obtain ⟨_, _, r, h1, h⟩ := h
    exact assign_keeps (assignInt_keeps _) (by rw [read_arg h1]; exact hm) h
  · obtain ⟨_, _, r, h1, h⟩ := h
    exact assign_keeps (assignInt_keeps _) (by rw [read_arg h1]; exact hm) h
  · obtain ⟨_, _, h⟩ := h
    split at h
    · cases h; exact hm
    · cases h
  · obtain ⟨_, _, _, _, _, _, h⟩ := h
    split at h
    · simp only [Option.bind_eq_some_iff] at h
      obtain ⟨_, _, h⟩ := h
      rw [write_arg h]; exact hm
    · cases h
  · obtain ⟨_, _, _, _, r, h1, h⟩ := h
    exact assign_keeps (assignChars_keeps _) (by rw [read_arg h1]; exact hm) h
  · obtain ⟨_, _, h⟩ := h
    rw [write_arg h]; exact hm

theorem simples_keep {i : Nat} {k b : Str} {l : List CSimple} : ∀ {m m' : CMach}, m.arg.Missing k b →
    runSimples i m l = some m' → m'.arg.Missing k b := by
  induction l with
  | nil => intro m m' hm h; cases h; exact hm
  | cons s l ih =>
    intro m m' hm h
    simp only [runSimples, Option.bind_eq_some_iff] at h
    obtain ⟨m1, h1, h2⟩ := h
    exact ih (simple_keeps hm h1) h2

theorem rounds_keep {l : List CSimple} {k b : Str} (n : Nat) : ∀ {i : Nat} {m m' : CMach}, m.arg.Missing k b →
    runRounds l n i m = some m' → m'.arg.Missing k b := by
  induction n with
  | zero => intro i m m' hm h; cases h; exact hm
  | succ n ih =>
    intro i m m' hm h
    simp only [runRounds, Option.bind_eq_some_iff] at h
    obtain ⟨m1, h1, h2⟩ := h
    exact ih (simples_keep hm h1) h2

theorem stmt_keeps {bits : Option Nat} {m m' : CMach} {s : CStmt} {k b : Str} (hm : m.arg.Missing k b)
    (h : s.run bits m = some m') : m'.arg.Missing k b := by
  cases s with
  | simple s => exact simple_keeps hm h
  | loop n body =>
    simp only [CStmt.run, Option.bind_eq_some_iff] at h
    obtain ⟨b, -, h⟩ := h
    split at h
    · exact rounds_keep n hm h
    · cases h

/-- Every statement of code that has been executed has been executed with an argument that lacks the member. -/
theorem tops_ran {bits : Option Nat} {k b : Str} {code : List CStmt} : ∀ {m m' : CMach}, m.arg.Missing k b →
    runTops bits m (code.map CTop.stmt) = some m' → ∀ s ∈ code, ∃ m1 m2, m1.arg.Missing k b ∧ s.run bits m1 = some m2 := by
  induction code with
  | nil => intro m m' _ _ s hs; cases hs
  | cons x code ih =>
    intro m m' hm h s hs
    simp only [List.map_cons, runTops, CTop.run, Option.bind_eq_some_iff] at h
    obtain ⟨m1, h1, h2⟩ := h
    rcases List.mem_cons.mp hs with rfl | hs
    · exact ⟨m, m1, hm, h1⟩
    · exact ih (stmt_keeps hm h1) h2 s hs

/-- An access to the missing member is not defined. -/
theorem missing_stuck {i : Nat} {m : CMach} {s : CSimple} {k b : Str} {q : CPath} (hm : m.arg.Missing k b)
    (hs : s.value = [.arrow k, .dot b] ++ q) : s.run i m = none := by
  obtain ⟨cs, cs2, he, h1, h2⟩ := hm
  have hget : m.arg.get i ([.arrow k, .dot b] ++ q) = none := by
    rw [he]; simp [CVal.get, h1, h2]
  have hnone : ∀ (cs : CFields) (g : CVal → Option CVal), cs.get b = none → cs.update b g = none := by
    intro cs g
    induction cs using CFields.rec (motive_1 := fun _ => True) with
    | nil => intro _; rfl
    | cons a v r _ ih =>
      intro h
      simp only [CFields.get] at h
      split at h
      · cases h
      · rename_i hk
        simp only [CFields.update, if_neg hk, ih h, Option.map_none]
    | _ => trivial
  have hupd : ∀ f, m.arg.update i f ([.arrow k, .dot b] ++ q) = none := by
    intro f
    have hsome : ∀ cs : CFields, cs.get k = some (.struct cs2) →
        cs.update k (CVal.update i f (.dot b :: q)) = none := by
      intro cs
      induction cs using CFields.rec (motive_1 := fun _ => True) with
      | nil => intro h; cases h
      | cons a v r _ ih =>
        intro h
        simp only [CFields.get] at h
        split at h
        · rename_i hk
          cases h
          simp only [CFields.update, if_pos hk, CVal.update, hnone _ _ h2, Option.map_none]
        · rename_i hk
          simp only [CFields.update, if_neg hk, ih h, Option.map_none]
      | _ => trivial
    rw [he]
    simp only [List.cons_append, List.nil_append, CVal.update, hsome cs h1, Option.map_none]
  cases s <;> simp only [CSimple.value] at hs
  case storeByte => subst hs; simp only [CSimple.run, hget]; rfl
  case packLE => subst hs; simp only [CSimple.run, hget]; rfl
  case copyIn => subst hs; simp only [CSimple.run, hget]; rfl
  case advance => cases hs
  case zero => cases hs
  all_goals
    subst hs
    cases hr : CSimple.run i m _ with
    | none => rfl
    | some m' =>
      exfalso
      simp only [CSimple.run, Option.bind_eq_bind, Option.bind_eq_some_iff, CMach.assign, Option.map_eq_some_iff] at hr
      first
        | (obtain ⟨_, _, r, g1, _, g2, _⟩ := hr; rw [read_arg g1, hupd] at g2; cases g2)
        | (obtain ⟨_, _, _, _, r, g1, _, g2, _⟩ := hr; rw [read_arg g1, hupd] at g2; cases g2)

/-! ### Generated code -/

theorem genFields_member {sfx : Str} {op : COp} {val : CName} {n : Option Str} {e : Elem} : ∀ (fs : Fields) {lv : CLocals} {off : Nat}
    {r : List CStmt × Nat × CLocals}, genFields sfx op lv off val fs = .ok r → fs.Member n e →
    ∃ lv' off' r', genElem sfx op lv' off' (val.child sfx n) e = .ok r' ∧ ∀ s ∈ r'.1, s ∈ r.1
  | .nil, _, _, _, _, hm => hm.elim
  | .cons name x rest, lv, off, r, h, hm => by
    simp only [genFields, bind_ok_iff, Except.ok.injEq] at h
    obtain ⟨r1, h1, r2, h2, rfl⟩ := h
    rcases hm with ⟨rfl, rfl⟩ | hm
    · exact ⟨_, _, r1, h1, fun s hs => List.mem_append_left _ hs⟩
    · obtain ⟨lv', off', r', g1, g2⟩ := genFields_member rest h2 hm
      exact ⟨lv', off', r', g1, fun s hs => List.mem_append_right _ (g2 s hs)⟩

theorem member_names {n : Option Str} {e : Elem} : ∀ {fs : Fields}, fs.Member n e → n ∈ fs.names
  | .nil, h => h.elim
  | .cons name x rest, h => by
    rcases h with ⟨rfl, rfl⟩ | h
    · exact List.mem_cons_self
    · exact List.mem_cons_of_mem _ (member_names h)

theorem typed_member {sfx k : Str} {e : Elem} : ∀ {fs : Fields} {cs : CFields}, fs.Typed sfx cs →
    fs.names.Nodup → fs.Member (some k) e → ∃ c, e.Typed sfx c ∧ cs.get (k ++ sfx) = some c
  | .nil, _, _, _, hm => hm.elim
  | .cons none x rest, cs, h, _, _ => by cases cs <;> exact h.elim
  | .cons (some a) x rest, .nil, h, _, _ => h.elim
  | .cons (some a) x rest, .cons a' c cs, h, hn, hm => by
    obtain ⟨rfl, h2, h3⟩ := h
    have hn' : some a ∉ rest.names ∧ rest.names.Nodup := List.nodup_cons.mp hn
    rcases hm with ⟨h4, rfl⟩ | hm
    · cases h4
      exact ⟨c, h2, by simp [CFields.get]⟩
    · obtain ⟨c', g1, g2⟩ := typed_member h3 hn'.2 hm
      refine ⟨c', g1, ?_⟩
      rw [CFields.get, if_neg, g2]
      intro e
      rw [List.append_cancel_right e] at hn'
      exact hn'.1 (member_names hm)

theorem typed_missing {sfx b : Str} : ∀ {fs : Fields} {cs : CFields}, fs.Typed sfx cs →
    (∀ a, some a ∈ fs.names → b ≠ a ++ sfx) → cs.get b = none
  | .nil, .nil, _, _ => rfl
  | .nil, .cons _ _ _, h, _ => h.elim
  | .cons none x rest, cs, h, _ => by cases cs <;> exact h.elim
  | .cons (some a) x rest, .nil, h, _ => h.elim
  | .cons (some a) x rest, .cons a' c cs, h, hb => by
    obtain ⟨rfl, -, h3⟩ := h
    rw [CFields.get, if_neg (hb a List.mem_cons_self).symm]
    exact typed_missing h3 (fun a ha => hb a (List.mem_cons_of_mem _ ha))

/-- C67 is violated with a suffix for member names and nested records: the suffix is left out inside. Whatever record
has a member `k` that is a record with an integer `b`, its write function and its read function access the member `b`
where the struct, whose member names all end in the suffix, has none; there is no object of the type and no buffer for
which a call is defined. -/
theorem C67_nested_suffix_violated (types : List NamedType) (sfx : Str) (e e1 : Elem) (fs fs2 : Fields) (k b : Str)
    (tc : TypeCode) (mn mx : Option Int) (h1 : e.resolveType types = .ok e1)
    (h2 : e1.resolveDataElement = .ok (.record fs none)) (hn : fs.names.Nodup) (hk : fs.Member (some k) (.record fs2 none))
    (hb : fs2.Member (some b) (.prim tc mn mx none)) (hi : tc.integer.isSome)
    (hm : ∀ a, some a ∈ fs2.names → b ≠ a ++ sfx) (op : COp) (off len : Nat) (direct : Bool) (f : CFunc)
    (hf : genFunc types sfx op true true off direct e = .ok (f, len)) (c : CVal)
    (hr : (Elem.record fs none).Typed sfx c) (buf : Bytes) : f.call buf (.ptr c) = none := by
  cases hc : f.call buf (.ptr c) with
  | none => rfl
  | some m =>
    exfalso
    obtain ⟨t, ht⟩ := Option.isSome_iff_exists.mp hi
    simp only [genFunc, h1, h2, ok_bind, bind_ok_iff, if_true, Except.ok.injEq, Prod.mk.injEq] at hf
    obtain ⟨r, h3, rfl, rfl⟩ := hf
    rw [genElem_record] at h3
    obtain ⟨lv1, off1, r1, h4, h5⟩ := genFields_member fs h3 hk
    rw [genElem_record] at h4
    obtain ⟨lv2, off2, r2, h6, h7⟩ := genFields_member fs2 h4 hb
    rw [genElem_int _ _ _ _ _ _ tc mn mx t (resolve_prim _ _ _ _) ht] at h6
    cases h6
    unfold CFunc.call at hc
    simp only [Option.bind_eq_some_iff] at hc
    obtain ⟨m1, h8, -⟩ := hc
    rw [runTops_append] at h8
    simp only [Option.bind_eq_some_iff] at h8
    obtain ⟨m2, h9, h10⟩ := h8
    rw [runTops_append] at h10
    simp only [Option.bind_eq_some_iff] at h10
    obtain ⟨m3, h10, -⟩ := h10
    have harg : m2.arg = .ptr c := by
      unfold funcHead at h9
      cases hbp : r.2.2.bufptr <;> cases op <;> by_cases hl : r.2.1 > 1 <;> simp [hbp, hl, runTops, CTop.run] at h9
      all_goals first
        | rw [← h9]
        | rw [← h9.2]
    have hmiss : (CVal.ptr c).Missing (k ++ sfx) b := by
      cases c with
      | struct cs =>
        obtain ⟨c', g1, g2⟩ := typed_member hr hn hk
        cases c' with
        | struct cs' => exact ⟨cs, cs', rfl, g2, typed_missing g1 hm⟩
        | _ => exact g1.elim
      | _ => exact hr.elim
    have hpath : ((CName.child sfx (some b) (CName.child sfx (some k) (.var true)))).path = [.arrow (k ++ sfx), .dot b] := rfl
    rw [hpath] at h7
    obtain ⟨s, hs, q, hq⟩ := emitInteger_value op lv2.bufptr [.arrow (k ++ sfx), .dot b] t off2
    obtain ⟨a1, a2, q1, q2⟩ := tops_ran (by rw [harg]; exact hmiss) h10 _ (h5 _ (h7 _ (List.mem_map.mpr ⟨_, hs, rfl⟩)))
    simp only [CStmt.run] at q2
    rw [missing_stuck q1 hq] at q2
    cases q2

/-- Such a type, for which there are both functions, and an object. -/
example : ∃ (fs fs2 : Fields) (c : CVal),
    (Elem.record fs none).resolveType [] = .ok (.record fs none) ∧
    (Elem.record fs none).resolveDataElement = .ok (.record fs none) ∧ fs.names.Nodup ∧
    fs.Member (some "a".toList) (.record fs2 none) ∧ fs2.Member (some "b".toList) (.prim .u8 none none none) ∧
    (∀ a, some a ∈ fs2.names → "b".toList ≠ a ++ "_RE".toList) ∧
    (genFunc [] "_RE".toList .pack true true 0 false (.record fs none)).toOption.isSome ∧
    (genFunc [] "_RE".toList .unpack true true 0 false (.record fs none)).toOption.isSome ∧
    (Elem.record fs none).Typed "_RE".toList c := by
  refine ⟨.cons (some "a".toList) (.record (.cons (some "b".toList) (.prim .u8 none none none) .nil) none) .nil,
    .cons (some "b".toList) (.prim .u8 none none none) .nil,
    .struct (.cons "a_RE".toList (.struct (.cons "b_RE".toList (.int 3) .nil)) .nil),
    by decide +kernel, by decide +kernel, by decide, .inl ⟨rfl, rfl⟩, .inl ⟨rfl, rfl⟩, ?_, by decide +kernel,
    by decide +kernel, ⟨rfl, ⟨rfl, ⟨rfl, 3, rfl⟩, trivial⟩, trivial⟩⟩
  intro a ha
  simp only [Fields.names, List.mem_cons, Option.some.injEq, List.not_mem_nil, or_false] at ha
  subst ha
  decide

end Apx
