import Verif.Props.Builder
import Verif.Spec.Layout

/-! C97: what is read back from the text of any element, and when that is the element. -/

namespace Apx

mutual
/-- The element a text speaks of: a limit without the other is left out, and a missing name is `None`. -/
def Elem.asText : Elem → Elem
  | .prim tc mn mx a => if mn.isSome = mx.isSome then .prim tc mn mx a else .prim tc none none a
  | .record fs a => .record fs.asText a
  | e => e
/-- See `Elem.asText`. -/
def Fields.asText : Fields → Fields
  | .nil => .nil
  | .cons n e r => .cons (some (n.getD "None".toList)) e.asText r.asText
end

mutual
theorem Elem.asText_toStr (ids : Str → Option Int) (normalized : Bool) :
    ∀ e : Elem, e.asText.toStr ids normalized = e.toStr ids normalized
  | .prim tc mn mx a => by
    unfold Elem.asText
    split
    · rfl
    · cases mn <;> cases mx <;> simp_all [Elem.toStr, rangeStr]
  | .record fs a => by simp only [Elem.asText, Elem.toStr, Fields.asText_toStr ids normalized fs]
  | .refType _ _ => rfl
  | .refName _ => rfl
  | .refId _ => rfl
theorem Fields.asText_toStr (ids : Str → Option Int) (normalized : Bool) :
    ∀ fs : Fields, fs.asText.toStr ids normalized = fs.toStr ids normalized
  | .nil => rfl
  | .cons n e r => by
    simp only [Fields.asText, Fields.toStr, Elem.asText_toStr ids normalized e, Fields.asText_toStr ids normalized r]
    cases n <;> rfl
end

mutual
theorem Elem.asText_noResolved : ∀ e : Elem, e.NoResolved → e.asText.NoResolved
  | .prim tc mn mx a, _ => by unfold Elem.asText; split <;> trivial
  | .record fs _, h => Fields.asText_noResolved fs h
  | .refType _ _, h => h
  | .refName _, _ => trivial
  | .refId _, _ => trivial
theorem Fields.asText_noResolved : ∀ fs : Fields, fs.NoResolved → fs.asText.NoResolved
  | .nil, _ => trivial
  | .cons _ e r, h => ⟨Elem.asText_noResolved e h.1, Fields.asText_noResolved r h.2⟩
end

mutual
theorem Elem.asText_eq : ∀ e : Elem, e.WellFormed → e.asText = e
  | .prim tc mn mx a, h => by unfold Elem.asText; exact if_pos h
  | .record fs a, h => by simp only [Elem.asText, Fields.asText_eq fs h.2]
  | .refType _ _, _ => rfl
  | .refName _, _ => rfl
  | .refId _, _ => rfl
theorem Fields.asText_eq : ∀ fs : Fields, fs.WellFormed → fs.asText = fs
  | .nil, _ => rfl
  | .cons n e r, h => by
    obtain ⟨⟨s, rfl, _⟩, h1, h2⟩ := h
    simp only [Fields.asText, Elem.asText_eq e h1, Fields.asText_eq r h2, Option.getD_some]
end

/-- C97: whatever the limits and names, the text of an element is read as the element without the limits that lack the
other one, and with the name `None` for fields without a name (if the names contain no delimiter). -/
theorem C97_read (cs : List BCall) (h : Nat) (name : Option Str) (e : Elem) (hb : Built (runCalls cs).2 h name e)
    (hw : e.asText.WellFormed) (hr : e.NoResolved) (ids : Str → Option Int) (normalized : Bool) (n : Nat)
    (hn : e.levels ≤ n) :
    ∃ text, (runCalls cs).1.toStr ids normalized n h = .ok text ∧ dataSignature text = .ok e.asText := by
  obtain ⟨text, h1, h2⟩ := C22_same_element e.asText hw (e.asText_noResolved hr) ids normalized
  exact ⟨text, by rw [(C97_text cs h name e hb ids normalized n hn).2, ← e.asText_toStr, h1], h2⟩

/-- C97, exactly, for elements whose names contain no delimiter: an element is read back from its text if and only if its
limits come in pairs and its fields have names. -/
theorem C97_exactly (cs : List BCall) (h : Nat) (name : Option Str) (e : Elem) (hb : Built (runCalls cs).2 h name e)
    (hw : e.asText.WellFormed) (hr : e.NoResolved) (ids : Str → Option Int) (normalized : Bool) (n : Nat)
    (hn : e.levels ≤ n) :
    ∃ text, (runCalls cs).1.toStr ids normalized n h = .ok text ∧ (dataSignature text = .ok e ↔ e.WellFormed) := by
  obtain ⟨text, h1, h2⟩ := C97_read cs h name e hb hw hr ids normalized n hn
  refine ⟨text, h1, ?_, ?_⟩
  · intro h3
    rw [h2, Except.ok.injEq] at h3
    rw [← h3]
    exact hw
  · intro h3
    rw [h2, e.asText_eq h3]

/-- C97 is violated: one limit alone is never written, so it is lost, whatever the type, the name, the limit and the
array length. -/
theorem C97_one_limit_violated (cs : List BCall) (h : Nat) (name : Option Str) (tc : TypeCode) (mn mx : Option Int)
    (a : Option Nat) (hb : Built (runCalls cs).2 h name (.prim tc mn mx a)) (hl : mn.isSome ≠ mx.isSome)
    (ids : Str → Option Int) (normalized : Bool) (n : Nat) :
    ∃ text, (runCalls cs).1.toStr ids normalized (n + 1) h = .ok text ∧
      dataSignature text = .ok (.prim tc none none a) ∧ dataSignature text ≠ .ok (.prim tc mn mx a) := by
  have e : (Elem.prim tc mn mx a).asText = .prim tc none none a := by unfold Elem.asText; rw [if_neg hl]
  obtain ⟨text, h1, h2⟩ := C97_read cs h name _ hb (by rw [e]; exact rfl) trivial ids normalized (n + 1)
    (by simp [Elem.levels])
  rw [e] at h2
  refine ⟨text, h1, h2, ?_⟩
  rw [h2]
  intro h3
  cases h3
  exact hl rfl

theorem Fields.wellFormed_names : ∀ fs : Fields, fs.WellFormed → none ∉ fs.names
  | .nil, _ => by simp [Fields.names]
  | .cons n e r, h => by
    obtain ⟨⟨s, rfl, _⟩, _, h2⟩ := h
    simpa [Fields.names] using Fields.wellFormed_names r h2

/-- C97 is violated: a record with a field that has no name is never read back; the field gets the name `None`. -/
theorem C97_no_name_violated (cs : List BCall) (h : Nat) (name : Option Str) (fs : Fields) (a : Option Nat)
    (hb : Built (runCalls cs).2 h name (.record fs a)) (hno : none ∈ fs.names)
    (hw : (Elem.record fs a).asText.WellFormed) (hr : (Elem.record fs a).NoResolved) (ids : Str → Option Int)
    (normalized : Bool) (n : Nat) (hn : (Elem.record fs a).levels ≤ n) :
    ∃ text, (runCalls cs).1.toStr ids normalized n h = .ok text ∧ dataSignature text ≠ .ok (.record fs a) := by
  obtain ⟨text, h1, h2⟩ := C97_exactly cs h name _ hb hw hr ids normalized n hn
  refine ⟨text, h1, fun h3 => ?_⟩
  have hwf : fs.WellFormed := (h2.mp h3).2
  exact Fields.wellFormed_names fs hwf hno

section Examples

/-- `x = UInt8('x', minVal=1)`, `r = Record('r', [UInt8()])`: the hypotheses hold. -/
example : Built (runCalls [.int .UInt8 (some "x".toList) (some 1) none none]).2 0 (some "x".toList)
    (.prim .u8 (some 1) none none) :=
  .int (f := .UInt8) (by simp [runCalls, BState.run, BState.step, BState.prim, setArrayLen, BState.new]) rfl

/-- `{"None"C}` -/
example : (Elem.record (.cons none (.prim .u8 none none none) .nil) none).asText.WellFormed ∧
    none ∈ (Fields.cons none (.prim .u8 none none none) .nil).names :=
  ⟨⟨rfl, ⟨_, rfl, by unfold QuoteFree; decide⟩, rfl, trivial⟩, by simp [Fields.names]⟩

end Examples

end Apx
