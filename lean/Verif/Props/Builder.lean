import Verif.Proofs.Builder
import Verif.Props.Signature

/-! C97: elements made by calling the class `DataElement`. -/

namespace Apx

/-- C97: whatever calls a program makes, an element that the calls describe as `e` has the name it was
given, and its text is the text of `e`: a record holds the elements that were in the list when it was
made, followed by those appended to it, each as it is now. (`n` is the number of calls inside each other
that Python allows.) -/
theorem C97_text (cs : List BCall) (h : Nat) (name : Option Str) (e : Elem)
    (hb : Built (runCalls cs).2 h name e) (ids : Str → Option Int) (normalized : Bool) (n : Nat)
    (hn : e.levels ≤ n) :
    (runCalls cs).1.nameOf h = name ∧
      (runCalls cs).1.toStr ids normalized n h = e.toStr ids normalized :=
  ⟨(Built.str (runCalls_inv cs) ids normalized e h name hb).1,
    (Built.str (runCalls_inv cs) ids normalized e h name hb).2 n hn⟩

/-- C97: the calls describe every element they made, unless it contains itself. -/
theorem C97_described (cs : List BCall) (ev : BEvent) (h : Nat) (hev : ev ∈ (runCalls cs).2)
    (hm : ev.Makes h) (ha : Acc (InRecord (runCalls cs).2) h) :
    ∃ name e, Built (runCalls cs).2 h name e := by
  obtain ⟨o, ho, _⟩ := (runCalls_inv cs).made ev hev h hm
  exact built_of_acc (runCalls_inv cs) h ha (getElem?_some_lt ho)

/-- C97: an element that contains itself has no text: the attempt always raises. -/
theorem C97_cycle (cs : List BCall) (h : Nat) (hc : Relation.TransGen (InRecord (runCalls cs).2) h h)
    (ids : Str → Option Int) (normalized : Bool) (n : Nat) :
    ∃ x, (runCalls cs).1.toStr ids normalized n h = .error x := by
  generalize hr : (runCalls cs).1.toStr ids normalized n h = r
  cases r with
  | error x => exact ⟨x, rfl⟩
  | ok u => exact absurd hr (toStr_cycle (runCalls_inv cs) ids normalized n h u hc)

/-- C97: the text of an element whose limits come in pairs, whose fields have names, and whose names
contain no delimiter, is parsed as exactly that element. -/
theorem C97_parsed_partial (cs : List BCall) (h : Nat) (name : Option Str) (e : Elem)
    (hb : Built (runCalls cs).2 h name e) (hw : e.WellFormed) (hr : e.NoResolved)
    (ids : Str → Option Int) (normalized : Bool) (n : Nat) (hn : e.levels ≤ n) :
    ∃ text, (runCalls cs).1.toStr ids normalized n h = .ok text ∧ dataSignature text = .ok e := by
  obtain ⟨text, h1, h2⟩ := C22_same_element e hw hr ids normalized
  exact ⟨text, by rw [(C97_text cs h name e hb ids normalized n hn).2, h1], h2⟩

/-- C97: a negative array length is refused, and so is appending to an element that is no record; nothing
is changed then. -/
theorem C97_refused (s : BState) (f : IntFactory) (name : Option Str) (mn mx : Option Int) (k : Int)
    (hk : k < 0) (h c : Nat) (o p : BObj) (ho : s.objs[h]? = some o) (hp : s.objs[c]? = some p)
    (hr : ∀ l, o.kind ≠ .record l) :
    s.step (.int f name mn mx (some k)) = (s, .error .valueError) ∧
    s.step (.string name (some k)) = (s, .error .valueError) ∧
    s.step (.append h c) = (s, .error .parseError) := by
  refine ⟨?_, ?_, ?_⟩
  · simp [BState.step, BState.prim, setArrayLen, hk]
  · simp [BState.step, BState.prim, setArrayLen, hk]
  · obtain ⟨n, kind⟩ := o
    simp only [BState.step, hp, BState.append, ho]
    cases kind with
    | record l => exact absurd rfl (hr l)
    | prim _ _ _ _ => rfl
    | ref _ => rfl

/-- C97 is violated: one limit alone is not written, so it is lost. `DataElement.UInt8('x', minVal=1)`
has the text `C`. -/
example :
    ∃ (cs : List BCall) (e : Elem) (text : Str), Built (runCalls cs).2 0 (some "x".toList) e ∧
      (runCalls cs).1.toStr (fun _ => none) false 1 0 = .ok text ∧ dataSignature text ≠ .ok e := by
  refine ⟨[.int .UInt8 (some "x".toList) (some 1) none none], .prim .u8 (some 1) none none, "C".toList, ?_, ?_, ?_⟩
  · exact .int (f := .UInt8) (by simp [runCalls, BState.run, BState.step, BState.prim, setArrayLen, BState.new]) rfl
  · decide +kernel
  · intro hd
    have : dataSignature "C".toList = .ok (.prim .u8 none none none) := by decide +kernel
    rw [this] at hd
    cases hd

/-- C97 is violated: a field without a name gets the name `None`.
`DataElement.Record('r', [DataElement.UInt8()])` has the text `{"None"C}`. -/
example :
    ∃ (cs : List BCall) (e : Elem) (text : Str), Built (runCalls cs).2 1 (some "r".toList) e ∧
      (runCalls cs).1.toStr (fun _ => none) false 2 1 = .ok text ∧ dataSignature text ≠ .ok e := by
  refine ⟨[.int .UInt8 none none none none, .list [0], .record (some "r".toList) (some 0)],
    .record (.cons none (.prim .u8 none none none) .nil) none, "{\"None\"C}".toList, ?_, ?_, ?_⟩
  · refine .record (es := some 0) ?_ ?_
    · simp [runCalls, BState.run, BState.step, BState.prim, setArrayLen, BState.new, BState.record, BState.copied]
    · have : childrenIn (runCalls [.int .UInt8 none none none none, .list [0],
          .record (some "r".toList) (some 0)]).2 1 = [0] := by decide +kernel
      rw [this]
      refine .cons (.int (f := .UInt8) ?_ rfl) .nil
      simp [runCalls, BState.run, BState.step, BState.prim, setArrayLen, BState.new, BState.record, BState.copied]
  · decide +kernel
  · intro hd
    have : dataSignature "{\"None\"C}".toList =
        .ok (.record (.cons (some "None".toList) (.prim .u8 none none none) .nil) none) := by decide +kernel
    rw [this] at hd
    cases hd

/-- C97 is violated: a data signature made from an element is of no use. It neither has a text nor a
length, whatever the element. -/
theorem C97_signature_violated (e : Elem) (ids : Str → Option Int) (normalized : Bool) :
    (signatureOfElement e).str ids = .error .typeError ∧
    (signatureOfElement e).toStr ids normalized = .error .attributeError ∧
    (signatureOfElement e).packLen = .error .attributeError := ⟨rfl, rfl, rfl⟩

section Examples

/-- `a = UInt8('a', 0, 7)`, `xs = [a]`, `r = Record('r', xs)`, `b = String('b', 4)`, `xs.append(b)` (not seen
by `r`), `q = Record()`, `q.append(r)`, `r.append(b)` (seen in `q`). -/
def bdCalls : List BCall :=
  [.int .UInt8 (some "a".toList) (some 0) (some 7) none, .list [0], .record (some "r".toList) (some 0),
    .string (some "b".toList) (some 4), .extend 0 2, .record none none, .append 3 1, .append 1 2]

/-- `{"r"{"a"C(0,7)"b"a[4]}}` -/
def bdElem : Elem :=
  .record (.cons (some "r".toList) (.record (.cons (some "a".toList) (.prim .u8 (some 0) (some 7) none)
    (.cons (some "b".toList) (.prim .str none none (some 4)) .nil)) none) .nil) none

theorem bdBuilt : Built (runCalls bdCalls).2 3 none bdElem := by
  have h3 : childrenIn (runCalls bdCalls).2 3 = [1] := by decide +kernel
  have h1 : childrenIn (runCalls bdCalls).2 1 = [0, 2] := by decide +kernel
  have mem : ∀ ev : BEvent, (∃ i, (runCalls bdCalls).2[i]? = some ev) → ev ∈ (runCalls bdCalls).2 :=
    fun _ ⟨_, h⟩ => List.mem_of_getElem? h
  refine .record (mem ⟨.record none none, .ok (some 3)⟩ ⟨2, rfl⟩) ?_
  rw [h3]
  refine .cons (.record (mem ⟨.record (some "r".toList) (some 0), .ok (some 1)⟩ ⟨5, rfl⟩) ?_) .nil
  rw [h1]
  exact .cons (.int (mem ⟨.int .UInt8 (some "a".toList) (some 0) (some 7) none, .ok (some 0)⟩ ⟨7, rfl⟩) rfl)
    (.cons (.text (mem ⟨.string (some "b".toList) (some 4), .ok (some 2)⟩ ⟨4, rfl⟩)) .nil)

example : (runCalls bdCalls).1.toStr (fun _ => none) false 3 3 = .ok "{\"r\"{\"a\"C(0,7)\"b\"a[4]}}".toList := by
  decide +kernel

example : ∃ text, (runCalls bdCalls).1.toStr (fun _ => none) false 3 3 = .ok text ∧ dataSignature text = .ok bdElem :=
  C97_parsed_partial bdCalls 3 none bdElem bdBuilt
    ⟨rfl, ⟨_, rfl, by unfold QuoteFree; decide⟩, ⟨rfl, ⟨_, rfl, by unfold QuoteFree; decide⟩, rfl,
      ⟨_, rfl, by unfold QuoteFree; decide⟩, rfl, trivial⟩, trivial⟩
    ⟨⟨trivial, trivial, trivial⟩, trivial⟩ _ _ _ (by decide)

/-- Every element made here is described by the calls. -/
example : ∃ name e, Built (runCalls bdCalls).2 1 name e := by
  have h1 : childrenIn (runCalls bdCalls).2 1 = [0, 2] := by decide +kernel
  have h0 : childrenIn (runCalls bdCalls).2 0 = [] := by decide +kernel
  have h2 : childrenIn (runCalls bdCalls).2 2 = [] := by decide +kernel
  refine C97_described bdCalls ⟨.record (some "r".toList) (some 0), .ok (some 1)⟩ 1
    (List.mem_of_getElem? (i := 5) rfl) ⟨rfl, by simp⟩ (.intro _ ?_)
  intro c hc
  unfold InRecord at hc
  rw [h1] at hc
  simp only [List.mem_cons, List.not_mem_nil, or_false] at hc
  rcases hc with rfl | rfl
  · exact .intro _ fun d hd => by unfold InRecord at hd; rw [h0] at hd; cases hd
  · exact .intro _ fun d hd => by unfold InRecord at hd; rw [h2] at hd; cases hd

/-- Appending to the integer `a` is refused. -/
example : (runCalls bdCalls).1.step (.append 0 1) = ((runCalls bdCalls).1, .error .parseError) :=
  (C97_refused (runCalls bdCalls).1 .SInt8 none none none (-1) (by decide) 0 1 _ _ rfl rfl (by simp)).2.2

/-- A record put into itself. -/
example (n : Nat) : ∃ x, (runCalls [.record none none, .append 0 0]).1.toStr (fun _ => none) false n 0 = .error x :=
  C97_cycle _ 0 (.single (show 0 ∈ _ by decide)) _ _ n

end Examples

end Apx
