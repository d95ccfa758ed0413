import Verif.Model.Writer
import Verif.Props.RoundTrip
import Verif.Props.PortAttr
import Verif.Props.Grammar

/-! C99: lines made with `apx.apx_writer` and the AUTOSAR port classes say what they were made from. -/

namespace Apx

theorem WSignature.str_eq (k : Char) (name dsg : Str) (attr : Option Str) :
    (WSignature.mk [k] name dsg attr).str = lineText k name dsg (attr.filter (fun a => a ≠ [])) := by
  cases attr with
  | none => simp [WSignature.str, lineText]
  | some a => cases a <;> simp [WSignature.str, lineText, Option.filter]

/-- C99: the text of an `ApxSignature` for a port, appended to a node, adds the port with that name, data signature and
attributes, on the side its letter says; no attributes and empty attributes are both written as none. -/
theorem C99_port_line (n : Node) (side : Side) (name dsg : Str) (attr : Option Str)
    (hn : '"' ∉ name ∧ '#' ∉ name ∧ '\n' ∉ name) (hd : dsg ≠ [] ∧ ':' ∉ dsg ∧ '#' ∉ dsg ∧ '\n' ∉ dsg)
    (he : dsg.getLast? ≠ some ' ' ∧ dsg.getLast? ≠ some '\r') (ha : ∀ a, attr = some a → AttrOk a) :
    n.appendText (WSignature.mk [if side = .require then 'R' else 'P'] name dsg attr).str =
      (mkPort name dsg (if attr = some [] then none else attr) >>= n.addPort side) := by
  have hf : attr.filter (fun a => a ≠ []) = if attr = some [] then none else attr := by
    cases attr with
    | none => simp
    | some a => cases a <;> simp [Option.filter]
  rw [WSignature.str_eq, hf, ← C42_append_line n side name dsg _ hn hd he]
  · congr 1
    generalize (if attr = some [] then none else attr) = x
    cases side <;> cases x <;> simp [lineText]
  · intro a h
    split at h
    · simp at h
    · exact ha a h

/-- The port attributes the dict given to an `ApxPort` describes. -/
def WAttrib.Describes (a : WAttrib) (v : Option InitVal) (p : PortAttr) : Prop :=
  p.isQueued = a.isQueued ∧ p.isParameter = a.isParameter ∧ p.initValue = v ∧
    p.queueLength = (if a.isQueued then a.queueLen.map intStr else none)

theorem attrLoop_queue (m : Nat) (x : PortAttr) (q : Option Nat) (r : Str) (hr : q = none → r = [] ∨ r = ['P']) :
    attrLoop (m + 1) x ((match q.map Int.ofNat with
      | some n => 'Q' :: '[' :: (intStr n ++ [']'])
      | none => ['Q']) ++ r) = .ok { x with isQueued := true, queueLength := q.map natStr } := by
  cases q with
  | none =>
    rcases hr rfl with rfl | rfl
    · simp [attrLoop, lstrip_start _ _ (show isSpace 'Q' = false by decide), matchQueueLen]
    · simp [attrLoop, lstrip_start _ _ (show isSpace 'Q' = false by decide), matchQueueLen]
  | some n =>
    have hd : (natStr n ++ (']' :: r)).takeWhile isDec = natStr n ∧ (natStr n ++ (']' :: r)).dropWhile isDec = ']' :: r :=
      takeWhile_all isDec _ _ (fun c hc => by have := natStr_chars n c hc; simp [isDec]; omega)
        (fun c t e => by simp only [List.cons.injEq] at e; rw [← e.1]; decide)
    have hi : intStr (Int.ofNat n) = natStr n := by simp [intStr]
    simp only [Option.map_some, hi, List.cons_append, List.append_assoc, List.nil_append]
    rw [attrLoop, if_neg (by simp), lstrip_start _ _ (by decide)]
    simp [matchQueueLen, hd.1, hd.2, natStr_ne_nil]

/-- What the attribute parser makes of the marks for a queue and a parameter. -/
theorem attrLoop_marks (m : Nat) (x : PortAttr) (hx : x.isQueued = false ∧ x.isParameter = false ∧ x.queueLength = none)
    (isQ isP : Bool) (q : Option Nat) :
    attrLoop (m + 2) x ((if isQ then
        match q.map Int.ofNat with
        | some n => 'Q' :: '[' :: (intStr n ++ [']'])
        | none => ['Q']
      else []) ++ (if isP then ['P'] else [])) =
      .ok ⟨isQ, isP && !isQ, if isQ then q.map natStr else none, x.initValue, x.str⟩ := by
  obtain ⟨a, b, c, d, e⟩ := x
  obtain ⟨rfl, rfl, rfl⟩ := hx
  cases isQ with
  | false => cases isP <;> simp [attrLoop, lstrip_start _ _ (show isSpace 'P' = false by decide)]
  | true =>
    have := attrLoop_queue (m + 1) ⟨false, false, none, d, e⟩ q (if isP then ['P'] else []) (by
      intro _; cases isP <;> simp)
    simp only [↓reduceIte]
    rw [this]
    simp

/-- What is read back from the attributes of an `ApxPort`, in general. -/
theorem attrib_read (v : Option InitVal) (s : Str) (hs : ∀ w, v = some w → Spells w s) (isQ isP : Bool) (q : Option Nat) :
    portAttribute (WAttrib.mk (v.map fun _ => s) isQ (q.map Int.ofNat) isP).str =
      .ok ⟨isQ, isP && !isQ, if isQ then q.map natStr else none, v,
        (WAttrib.mk (v.map fun _ => s) isQ (q.map Int.ofNat) isP).str⟩ := by
  unfold portAttribute
  generalize hL : (WAttrib.mk (v.map fun _ => s) isQ (q.map Int.ofNat) isP).str = L
  conv => lhs; arg 3; rw [← hL]
  simp only [WAttrib.str]
  cases v with
  | none =>
    simp only [Option.map_none, List.nil_append]
    rw [← attrLoop_fuel _ _ _ (L.length + 2) (by rw [← hL]; simp [WAttrib.str]) (by omega)]
    exact attrLoop_marks _ _ ⟨rfl, rfl, rfl⟩ isQ isP q
  | some w =>
    simp only [Option.map_some]
    generalize hM : ((if isQ then
        match q.map Int.ofNat with
        | some n => 'Q' :: '[' :: (intStr n ++ [']'])
        | none => ['Q']
      else []) ++ (if isP then ['P'] else [])) = M
    have hends : Ends M := by
      intro c t e
      rw [← hM] at e
      cases isQ <;> cases isP <;> cases q <;> simp at e <;> (try (rw [← e.1]; decide))
    have hp := parseInit_spells w s (hs w rfl) [] (by simp [Blank]) M hends
    simp only [List.nil_append] at hp
    rw [← attrLoop_fuel _ _ _ (L.length + 3) (by rw [← hL, ← hM]; exact Nat.le_refl _) (by omega)]
    rw [List.cons_append, attrLoop, if_neg (by simp), lstrip_start _ _ (by decide)]
    simp only [hp, ok_bind]
    rw [← hM]
    exact attrLoop_marks _ _ ⟨rfl, rfl, rfl⟩ isQ isP q

/-- C99: the attributes an `ApxPort` writes are read back as the init value, the queue and the parameter mark they were
made from, unless the port is both queued and a parameter. -/
theorem C99_attributes_partial (v : Option InitVal) (s : Str) (hs : ∀ w, v = some w → Spells w s) (isQ isP : Bool)
    (q : Option Nat) (h : ¬(isQ = true ∧ isP = true)) :
    let a : WAttrib := ⟨v.map fun _ => s, isQ, q.map Int.ofNat, isP⟩
    ∃ p, portAttribute a.str = .ok p ∧ a.Describes v p ∧ p.str = a.str := by
  refine ⟨_, attrib_read v s hs isQ isP q, ⟨rfl, ?_, rfl, ?_⟩, rfl⟩
  · cases isQ <;> cases isP <;> simp_all
  · cases isQ <;> cases q <;> simp [intStr]

/-- C99 is violated by every port that is both queued and a parameter: what is written for it is read back as a queued
port that is no parameter. -/
theorem C99_queued_parameter_violated (v : Option InitVal) (s : Str) (hs : ∀ w, v = some w → Spells w s) (q : Option Nat) :
    let a : WAttrib := ⟨v.map fun _ => s, true, q.map Int.ofNat, true⟩
    ∃ p, portAttribute a.str = .ok p ∧ a.isParameter = true ∧ p.isParameter = false ∧ ¬ a.Describes v p :=
  ⟨_, attrib_read v s hs true true q, rfl, rfl, fun h => by simpa using h.2.1⟩

/-- The data element a type description stands for, where one can be written. -/
inductive WType.Means : WType → Elem → Prop
  | boolean : Means .boolean (.prim .u8 (some 0) (some 1) none)
  | string (n : Nat) : Means (.string n) (.prim .str none none (some (n + 1)))
  | record : Means (.record []) (.record .nil none)

theorem digitIs_digitChar (d : Nat) (h : d < 10) : DigitIs (digitChar d) d := by
  refine ⟨h, ?_⟩
  have : d = 0 ∨ d = 1 ∨ d = 2 ∨ d = 3 ∨ d = 4 ∨ d = 5 ∨ d = 6 ∨ d = 7 ∨ d = 8 ∨ d = 9 := by omega
  rcases this with rfl | rfl | rfl | rfl | rfl | rfl | rfl | rfl | rfl | rfl <;> decide

theorem digitsText_natStr (n : Nat) : DigitsText (natStr n) n := by
  induction n using Nat.strongRecOn with
  | ind n ih =>
    unfold natStr
    split
    · exact .one _ _ (digitIs_digitChar n (by assumption))
    · have h := DigitsText.more _ _ _ _ (ih (n / 10) (by omega)) (digitIs_digitChar (n % 10) (by omega))
      rwa [show 10 * (n / 10) + n % 10 = n by omega] at h

theorem intText_natStr (n : Nat) : IntText (natStr n) n :=
  ⟨[], natStr n, [], by simp, by simp, by simp, .unsigned _ _ (digitsText_natStr n)⟩

/-- The signature of a type that can be written. -/
theorem WType.Means.signature {t : WType} {e : Elem} (h : t.Means e) :
    ∃ s, t.signature = .ok (some s) ∧ t.attribute = .ok none ∧ dataSignature s = .ok e ∧ EndsWell s ∧
      (∀ c, IsCut c → c ∉ s) ∧ resolveDsg [] e = .ok e := by
  cases h with
  | boolean =>
    refine ⟨_, rfl, rfl, ?_, ⟨"C(0,1".toList, ')', by decide, by decide⟩, ?_, rfl⟩
    · exact (C64_accepts _ _).mpr (by
        have h := SigText.prim .u8 ('(' :: (natStr 0 ++ ',' :: natStr 1 ++ [')'])) [] (some 0) (some 1) none
          (.two _ _ 0 1 (intText_natStr 0) (intText_natStr 1)) .none
        rwa [show letterOf .u8 :: (('(' :: (natStr 0 ++ ',' :: natStr 1 ++ [')'])) ++ []) = "C(0,1)".toList by decide +kernel] at h)
    · rintro c (rfl | rfl | rfl) <;> decide
  | string n =>
    have hi : intStr ((n : Int) + 1) = natStr (n + 1) := by
      rw [show ((n : Int) + 1) = ((n + 1 : Nat) : Int) by simp]; unfold intStr; rw [if_neg (by omega)]; congr 1
    refine ⟨_, rfl, rfl, ?_, ⟨'a' :: '[' :: intStr (n + 1), ']', by simp, by decide⟩, ?_, rfl⟩
    · rw [hi]
      exact (C64_accepts _ _).mpr (by
        have h := SigText.prim .str [] ('[' :: (natStr (n + 1) ++ [']'])) none none (some (n + 1)) .none
          (.len _ _ (intText_natStr (n + 1)))
        simpa [letterOf] using h)
    · intro c hc
      have h1 := intStr_no_cut ((n : Int) + 1) c hc
      have : c ≠ 'a' ∧ c ≠ '[' ∧ c ≠ ']' := by rcases hc with rfl | rfl | rfl <;> decide
      simp [h1, this]
  | record =>
    refine ⟨_, rfl, rfl, ?_, ⟨['{'], '}', rfl, by decide⟩, ?_, rfl⟩
    · exact (C64_accepts _ _).mpr (.record _ _ .close)
    · rintro c (rfl | rfl | rfl) <;> decide

/-- C99: the line of a boolean, a string or an empty record type, written below a node line, is loaded as a node with
one type: that type, with that name; strings have room for a terminating null character. -/
theorem C99_types_partial (name : Str) (t : WType) (e : Elem) (h : t.Means e)
    (hn : '"' ∉ name ∧ '#' ∉ name ∧ '\n' ∉ name) :
    ∃ g, apxType name t = .ok g ∧ ∃ n, (Parser.new.loads ("N\"A\"\n".toList ++ g.str)).2 = .ok n ∧
      n.types.map (fun d => (d.name, d.elem)) = [(name, e)] ∧ n.requires = [] ∧ n.provides = [] := by
  obtain ⟨s, h1, h2, h3, h4, h5, h8⟩ := h.signature
  refine ⟨⟨['T'], name, s, none⟩, by simp [apxType, h1, h2, ok_bind], ?_⟩
  rw [WSignature.str_eq]
  obtain ⟨h6, h7⟩ := splitLine_lineText 'T' name s none (by decide) (by decide) hn h4 h5 (by simp)
  simp only [Option.filter_none]
  have hs : splitOn '\n' ("N\"A\"\n".toList ++ lineText 'T' name s none) = ["N\"A\"".toList, lineText 'T' name s none] := by
    rw [show "N\"A\"\n".toList ++ lineText 'T' name s none = joinLines ["N\"A\"".toList, lineText 'T' name s none] by
      simp [joinLines]]
    refine splitOn_joinLines _ (by simp) ?_
    intro l hl
    simp only [List.mem_cons, List.not_mem_nil, or_false] at hl
    rcases hl with rfl | rfl
    · decide
    · exact h7
  have hA : parseHeaderLine (rstripNewline "N\"A\"".toList) = none := by decide +kernel
  have hN : Parser.processLine ⟨none, .start⟩ "N\"A\"".toList = (⟨some (Node.new ['A']), .node⟩, .ok ()) := by
    have : splitLine "N\"A\"".toList = .short ['N'] (some ['A']) := by decide +kernel
    unfold Parser.processLine
    rw [this]
    simp [Parser.processParts, Line.kind, Line.nodeName, lineName]
  have hT : Parser.processLine ⟨some (Node.new ['A']), .node⟩ (lineText 'T' name s none) =
      (⟨some { Node.new ['A'] with types := [⟨name, e, none, none, none⟩] }, .type⟩, .ok ()) := by
    simp [Parser.processLine, h6, Parser.processParts, Line.kind, Parser.typeLine, Line.args, lineName, mkType, h3,
      optArg, ok_bind, Node.addType, Node.typeNamed, Node.new, Node.named, h8]
  refine ⟨{ Node.new ['A'] with types := [⟨name, e, none, none, none⟩] }, ?_, rfl, rfl, rfl⟩
  simp only [Parser.loads, hs, List.headD_cons, hA, Parser.new]
  simp only [ne_eq, not_true_eq_false, false_and, ↓reduceIte, Parser.processLines, hN, hT]
  simp [Parser.finish, Node.resolveTypes, Node.new, mapPy, ok_bind]

/-- C99 is violated by every integer type, every array type and every record type with elements: the constructor
raises, so no line can be written for them. -/
theorem C99_types_violated (name typeRef : Str) (min max length : Int) (x : Str × Str) (elements : List (Str × Str)) :
    (apxType name (.integer min max)).toOption = none ∧ (apxType name (.array typeRef length)).toOption = none ∧
      (apxType name (.record (x :: elements))).toOption = none := by
  refine ⟨?_, rfl, rfl⟩
  have : ∃ err, getIntegerTypeCode min max = .error err := by
    unfold getIntegerTypeCode calcUIntTypeLen calcIntTypeLen
    split
    · split
      · exact ⟨_, rfl⟩
      · exact ⟨_, rfl⟩
    · rw [if_pos (by omega)]
      exact ⟨_, rfl⟩
  obtain ⟨err, h⟩ := this
  simp [apxType, WType.signature, h, error_bind, Except.toOption]

/-- C99: descriptions of any other kind are refused. -/
theorem C99_unknown (name kind : Str) : apxType name (.other kind) = .error .genericException := rfl

/-- C99: a port of the AUTOSAR port classes whose attributes have been assigned has the text of a port with its name,
the type with its number and its attributes; its mirror is the same port on the other side. -/
theorem C99_autosar_line_partial (n : Node) (p : AutoPort) (attr : Option Str) (hp : p.attr = some attr)
    (hn : '"' ∉ p.name ∧ '#' ∉ p.name ∧ '\n' ∉ p.name) (ha : ∀ a, attr = some a → AttrOk a) :
    (∃ text, p.str = .ok text ∧
      n.appendText text = (mkPort p.name ("T[".toList ++ intStr p.typeId ++ [']']) attr >>= n.addPort p.side)) ∧
    ∃ m, p.mirror = .ok m ∧ m.name = p.name ∧ m.typeId = p.typeId ∧ m.attr = p.attr ∧ m.side ≠ p.side := by
  refine ⟨⟨_, by simp only [AutoPort.str, hp]; rfl, ?_⟩, ?_⟩
  · have hno : ∀ c, IsCut c → c ∉ "T[".toList ++ intStr p.typeId ++ [']'] := by
      intro c hc
      have h1 := intStr_no_cut p.typeId c hc
      have : c ≠ 'T' ∧ c ≠ '[' ∧ c ≠ ']' := by rcases hc with rfl | rfl | rfl <;> decide
      simp [h1, this]
    rw [← C42_append_line n p.side p.name _ attr hn
      ⟨by simp, hno _ (.inl rfl), hno _ (.inr (.inl rfl)), hno _ (.inr (.inr rfl))⟩ (by
        rw [List.getLast?_append]; simp) ha]
    cases attr <;> simp [lineText]
  · refine ⟨⟨if p.side = .require then .provide else .require, p.name, p.typeId, some attr⟩,
      by simp only [AutoPort.mirror, hp], rfl, rfl, hp.symm, ?_⟩
    cases hs : p.side <;> simp

/-- C99: mirroring such a port twice gives the port back. -/
theorem C99_mirror_twice_partial (p m : AutoPort) (h : p.mirror = .ok m) : m.mirror = .ok p := by
  obtain ⟨side, name, i, attr⟩ := p
  cases attr with
  | none => simp [AutoPort.mirror] at h
  | some a => cases side <;> simp [AutoPort.mirror] at h <;> subst h <;> rfl

/-- C99 is violated by every AUTOSAR port as its constructor makes it: it has no text and cannot be mirrored, and
a port given together with a workspace makes the constructor raise. -/
theorem C99_autosar_violated (side : Side) (name : Str) (i : Int) :
    autoPort side name i true = .error .attributeError ∧
    ∃ p, autoPort side name i false = .ok p ∧ p.str = .error .attributeError ∧ p.mirror = .error .attributeError :=
  ⟨rfl, _, rfl, rfl, rfl⟩

section Examples

/-- `={1,{-7,"a,b"},0x1234}Q[10]` -/
def wrAttrib : WAttrib := ⟨some paVal.derive, true, some 10, false⟩

example : wrAttrib.str = "={1,{-7,\"a,b\"},0x1234}Q[10]".toList ∧ Spells paVal paVal.derive :=
  ⟨by decide +kernel, spells_derive _ (by simp [paVal, InitVal.Plain, AllPlain])⟩

example : (apxType "Text_T".toList (.string 8)).toOption.map WSignature.str = some "T\"Text_T\"a[9]".toList ∧
    (apxType "Text_T".toList (.boolean)).toOption.map WSignature.str = some "T\"Text_T\"C(0,1)".toList ∧
    (WType.string 8).Means (.prim .str none none (some 9)) :=
  ⟨by decide +kernel, by decide +kernel, .string 8⟩

example : (AutoPort.mk .require "Speed".toList 3 (some (some "=5".toList))).str = .ok "R\"Speed\"T[3]:=5".toList ∧
    (AutoPort.mk .provide "Speed".toList 3 (some none)).str = .ok "P\"Speed\"T[3]".toList := by
  decide +kernel

end Examples

end Apx
