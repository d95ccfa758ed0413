import Verif.Spec.CUnit

/-!
How a C compiler reads the function that is told of received data, given the text between its braces, and what a call of
it does; and how it reads a header file.
-/

namespace Apx

/-- A case of the `switch`: its label (the name of a macro), the calls, the macro that is added to `offset`. -/
structure CCase where
  label : Str
  calls : List CDataCall
  step : Str
  deriving DecidableEq

/-- The function: the members of the union, the macro that bounds `offset` from below, the cases. -/
structure CSwitch where
  members : List CMember
  start : Option Str
  cases : List CCase
  deriving DecidableEq

/-- `T x;` or `T x[n];` -/
def readMember : List CTok → Option CMember
  | [.word t, .word n, .sym ';'] => if CIdent t ∧ CIdent n then some ⟨n, t, none⟩ else none
  | [.word t, .word n, .sym '[', .word k, .sym ']', .sym ';'] =>
    if CIdent t ∧ CIdent n then (cNumber k).map fun k => ⟨n, t, some k⟩ else none
  | _ => none

/-- The argument of a call and the end of the statement: `data.x`, `&data.x`, `data.x[0]` or `&data.x[0]`. -/
def readDataArg (func : Str) (ref : Bool) : List CTok → Option CDataCall
  | [.word d, .sym '.', .word m, .sym ')', .sym ';'] =>
    if d = "data".toList ∧ CIdent m then some ⟨func, ref, m, false⟩ else none
  | [.word d, .sym '.', .word m, .sym '[', .word i, .sym ']', .sym ')', .sym ';'] =>
    if d = "data".toList ∧ CIdent m ∧ i = ['0'] then some ⟨func, ref, m, true⟩ else none
  | _ => none

/-- A call: `f(` argument `);`, after `(void)` if the result is dropped. -/
def readDataCall (ts : List CTok) : Option CDataCall :=
  match if ts.take 3 = lexC "(void)".toList then ts.drop 3 else ts with
  | .word f :: .sym '(' :: r =>
    if CIdent f then
      if r.head? = some (.sym '&') then readDataArg f true r.tail else readDataArg f false r
    else none
  | _ => none

/-- Where the reader is in the `switch`: between the cases, in a case, or before `break;`. -/
inductive CCasePlace
  | between
  | inside (label : Str) (calls : List CDataCall)
  | leaving (c : CCase)

/-- The cases, `default:` with the end of the loop, and the braces. -/
def readCases : CCasePlace → List (List CTok) → Option (List CCase)
  | _, [] => none
  | .between, l :: ls =>
    if l = lexC "default:".toList then
      if ls = [lexC "offset = endOffset;".toList, [.sym '}'], [.sym '}']] then some [] else none
    else match l with
      | [.word c, .word label, .sym ':'] =>
        if c = "case".toList ∧ CIdent label then readCases (.inside label []) ls else none
      | _ => none
  | .inside label calls, l :: ls =>
    match l with
    | [.word o, .sym '+', .sym '=', .word step, .sym ';'] =>
      if o = "offset".toList ∧ CIdent step then readCases (.leaving ⟨label, calls, step⟩) ls else none
    | _ => (readDataCall l).bind fun c => readCases (.inside label (calls ++ [c])) ls
  | .leaving c, l :: ls => if l = lexC "break;".toList then (readCases .between ls).map fun r => c :: r else none

/-- `while (offset < endOffset)`, `switch(offset)`, and what is in it. -/
def readLoop (ls : List (List CTok)) : Option (List CCase) :=
  if ls.take 4 = [lexC "while (offset < endOffset)".toList, [.sym '{'], lexC "switch(offset)".toList, [.sym '{']] then
    readCases .between (ls.drop 4)
  else none

/-- `if (offset < M)`, `{`, `offset = M;`, `}`, if it is there, and the loop. -/
def readBound (ls : List (List CTok)) : Option (Option Str × List CCase) :=
  match ls with
  | [.word i, .sym '(', .word a, .sym '<', .word m, .sym ')'] :: [.sym '{'] :: [.word b, .sym '=', .word m', .sym ';'] :: [.sym '}'] :: r =>
    if i = "if".toList ∧ a = "offset".toList ∧ b = "offset".toList ∧ m = m' ∧ CIdent m then (readLoop r).map fun c => (some m, c) else none
  | _ => (readLoop ls).map fun c => (none, c)

/-- The members of the union, up to its end, and the lines after it. -/
def readMembers : List (List CTok) → Option (List CMember × List (List CTok))
  | [] => none
  | l :: ls =>
    if l = lexC "} data;".toList then some ([], ls)
    else (readMember l).bind fun m => (readMembers ls).map fun x => (m :: x.1, x.2)

/-- Is there only a comment, or nothing, on this line? -/
def cBlank (l : Str) : Bool := decide ((l.dropWhile fun c => decide (c = ' ')).take 2 = "//".toList ∨ l.all fun c => decide (c = ' '))

/-- The lines between the braces that are not blank. The members of the union must have different names. -/
def readSwitchLines : List (List CTok) → Option CSwitch
  | a :: b :: ls =>
    if a = lexC "union data_tag".toList ∧ b = [.sym '{'] then
      (readMembers ls).bind fun x =>
        if (x.1.map CMember.name).Nodup ∧
            x.2.take 3 = [lexC "uint32_t endOffset = offset + len;".toList, lexC "(void)arg;".toList, lexC "(void)nodeData;".toList] then
          (readBound (x.2.drop 3)).map fun y => ⟨x.1, y.1, y.2⟩
        else none
    else none
  | _ => none

/-- The lines between the braces. -/
def readSwitch (lines : List Str) : Option CSwitch := readSwitchLines ((lines.filter fun l => !cBlank l).map lexC)

/-! ### A call -/

/-- The cases with the values of their macros. -/
def caseValues (u : List CItem) : List CCase → Option (List (Nat × List CDataCall × Nat))
  | [] => some []
  | c :: l => (macroOf u c.label).bind fun a => (macroOf u c.step).bind fun b => (caseValues u l).map fun r => (a, c.calls, b) :: r

/-- The loop: the calls that are made; `none` if it does not end. -/
def switchLoop (cases : List (Nat × List CDataCall × Nat)) (offset stop : Nat) : Option (List CDataCall) :=
  if offset < stop then
    match cases.find? fun c => c.1 = offset with
    | none => some []
    | some c => if 0 < c.2.2 then (switchLoop cases (offset + c.2.2) stop).map fun l => c.2.1 ++ l else none
  else some []
termination_by stop - offset

/-- A call with `offset` and `len`: the calls it makes, in order. There is none if a macro has no value, two cases have one
label, a call has an argument that is no member of the union, or the loop does not end. (The additions are made in
`uint32_t`; offsets and lengths of a buffer are far below its range.) -/
def CSwitch.call (u : List CItem) (d : CSwitch) (offset len : Nat) : Option (List CDataCall) :=
  (caseValues u d.cases).bind fun cs =>
    if (cs.map Prod.fst).Nodup ∧ ∀ c ∈ d.cases, ∀ x ∈ c.calls, ∃ m ∈ d.members, m.name = x.member ∧ m.arrayLen.isSome = x.first then
      match d.start with
      | none => switchLoop cs offset (offset + len)
      | some m => (macroOf u m).bind fun b => switchLoop cs (if offset < b then b else offset) (offset + len)
    else none

/-! ### Header files -/

/-- The lines of a header file between the lines of its guard: `#ifndef G`, `#define G`, ..., `#endif`. -/
def readGuard : List Str → Option (Str × List Str)
  | a :: b :: ls =>
    match lexC a, lexC b with
    | [.sym '#', .word i, .word g], [.sym '#', .word d, .word g'] =>
      if i = "ifndef".toList ∧ d = "define".toList ∧ g = g' ∧ CIdent g then
        match ls.getLast? with
        | some l => if l.take 6 = "#endif".toList then some (g, ls.dropLast) else none
        | none => none
      else none
    | _, _ => none
  | _ => none

/-- The declarations of functions; other lines must be empty, comments or `#include`. -/
def readProtos : List Str → Option (List CProto)
  | [] => some []
  | l :: ls =>
    if cSkipped l then readProtos ls
    else (readHead (lexC l)).bind fun x => if x.2 = [.sym ';'] then (readProtos ls).map fun r => x.1 :: r else none

/-- A header file: its guard and the functions it declares. -/
def readHeader (text : Str) : Option (Str × List CProto) :=
  (readGuard (cLines text)).bind fun x => (readProtos x.2).map fun p => (x.1, p)

end Apx
