import Verif.Model.InitValue

/-!
Attributes of ports and types: `PortAttribute` and `TypeAttribute` of apx/base.py, and the printer
of init values in apx/node.py.

Simplification: `\d` and `int()` also accept the decimal digits of other scripts in Python; the
model knows the ASCII digits only.
-/

namespace Apx

/-- `[0-9]`. -/
def isDec (c : Char) : Bool := 48 ≤ c.toNat && c.toNat ≤ 57

/-- Value of a hexadecimal digit. -/
def hexVal (c : Char) : Nat :=
  if c.toNat ≤ 57 then c.toNat - 48 else if c.toNat ≤ 70 then c.toNat - 55 else c.toNat - 87

/-- `[0-9A-Fa-f]`. -/
def isHex (c : Char) : Bool :=
  isDec c || (65 ≤ c.toNat && c.toNat ≤ 70) || (97 ≤ c.toNat && c.toNat ≤ 102)

/-- `int(digits, 10)` on a text matched by `\d+`. -/
def decNum (s : Str) : Nat := s.foldl (fun a c => a * 10 + (c.toNat - 48)) 0

/-- `int(digits, 16)` on a text matched by `[0-9A-Fa-f]+`. -/
def hexNum (s : Str) : Nat := s.foldl (fun a c => a * 16 + hexVal c) 0

/-- The alternative `(-?\d+)` of the pattern, then the string alternative `"([^"]*)"`; `none` when
neither matches. /repo/apx/base.py:713,768-776. -/
def matchDecStr (r : Str) : Option (InitVal × Str) :=
  match r with
  | '-' :: t =>
    if (t.takeWhile isDec).isEmpty then none
    else some (.int (-(decNum (t.takeWhile isDec) : Int)), t.dropWhile isDec)
  | '"' :: t =>
    match t.dropWhile (· != '"') with
    | _ :: rest => some (.str (t.takeWhile (· != '"')), rest)
    | [] => none
  | r =>
    if (r.takeWhile isDec).isEmpty then none
    else some (.int (decNum (r.takeWhile isDec)), r.dropWhile isDec)

/-- `_p2.match(remain)` and the conversion of the group that matched; the alternative
`0x([0-9A-Fa-f]+)` is tried first. /repo/apx/base.py:713,768-776. -/
def matchScalar (r : Str) : Option (InitVal × Str) :=
  match r with
  | '0' :: 'x' :: t =>
    if (t.takeWhile isHex).isEmpty then matchDecStr r
    else some (.int (hexNum (t.takeWhile isHex)), t.dropWhile isHex)
  | _ => matchDecStr r

mutual
/-- `_parseInitValue(remain)`; the first component is `none` for Python's `None`. The bound on the
recursion depth is never reached (`parseInit_fuel`). A list which is empty or ends in a comma is
left through the end of the loop, returning `None` and the text from its opening brace.
/repo/apx/base.py:749-777. -/
def parseInitF : Nat → Str → Py (Option InitVal × Str)
  | 0, _ => .error .genericException
  | n + 1, remain =>
    let remain := lstrip remain
    if remain.head? = some '{' then
      match matchPair remain '{' '}' with
      | (none, _) => .error .typeError
      | (some m, remain2) => do
        let l ← parseItemsF n m
        match l with
        | some l => .ok (some (.list l), remain2)
        | none => .ok (none, remain)
    else match matchScalar remain with
      | some (v, rest) => .ok (some v, rest)
      | none => .ok (none, remain)

/-- The loop over the elements of a list, from the state where `match` is the remaining text;
`none` when the loop ends because nothing is left. /repo/apx/base.py:754-766. -/
def parseItemsF : Nat → Str → Py (Option (List InitVal))
  | 0, _ => .error .genericException
  | n + 1, m =>
    if m.length = 0 then .ok none
    else do
      let (elem, m) ← parseInitF n (lstrip m)
      let m := lstrip m
      if m.head? = some ',' then do
        let l ← parseItemsF n (lstrip m.tail)
        .ok (l.map (elem.getD .missing :: ·))
      else if m.length = 0 then .ok (some [elem.getD .missing])
      else .error .parseError
end

/-- `_parseInitValue(remain)`. /repo/apx/base.py:749-777. -/
def parseInit (s : Str) : Py (Option InitVal × Str) := parseInitF (2 * s.length + 2) s

/-- A `PortAttribute` object. /repo/apx/base.py:711-747. -/
structure PortAttr where
  isQueued : Bool
  isParameter : Bool
  queueLength : Option Str
  initValue : Option InitVal
  str : Str
  deriving Inhabited

/-- `_p3.match(remain)` with `_p3 = \[(\d+)\]`: the digits. (What follows is ignored by the code.)
/repo/apx/base.py:714,734-738. -/
def matchQueueLen (remain : Str) : Option Str :=
  match remain with
  | '[' :: t =>
    if (t.takeWhile isDec).isEmpty then none
    else if (t.dropWhile isDec).head? = some ']' then some (t.takeWhile isDec) else none
  | _ => none

/-- The loop of the constructor, with a bound on the number of iterations that is never reached
(each iteration consumes a character; `attrLoop_fuel`). /repo/apx/base.py:724-743. -/
def attrLoop : Nat → PortAttr → Str → Py PortAttr
  | 0, _, _ => .error .genericException
  | n + 1, a, remain =>
    if remain.length = 0 then .ok a
    else
      match lstrip remain with
      | '=' :: r => do
        let (v, r) ← parseInit r
        attrLoop n { a with initValue := v } r
      | 'Q' :: r => .ok { a with isQueued := true, queueLength := matchQueueLen r }
      | 'P' :: r => attrLoop n { a with isParameter := true } r
      | _ => .error .parseError

/-- `PortAttribute(text)` for a string. /repo/apx/base.py:716-743. -/
def portAttribute (text : Str) : Py PortAttr :=
  attrLoop (text.length + 1) ⟨false, false, none, none, text⟩ text

/-- A `TypeAttribute` object. /repo/apx/base.py:779-804. -/
structure TypeAttr where
  valueTable : Option (List (Option Str))
  str : Str
  deriving Inhabited, DecidableEq

/-- The loop of the constructor (each iteration consumes a character).
/repo/apx/base.py:788-801. -/
def typeAttrLoop : Nat → TypeAttr → Str → Py TypeAttr
  | 0, _, _ => .error .genericException
  | n + 1, a, remain =>
    if remain.length = 0 then .ok a
    else
      match remain with
      | 'V' :: 'T' :: '(' :: r =>
        match matchPair ('(' :: r) '(' ')' with
        | (none, _) => .error .parseError
        | (some result, remain) =>
          typeAttrLoop n { a with valueTable := some ((splitOn ',' result).map fun s => (parseStr s).1) } remain
      | _ => .error .parseError

/-- `TypeAttribute(text)` for a string. /repo/apx/base.py:783-801. -/
def typeAttribute (text : Str) : Py TypeAttr :=
  typeAttrLoop (text.length + 1) ⟨none, text⟩ text

/-- Upper case hexadecimal digit. -/
def hexDigit (d : Nat) : Char := if d < 10 then digitChar d else Char.ofNat (55 + d)

/-- `"%X" % n`. -/
def hexStr (n : Nat) : Str :=
  if n < 16 then [hexDigit n] else hexStr (n / 16) ++ [hexDigit (n % 16)]
termination_by n
decreasing_by omega

mutual
/-- `_deriveInitValueFromAutosarConstant(item)`: the text of an init value, with AUTOSAR's integer,
string, record and array constants represented by `InitVal`. (`"0x%02X"` is only used above 255,
where the padding has no effect.) The `missing` case has no counterpart in Python.
/repo/apx/node.py:82-97. -/
def InitVal.derive : InitVal → Str
  | .int i => if i > 255 then '0' :: 'x' :: hexStr i.toNat else intStr i
  | .str s => '"' :: (s ++ ['"'])
  | .list l => '{' :: (deriveList l ++ ['}'])
  | .missing => []

/-- `','.join(tmp)`. /repo/apx/node.py:91-95. -/
def deriveList : List InitVal → Str
  | [] => []
  | [v] => v.derive
  | v :: w :: l => v.derive ++ (',' :: deriveList (w :: l))
end

/-- `"=" + ...`. /repo/apx/node.py:79. -/
def InitVal.attrText (v : InitVal) : Str := '=' :: v.derive

end Apx
