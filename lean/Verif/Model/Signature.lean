import Verif.Model.Element

/-!
Parsing of data signatures: `DataSignature` of apx/base.py.

Simplification: `typeList` is always `None`, as in every call inside /repo (`Port` and `DataType`
constructors), so references stay unresolved while parsing.
The two mutually recursive Python functions are total here through a bound on the recursion depth
that the length of the text makes unreachable (`parseSig_fuel` in `Proofs/Signature`).
-/

namespace Apx

/-- `_parseExtendedTypeCode(text)`. `re.split(r'\s*,\s*', text)` differs from `text.split(',')`
only in blanks, which `int()` ignores. /repo/apx/base.py:338-344. -/
def parseExtended (text : Str) : Py (Int × Int) :=
  match splitOn ',' text with
  | a :: b :: _ => do
    let mn ← pyInt a
    let mx ← pyInt b
    .ok (mn, mx)
  | _ => .error .genericException

/-- The type letters in `parseDataSignature`; `none` models the `ValueError` of `index`.
/repo/apx/base.py:367-376. -/
def codeOfLetter (c : Char) : Option TypeCode :=
  if c = 'C' then some .u8 else if c = 'S' then some .u16 else if c = 'L' then some .u32
  else if c = 'U' then some .u64 else if c = 'c' then some .s8 else if c = 's' then some .s16
  else if c = 'l' then some .s32 else if c = 'u' then some .s64 else if c = 'a' then some .str
  else none

/-- The optional range after a type letter. /repo/apx/base.py:378-384. -/
def parseRange (remain : Str) : Py (Option Int × Option Int × Str) :=
  if remain.head? = some '(' then
    match matchPair remain '(' ')' with
    | (none, _) => .error .parseError
    | (some data, remain) => do
      let (mn, mx) ← parseExtended data
      .ok (some mn, some mx, remain)
  else .ok (none, none, remain)

/-- The optional array length. A negative length is refused by the `arrayLen` setter (called in
the constructor, after parsing). /repo/apx/base.py:385-391,464-470. -/
def parseArray (remain : Str) : Py (Option Nat × Str) :=
  if remain.head? = some '[' then
    match matchPair remain '[' ']' with
    | (none, _) => .error .parseError
    | (some value, remain) => do
      let n ← pyInt value
      if n < 0 then .error .valueError else .ok (some n.toNat, remain)
  else .ok (none, remain)

/-- The branch for type references, after the letter `T`. /repo/apx/base.py:353-365. -/
def parseRef (remain : Str) : Py (Elem × Str) :=
  match matchPair remain '[' ']' with
  | (none, _) => .error .parseError
  | (some data, remain2) =>
    match matchPair data '"' '"' with
    | (some data2, remain3) =>
      if remain3.length = 0 then .ok (.refName data2, remain2) else .error .assertionError
    | (none, _) => do
      let i ← pyInt data
      .ok (.refId i, remain2)

/-- The branch for integer and string types, after the letter. /repo/apx/base.py:377-393. -/
def parsePrim (tc : TypeCode) (remain : Str) : Py (Elem × Str) := do
  let (mn, mx, remain) ← parseRange remain
  let (a, remain) ← parseArray remain
  .ok (.prim tc mn mx a, remain)

mutual
/-- `parseDataSignature(s)`; the first component is `none` for Python's `None`.
/repo/apx/base.py:348-393. -/
def parseSigF : Nat → Str → Py (Option Elem × Str)
  | 0, _ => .error .genericException
  | _ + 1, [] => .error .indexError
  | n + 1, c :: remain =>
    if c = '{' then do
      let (fs, remain) ← parseRecF n remain
      .ok (some (.record fs none), remain)
    else if c = 'T' then do
      let (e, remain) ← parseRef remain
      .ok (some e, remain)
    else match codeOfLetter c with
      | none => .ok (none, c :: remain)
      | some tc => do
        let (e, remain) ← parsePrim tc remain
        .ok (some e, remain)

/-- The loop of `_parseRecordSignature(remain)`; returns the elements still to be appended.
/repo/apx/base.py:320-335. -/
def parseRecF : Nat → Str → Py (Fields × Str)
  | 0, _ => .error .genericException
  | n + 1, remain =>
    if remain.length = 0 then .error .parseError
    else
      let (name, remain) := matchPair remain '"' '"'
      if remain.length = 0 then .error .parseError
      else do
        let (child, remain) ← parseSigF n remain
        match child with
        | none => if remain.head? = some '}' then .ok (.nil, remain.tail) else .error .parseError
        | some e => do
          let (fs, remain) ← parseRecF n remain
          .ok (.cons name e fs, remain)
end

/-- `parseDataSignature(s)`. /repo/apx/base.py:348-393. -/
def parseSig (s : Str) : Py (Option Elem × Str) := parseSigF (2 * s.length + 2) s

/-- `DataSignature(dsg)` for a string. /repo/apx/base.py:228-234. -/
def dataSignature (s : Str) : Py Elem := do
  let (e, remain) ← parseSig s
  if remain.length > 0 then .error .parseError
  else match e with
    | some e => .ok e
    | none => .error .assertionError

end Apx
