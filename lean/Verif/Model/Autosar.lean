import Verif.Model.Signature
import Verif.Model.PortAttr

/-!
Data signatures of AUTOSAR types: `_getIntegerTypeCode` and `AutosarDataType` of apx/base.py.

The AUTOSAR objects come from the package `autosar`, which is not part of /repo; only the
attributes that py-apx reads are represented.  `int(math.ceil(math.log(x,2)))` is a parameter
`ceilLog` of the model, because it is computed in floating point; what is assumed about it is
stated in `Spec/Autosar`.
-/

namespace Apx

mutual
/-- An AUTOSAR data type as seen by `_calcDataSignature`. /repo/apx/base.py:878-910.
`other` is an object of any other class. -/
inductive AType
  | bool
  | int (minVal maxVal : Int)
  | array
  | string (length : Int)
  | record (fs : AFields)
  | other
  deriving DecidableEq

/-- The elements of a record type: name, and the type found under `typeRef` in the workspace;
`dangling` is an element whose reference is not found. -/
inductive AFields
  | nil
  | cons (name : Str) (t : AType) (rest : AFields)
  | dangling (name : Str) (rest : AFields)
  deriving DecidableEq
end

/-- `_calcUIntTypeLen(dataType)`; `math.log` of a number that is not positive raises
`ValueError`. /repo/apx/base.py:85-92. -/
def uintTypeLen (ceilLog : Nat → Nat) (mx : Int) : Py Nat :=
  if mx ≤ 0 then .error .valueError else .ok (ceilLog mx.toNat)

/-- `_calcIntTypeLen(dataType)`. /repo/apx/base.py:94-100. -/
def intTypeLen (ceilLog : Nat → Nat) (mx : Int) : Py Nat :=
  if mx.natAbs = 0 then .error .valueError else .ok (ceilLog mx.natAbs + 1)

/-- `'C(%d,%d)' % (a, b)`. /repo/apx/base.py:60. -/
def rangeCode (a b : Int) : Str := 'C' :: '(' :: (intStr a ++ (',' :: (intStr b ++ [')'])))

/-- `_getIntegerTypeCode(dataType)`; `none` is `None`, the result when no branch is taken.  The
branch for signed types of at most 8 bits reads the attribute `minval`, which no `IntegerDataType`
has (it is called `minVal`).  /repo/apx/base.py:50-83. -/
def integerTypeCode (ceilLog : Nat → Nat) (mn mx : Int) : Py (Option Str) :=
  if mn ≥ 0 then do
    let bits ← uintTypeLen ceilLog mx
    if bits ≤ 8 then
      if mn > 0 ∨ mx < 255 then .ok (some (rangeCode mn mx)) else .ok (some ['C'])
    else if bits ≤ 16 then .ok (some ['S'])
    else if bits ≤ 32 then .ok (some ['L'])
    else if bits ≤ 64 then .ok (some ['U'])
    else .ok none
  else do
    let bits ← intTypeLen ceilLog mx
    if bits ≤ 8 then .error .attributeError
    else if bits ≤ 16 then .ok (some ['s'])
    else if bits ≤ 32 then .ok (some ['l'])
    else if bits ≤ 64 then .ok (some ['u'])
    else .ok none

/-- `elem.name[:-3]` if the name ends in `_RE`.  (The source stores the shortened name in the
AUTOSAR element, so a name with the suffix twice loses one more each time the type is visited;
this is the first visit.) /repo/apx/base.py:897-898. -/
def withoutRE (name : Str) : Str :=
  if name.drop (name.length - 3) = ['_', 'R', 'E'] then name.take (name.length - 3) else name

/-- `'%s' % text` of a result that may be `None`. -/
def optText : Option Str → Str
  | some s => s
  | none => "None".toList

mutual
/-- `_calcDataSignature(ws, dataType)`.  The branch for arrays uses the global name `typeData`,
which does not exist.  /repo/apx/base.py:878-910. -/
def AType.signature (ceilLog : Nat → Nat) : AType → Py (Option Str)
  | .bool => .ok (some "C(0,1)".toList)
  | .int mn mx => integerTypeCode ceilLog mn mx
  | .array => .error .nameError
  | .string n => .ok (some ('a' :: '[' :: (intStr (n + 1) ++ [']'])))
  | .record fs => do
    let s ← fs.signature ceilLog
    .ok (some ('{' :: (s ++ ['}'])))
  | .other => .error .genericException

/-- The loop over the elements of a record. /repo/apx/base.py:895-903. -/
def AFields.signature (ceilLog : Nat → Nat) : AFields → Py Str
  | .nil => .ok []
  | .dangling _ _ => .error .valueError
  | .cons name t r => do
    let s ← t.signature ceilLog
    let u ← r.signature ceilLog
    .ok ('"' :: (withoutRE name ++ ('"' :: (optText s ++ u))))
end

/-- The data element of `AutosarDataType(ws, dataType, parent)`: `DataSignature` of the text,
which refuses `None`. /repo/apx/base.py:849-852,228-238. -/
def AType.element (ceilLog : Nat → Nat) (t : AType) : Py Elem := do
  match ← t.signature ceilLog with
  | none => .error .notImplemented
  | some s => dataSignature s

/-- A `CompuConstElement` of an enumeration: limits and text. /repo/apx/base.py:868-873. -/
structure CompuElem where
  lower : Int
  upper : Int
  text : Str
  deriving DecidableEq

/-- The values appended for one element: its text, or its text with numbers from 1 for a range
(nothing for a range that is empty). /repo/apx/base.py:869-873. -/
def CompuElem.values (e : CompuElem) : List Str :=
  if e.lower = e.upper then [e.text]
  else (List.range (e.upper + 1 - e.lower).toNat).map fun i => e.text ++ natStr (i + 1)

/-- `','.join(items)`. -/
def joinComma : List Str → Str
  | [] => []
  | [a] => a
  | a :: b :: l => a ++ (',' :: joinComma (b :: l))

/-- `AutosarDataType._calcAttribute` for a `CompuMethodConst`. /repo/apx/base.py:864-876. -/
def valueTableAttr (elements : List CompuElem) : Str :=
  'V' :: 'T' :: '(' :: (joinComma ((elements.flatMap CompuElem.values).map fun x => '"' :: (x ++ ['"'])) ++ [')'])

end Apx
