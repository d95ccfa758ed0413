import Verif.Model.Node

/-!
The classes that make lines of APX text: `ApxSignature`, `ApxType` and `ApxPort` of /repo/apx/apx_writer.py, and
`AutosarRequirePort` and `AutosarProvidePort` of /repo/apx/base.py:807-847.

Simplifications.  The module `apx.apx_writer` is taken as it is: the names `math` and `typeData`, which it uses, are
defined nowhere in it, and are not assigned from outside.  The dicts given to it have the keys the code asks for.
Names and types are texts, lengths and limits integers; an init value is a text or a number, given here by its text.
-/

namespace Apx

/-- An object of the class `ApxSignature`. /repo/apx/apx_writer.py:1-6. -/
structure WSignature where
  mainType : Str
  name : Str
  dsg : Str
  attr : Option Str
  deriving DecidableEq

/-- `str(signature)`. /repo/apx/apx_writer.py:7-11. -/
def WSignature.str (s : WSignature) : Str :=
  match s.attr with
  | none => s.mainType ++ ('"' :: (s.name ++ ('"' :: s.dsg)))
  | some a =>
    if a.length > 0 then s.mainType ++ ('"' :: (s.name ++ ('"' :: (s.dsg ++ (':' :: a)))))
    else s.mainType ++ ('"' :: (s.name ++ ('"' :: s.dsg)))

/-- A dict that describes a data type, by the value of its key `type`. -/
inductive WType
  | boolean
  | integer (min max : Int)
  | array (typeRef : Str) (length : Int)
  | string (length : Int)
  | record (elements : List (Str × Str))
  | other (type : Str)
  deriving DecidableEq

/-- `_calcUIntTypeLen(dataType)` of an integer type: the name `math` is not defined.
/repo/apx/apx_writer.py:14-19. -/
def calcUIntTypeLen (min : Int) : Py (Option Int) :=
  if min = 0 then .error .nameError else .ok none

/-- `_calcIntTypeLen(dataType)` of an integer type. /repo/apx/apx_writer.py:21-26. -/
def calcIntTypeLen (min : Int) : Py (Option Int) :=
  if min < 0 then .error .nameError else .ok none

/-- `'%s(%d,%d)'`. -/
def limitsStr (letter : Char) (min max : Int) : Str :=
  letter :: '(' :: (intStr min ++ (',' :: (intStr max ++ [')'])))

/-- What `_getIntegerTypeCode` makes of the number of bits; `None` cannot be compared with a number.
Without a result the method returns `None`. /repo/apx/apx_writer.py:67-77,80-90. -/
def codeOfBits (letters : List Char) (min max : Int) (limited : Bool) : Option Int → Py (Option Str)
  | none => .error .typeError
  | some b =>
    match letters with
    | [c, s, l, u] =>
      if b ≤ 8 then .ok (some (if limited then limitsStr c min max else [c]))
      else if b ≤ 16 then .ok (some [s])
      else if b ≤ 32 then .ok (some [l])
      else if b ≤ 64 then .ok (some [u])
      else .ok none
    | _ => .ok none

/-- `_getIntegerTypeCode(dataType)`. /repo/apx/apx_writer.py:62-92. -/
def getIntegerTypeCode (min max : Int) : Py (Option Str) :=
  if min ≥ 0 then do
    let b ← calcUIntTypeLen min
    codeOfBits ['C', 'S', 'L', 'U'] min max (decide (min > 0) || decide (max < 255)) b
  else do
    let b ← calcIntTypeLen min
    codeOfBits ['c', 's', 'l', 'u'] min max (decide (min > -128) || decide (max < 127)) b

/-- `_calcDataSignature(dataType)`: arrays, and records with elements, need `typeData`.
/repo/apx/apx_writer.py:28-60. -/
def WType.signature : WType → Py (Option Str)
  | .boolean => .ok (some "C(0,1)".toList)
  | .integer min max => getIntegerTypeCode min max
  | .array _ _ => .error .nameError
  | .string length => .ok (some ('a' :: '[' :: (intStr (length + 1) ++ [']'])))
  | .record [] => .ok (some ['{', '}'])
  | .record (_ :: _) => .error .nameError
  | .other _ => .error .genericException

/-- `_calcAttribute(dataType)`. /repo/apx/apx_writer.py:94-101. -/
def WType.attribute : WType → Py (Option Str)
  | .integer _ _ => .error .nameError
  | _ => .ok none

/-- `ApxType(dataType).signature`. /repo/apx/apx_writer.py:103-105. -/
def apxType (name : Str) (t : WType) : Py WSignature := do
  let d ← t.signature
  let a ← t.attribute
  .ok ⟨['T'], name, d.getD "None".toList, a⟩

/-- The dict `attrib` of an `ApxPort`. /repo/apx/apx_writer.py:108-112. -/
structure WAttrib where
  initValue : Option Str
  isQueued : Bool
  queueLen : Option Int
  isParameter : Bool
  deriving DecidableEq

/-- `getAttrStr()`. /repo/apx/apx_writer.py:113-124. -/
def WAttrib.str (a : WAttrib) : Str :=
  (match a.initValue with
    | some v => '=' :: v
    | none => []) ++
  ((if a.isQueued then
      match a.queueLen with
      | some n => 'Q' :: '[' :: (intStr n ++ [']'])
      | none => ['Q']
    else []) ++
  (if a.isParameter then ['P'] else []))

/-- An object of the class `AutosarRequirePort` or `AutosarProvidePort`; the attribute `attr` need not exist.
/repo/apx/base.py:807-847. -/
structure AutoPort where
  side : Side
  name : Str
  typeId : Int
  attr : Option (Option Str)
  deriving DecidableEq

/-- The constructor; with a workspace and a port it calls a method that does not exist.
/repo/apx/base.py:811-819,832-836. -/
def autoPort (side : Side) (name : Str) (typeId : Int) (withPort : Bool) : Py AutoPort :=
  if withPort then .error .attributeError else .ok ⟨side, name, typeId, none⟩

/-- `str(port)`. /repo/apx/base.py:821-825,838-842. -/
def AutoPort.str (p : AutoPort) : Py Str :=
  match p.attr with
  | none => .error .attributeError
  | some a => .ok (lineText (if p.side = .require then 'R' else 'P') p.name ('T' :: '[' :: (intStr p.typeId ++ [']'])) a)

/-- `port.mirror()`. /repo/apx/base.py:827-830,844-847. -/
def AutoPort.mirror (p : AutoPort) : Py AutoPort :=
  match p.attr with
  | none => .error .attributeError
  | some a => .ok ⟨if p.side = .require then .provide else .require, p.name, p.typeId, some a⟩

end Apx
