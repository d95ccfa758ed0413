import Verif.Model.ComFile
import Verif.Model.GenPrint

/-!
The text of the files written by `ComGenerator` (apx/generator.py:723-891).

Simplifications.
* The texts of initializers come from the package `autosar`, which is not part of /repo; they are a parameter, and so is
  the guard that `C.hfile` makes of the name of the header.
* Of the layout only lines matter; the formats of the library `cfile` are those of `Model/GenPrint`.
-/

namespace Apx

/-- `var_modifier+local_var.inner.name`. /repo/apx/generator.py:759-771. -/
def comOperand (ref : Bool) (var : Str) : Str := (if ref then ['&'] else []) ++ var

/-- The comparison of a parameter with a variable. /repo/apx/generator.py:759-764. -/
def comCondText (arg var : Str) : Bool → Str
  | true => "if (memcmp(".toList ++ arg ++ ", ".toList ++ comOperand true var ++ ", sizeof(".toList ++ var ++ ")) != 0)".toList
  | false => "if (".toList ++ arg ++ " != ".toList ++ var ++ [')']

/-- The assignment of a parameter to a variable. /repo/apx/generator.py:766-769. -/
def comStoreText (arg var : Str) : Bool → Str
  | true => "memcpy(".toList ++ comOperand true var ++ ", ".toList ++ arg ++ ", sizeof(".toList ++ var ++ "));".toList
  | false => var ++ " = ".toList ++ arg ++ [';']

/-- The call of a function of the node. /repo/apx/generator.py:770,778. -/
def comCallText (func : Str) (ref : Bool) (x : Str) : Str := func ++ ['('] ++ comOperand ref x ++ ");".toList

/-- The lines between the braces. /repo/apx/generator.py:756-781. -/
def ComBody.lines : ComBody → List Str
  | .send arg var ref func =>
    [indentBy 3 (comCondText arg var ref), indentBy 3 ['{'], indentBy 6 (comStoreText arg var ref),
      indentBy 6 (comCallText func ref var), indentBy 3 ['}'], indentBy 3 "return E_OK;".toList]
  | .receive func arg => [indentBy 3 (comCallText func false arg), indentBy 3 "return E_OK;".toList]

/-- A function. /repo/apx/generator.py:886-889. -/
def ComDef.lines (d : ComDef) : List Str := [[], d.proto.text, ['{']] ++ d.body.lines ++ [['}']]

/-- `ComVariable.declaration()`; `init` gives the texts of the initializers of the variables.
/repo/apx/generator.py:723-729. -/
def comVarLine (init : Str → Str) (x : Str × Str) : Str :=
  "static ".toList ++ x.2 ++ [' '] ++ x.1 ++ " = ".toList ++ init x.1 ++ [';']

/-- The header file. /repo/apx/generator.py:834-850. -/
def ComHeader.text (guard : Str) (h : ComHeader) : Str :=
  fileText (guarded guard
    (commentHeader "INCLUDES".toList ++ h.includes.map includeLine ++ [[]] ++
      commentHeader "CONSTANTS AND DATA TYPES".toList ++ [[]] ++ commentHeader "GLOBAL FUNCTIONS".toList ++
      h.protos.map CProto.line))

/-- The source file; the first include is one of the system. /repo/apx/generator.py:852-891. -/
def ComSource.text (init : Str → Str) (s : ComSource) : Str :=
  fileText
    (commentHeader "INCLUDES".toList ++ (s.includes.take 1).map sysincludeLine ++ (s.includes.drop 1).map includeLine ++ [[]] ++
      commentHeader "CONSTANTS AND DATA TYPES".toList ++ [[]] ++ commentHeader "LOCAL FUNCTION PROTOTYPES".toList ++ [[]] ++
      commentHeader "LOCAL VARIABLES".toList ++ s.vars.map (comVarLine init) ++ [[]] ++
      commentHeader "GLOBAL FUNCTIONS".toList ++ (s.defs.map ComDef.lines).flatten)

end Apx
