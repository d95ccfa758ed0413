import Verif.Spec.PortAttr

/-! Specification vocabulary for emitted C text (C68-C70): what C's string literals and initializers mean. -/

namespace Apx

/-- The characters denoted by a sequence of C string literals ended by a semicolon, only blanks and line
feeds being between them; the flag tells whether we are inside a literal. Escape sequences other than
`\n`, `\"` and `\\` are not needed and have no meaning here; a line break inside a literal is an
error. -/
def cLiterals : Bool → Str → Option Str
  | false, ';' :: _ => some []
  | false, '"' :: s => cLiterals true s
  | false, ' ' :: s => cLiterals false s
  | false, '\n' :: s => cLiterals false s
  | false, _ => none
  | true, '"' :: s => cLiterals false s
  | true, '\\' :: 'n' :: s => (cLiterals true s).map ('\n' :: ·)
  | true, '\\' :: '"' :: s => (cLiterals true s).map ('"' :: ·)
  | true, '\\' :: '\\' :: s => (cLiterals true s).map ('\\' :: ·)
  | true, '\\' :: _ => none
  | true, '\n' :: _ => none
  | true, '\r' :: _ => none
  | true, c :: s => (cLiterals true s).map (c :: ·)
  | true, [] => none

/-- Only blanks and line feeds. -/
def CBlank (s : Str) : Prop := ∀ c ∈ s, c = ' ' ∨ c = '\n'

/-- A decimal integer constant of C: no leading zero, which would make it octal. -/
def CDecimal (s : Str) (n : Nat) : Prop := Numeral 10 s n ∧ (s.head? = some '0' → s = ['0'])

/-- The text between the braces of an initializer, and its values. -/
inductive CItems : Str → List Nat → Prop
  | last (a s b n) : CBlank a → CDecimal s n → CBlank b → CItems (a ++ (s ++ b)) [n]
  | cons (a s b n t l) : CBlank a → CDecimal s n → CBlank b → CItems t l → CItems (a ++ (s ++ (b ++ (',' :: t)))) (n :: l)

end Apx
