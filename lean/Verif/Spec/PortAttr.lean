import Verif.Model.InitValue

/-! Specification vocabulary for init value attributes (C51): what the texts of an init value are. -/

namespace Apx

/-- `c` is the digit with value `d`. -/
def IsDigit (c : Char) (d : Nat) : Prop :=
  "0123456789ABCDEF".toList[d]? = some c ∨ "0123456789abcdef".toList[d]? = some c

/-- `s` is a numeral for `n` in base `b`. -/
inductive Numeral (b : Nat) : Str → Nat → Prop
  | digit (c d) : IsDigit c d → d < b → Numeral b [c] d
  | snoc (s n c d) : Numeral b s n → IsDigit c d → d < b → Numeral b (s ++ [c]) (n * b + d)

/-- Only blanks. -/
def Blank (s : Str) : Prop := ∀ c ∈ s, c = ' ' ∨ c = '\t'

mutual
/-- `s` is a text for the init value `v`: numbers in decimal (with a minus sign if negative) or in
hexadecimal after `0x`, quoted strings, lists in braces with commas between the elements and blanks
anywhere around the elements. -/
inductive Spells : InitVal → Str → Prop
  | dec (s n) : Numeral 10 s n → Spells (.int n) s
  | neg (s n) : Numeral 10 s n → Spells (.int (-(n : Int))) ('-' :: s)
  | hex (s n) : Numeral 16 s n → Spells (.int n) ('0' :: 'x' :: s)
  | str (s) : '"' ∉ s → '{' ∉ s → '}' ∉ s → Spells (.str s) ('"' :: (s ++ ['"']))
  | list (l s) : SpellsItems l s → Spells (.list l) ('{' :: (s ++ ['}']))

/-- See `Spells`: the elements of a (non-empty) list. -/
inductive SpellsItems : List InitVal → Str → Prop
  | last (v s a b) : Spells v s → Blank a → Blank b → SpellsItems [v] (a ++ (s ++ b))
  | cons (v s a b l t) : Spells v s → Blank a → Blank b → SpellsItems l t →
      SpellsItems (v :: l) (a ++ (s ++ (b ++ (',' :: t))))
end

mutual
/-- Built from integers, strings without quote or brace characters and non-empty lists. -/
def InitVal.Plain : InitVal → Prop
  | .int _ => True
  | .str s => '"' ∉ s ∧ '{' ∉ s ∧ '}' ∉ s
  | .list l => l ≠ [] ∧ AllPlain l
  | .missing => False
/-- See `InitVal.Plain`. -/
def AllPlain : List InitVal → Prop
  | [] => True
  | v :: l => v.Plain ∧ AllPlain l
end

end Apx
