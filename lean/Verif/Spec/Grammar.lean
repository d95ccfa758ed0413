import Verif.Spec.Signature

/-! The language of data signatures (C64), given as a grammar. -/

namespace Apx

/-- Characters that `int()` ignores around a number. -/
def BlankText (c : Char) : Prop :=
  c.toNat ∈ [0x09, 0x0a, 0x0b, 0x0c, 0x0d, 0x1c, 0x1d, 0x1e, 0x1f, 0x20, 0x85, 0xa0]

/-- `c` is the decimal digit `d`. -/
def DigitIs (c : Char) (d : Nat) : Prop := d < 10 ∧ c.toNat = 48 + d

/-- Decimal digits, single underscores between them allowed. -/
inductive DigitsText : Str → Nat → Prop
  | one (c : Char) (d : Nat) : DigitIs c d → DigitsText [c] d
  | more (s : Str) (n : Nat) (c : Char) (d : Nat) : DigitsText s n → DigitIs c d → DigitsText (s ++ [c]) (10 * n + d)
  | moreUnderscore (s : Str) (n : Nat) (c : Char) (d : Nat) : DigitsText s n → DigitIs c d →
      DigitsText (s ++ ['_', c]) (10 * n + d)

/-- Digits with an optional sign. -/
inductive SignedText : Str → Int → Prop
  | unsigned (s : Str) (n : Nat) : DigitsText s n → SignedText s n
  | plus (s : Str) (n : Nat) : DigitsText s n → SignedText ('+' :: s) n
  | minus (s : Str) (n : Nat) : DigitsText s n → SignedText ('-' :: s) (-n)

/-- The text of an integer. -/
def IntText (s : Str) (v : Int) : Prop :=
  ∃ b1 t b2, s = b1 ++ t ++ b2 ∧ (∀ c ∈ b1, BlankText c) ∧ (∀ c ∈ b2, BlankText c) ∧ SignedText t v

/-- Text in which every `r` closes an `l` before it and every `l` is closed. -/
inductive Nested (l r : Char) : Str → Prop
  | nil : Nested l r []
  | char (c : Char) (s : Str) : c ≠ l → c ≠ r → Nested l r s → Nested l r (c :: s)
  | pair (s t : Str) : Nested l r s → Nested l r t → Nested l r (l :: (s ++ r :: t))

/-- The optional range: two integers in parentheses. Anything may follow after a further comma. -/
inductive RangeText : Str → Option Int → Option Int → Prop
  | none : RangeText [] .none .none
  | two (a b : Str) (mn mx : Int) : IntText a mn → IntText b mx →
      RangeText ('(' :: (a ++ ',' :: b ++ [')'])) (some mn) (some mx)
  | more (a b junk : Str) (mn mx : Int) : IntText a mn → IntText b mx → Nested '(' ')' junk →
      RangeText ('(' :: (a ++ ',' :: b ++ ',' :: junk ++ [')'])) (some mn) (some mx)

/-- The optional array length, which is not negative. -/
inductive ArrayText : Str → Option Nat → Prop
  | none : ArrayText [] .none
  | len (a : Str) (n : Nat) : IntText a n → ArrayText ('[' :: (a ++ [']'])) (some n)

/-- The letters of the integer and string types. -/
def letterOf : TypeCode → Char
  | .u8 => 'C' | .u16 => 'S' | .u32 => 'L' | .u64 => 'U'
  | .s8 => 'c' | .s16 => 's' | .s32 => 'l' | .s64 => 'u'
  | .str => 'a'

mutual
/-- The text of a data signature. -/
inductive SigText : Str → Elem → Prop
  | prim (tc : TypeCode) (r a : Str) (mn mx : Option Int) (n : Option Nat) : RangeText r mn mx → ArrayText a n →
      SigText (letterOf tc :: (r ++ a)) (.prim tc mn mx n)
  | refName (s : Str) : QuoteFree s → Nested '[' ']' s → SigText ('T' :: '[' :: '"' :: (s ++ ['"', ']'])) (.refName s)
  | refId (s : Str) (i : Int) : IntText s i → SigText ('T' :: '[' :: (s ++ [']'])) (.refId i)
  | record (s : Str) (fs : Fields) : FieldsText s fs → SigText ('{' :: s) (.record fs none)
/-- The fields of a record, with the closing brace. Fields may lack a name, and a name before the
closing brace is ignored. -/
inductive FieldsText : Str → Fields → Prop
  | close : FieldsText ['}'] .nil
  | closeNamed (n : Str) : QuoteFree n → FieldsText ('"' :: (n ++ ['"', '}'])) .nil
  | field (n s t : Str) (e : Elem) (fs : Fields) : QuoteFree n → SigText s e → FieldsText t fs →
      FieldsText ('"' :: (n ++ '"' :: (s ++ t))) (.cons (some n) e fs)
  | nameless (s t : Str) (e : Elem) (fs : Fields) : SigText s e → FieldsText t fs → FieldsText (s ++ t) (.cons none e fs)
end

end Apx
