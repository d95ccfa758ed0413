import Verif.Model.Py

/-!
Text helpers: `match_pair` and `parse_str` of apx/base.py, and the behaviour of the Python
built-ins `int(str)`, `'{:d}'.format` and `str` methods that the parsers use.
-/

namespace Apx

/-- The loop of `match_pair` after the opening character, with `count` open pairs.
Returns the text before and after the matching `right`.
/repo/apx/base.py:36-44. -/
def matchGo (left right : Char) : Nat → Str → Option (Str × Str)
  | _, [] => none
  | count, c :: s =>
    if c = right then
      if count - 1 = 0 then some ([], s)
      else (matchGo left right (count - 1) s).map fun (a, b) => (c :: a, b)
    else if c = left then
      (matchGo left right (count + 1) s).map fun (a, b) => (c :: a, b)
    else (matchGo left right count s).map fun (a, b) => (c :: a, b)

/-- `match_pair(s,left,right)`; Python `None` is `none`. /repo/apx/base.py:34-45. -/
def matchPair (s : Str) (left right : Char) : Option Str × Str :=
  match s with
  | [] => (none, [])
  | c :: t =>
    if c = left then
      match matchGo left right 1 t with
      | some (a, b) => (some a, b)
      | none => (none, [])
    else (none, s)

/-- `parse_str(s)`. /repo/apx/base.py:47-48. -/
def parseStr (s : Str) : Option Str × Str := matchPair s '"' '"'

/-- `c.isspace()` for the characters up to U+00FF (further Unicode spaces are not modelled). -/
def isSpace (c : Char) : Bool :=
  c.toNat = 0x20 || (0x09 ≤ c.toNat && c.toNat ≤ 0x0d) || (0x1c ≤ c.toNat && c.toNat ≤ 0x1f) ||
    c.toNat = 0x85 || c.toNat = 0xa0

/-- `s.lstrip()`. -/
def lstrip (s : Str) : Str := s.dropWhile isSpace

/-- `s.rstrip(chars)`, with the set of characters given by a predicate. -/
def rstripP (p : Char → Bool) (s : Str) : Str := (s.reverse.dropWhile p).reverse

/-- `s.strip()`. -/
def strip (s : Str) : Str := rstripP isSpace (lstrip s)

/-- Value of an ASCII decimal digit (other Unicode digits are not modelled). -/
def digitVal (c : Char) : Option Nat :=
  if 48 ≤ c.toNat ∧ c.toNat ≤ 57 then some (c.toNat - 48) else none

/-- Digits, possibly with single underscores between them, as `int()` accepts them. `last` tells
whether the previous character was a digit. -/
def digitsGo : Nat → Bool → Str → Option Nat
  | acc, last, [] => if last then some acc else none
  | acc, last, c :: s =>
    if c = '_' then (if last then digitsGo acc false s else none)
    else match digitVal c with
      | some d => digitsGo (acc * 10 + d) true s
      | none => none

/-- `int(s)`: optional surrounding blanks, an optional sign, digits; `ValueError` otherwise. -/
def pyInt (s : Str) : Py Int :=
  match strip s with
  | '-' :: t => match digitsGo 0 false t with
    | some n => .ok (-(n : Int))
    | none => .error .valueError
  | '+' :: t => match digitsGo 0 false t with
    | some n => .ok (n : Int)
    | none => .error .valueError
  | t => match digitsGo 0 false t with
    | some n => .ok (n : Int)
    | none => .error .valueError

/-- Character of a decimal digit. -/
def digitChar (d : Nat) : Char := Char.ofNat (48 + d)

/-- Decimal digits of a natural number, most significant first. -/
def natStr (n : Nat) : Str :=
  if n < 10 then [digitChar n] else natStr (n / 10) ++ [digitChar (n % 10)]
termination_by n
decreasing_by omega

/-- `'{:d}'.format(v)`. -/
def intStr (v : Int) : Str :=
  if v < 0 then '-' :: natStr v.natAbs else natStr v.natAbs

/-- `s.split(sep)` for a one-character separator. -/
def splitOn (sep : Char) : Str → List Str
  | [] => [[]]
  | c :: s =>
    if c = sep then [] :: splitOn sep s
    else match splitOn sep s with
      | [] => [[c]]
      | x :: xs => (c :: x) :: xs

end Apx
