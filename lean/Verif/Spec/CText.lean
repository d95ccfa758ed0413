import Verif.Model.GenCode
import Verif.Model.GenFile

/-!
How a C compiler reads the text of a generated function: tokens, declarations, statements. Only what is needed for
functions of the generated kind is read, one statement on each line; everything else is refused.
-/

namespace Apx

/-- A token: a word (identifier, keyword or number) or another character. -/
inductive CTok
  | word (s : Str)
  | sym (c : Char)
  deriving DecidableEq

/-- The characters of words. -/
def cWordChar (c : Char) : Bool := c.isAlphanum || c == '_'

/-- A character in front of a word. -/
def joinWord (c : Char) : List CTok → List CTok
  | .word w :: r => .word (c :: w) :: r
  | r => .word [c] :: r

/-- The tokens of a line; blanks separate. -/
def lexC : Str → List CTok
  | [] => []
  | c :: s =>
    if cWordChar c then
      if s.head?.any cWordChar then joinWord c (lexC s) else .word [c] :: lexC s
    else if c = ' ' then lexC s
    else .sym c :: lexC s

/-- A text that is one word. -/
def CWord (s : Str) : Prop := s ≠ [] ∧ ∀ c ∈ s, cWordChar c = true

instance (s : Str) : Decidable (CWord s) := inferInstanceAs (Decidable (_ ∧ _))

/-- A keyword or name. -/
def kw (s : String) : CTok := .word s.toList

/-- The keywords of C. -/
def cKeywords : List Str :=
  ["auto", "break", "case", "char", "const", "continue", "default", "do", "double", "else", "enum", "extern", "float", "for",
    "goto", "if", "inline", "int", "long", "register", "restrict", "return", "short", "signed", "sizeof", "static", "struct",
    "switch", "typedef", "union", "unsigned", "void", "volatile", "while", "_Bool", "_Complex", "_Imaginary"].map String.toList

/-- An identifier: a word that does not begin with a digit and is no keyword. -/
def CIdent (s : Str) : Prop := CWord s ∧ s.head?.all (fun c => !c.isDigit) = true ∧ s ∉ cKeywords

instance (s : Str) : Decidable (CIdent s) := inferInstanceAs (Decidable (_ ∧ _))

/-- The value of decimal digits. -/
def cDigits : Nat → Str → Option Nat
  | n, [] => some n
  | n, c :: s => if 48 ≤ c.toNat ∧ c.toNat ≤ 57 then cDigits (n * 10 + (c.toNat - 48)) s else none

/-- The value of a decimal number. (Numbers with a leading zero are octal.) -/
def cNumber (w : Str) : Option Nat :=
  if w = ['0'] then some 0
  else if w = [] ∨ w.head? = some '0' then none
  else cDigits 0 w

/-- The integer types. -/
def cIntType (w : Str) : Option IntT :=
  if w = "uint8_t".toList then some .u8
  else if w = "uint16_t".toList then some .u16
  else if w = "uint32_t".toList then some .u32
  else if w = "int8_t".toList then some .s8
  else if w = "int16_t".toList then some .s16
  else if w = "int32_t".toList then some .s32
  else none

/-- These tokens must come next. -/
def expect : List CTok → List CTok → Option (List CTok)
  | [], ts => some ts
  | _ :: _, [] => none
  | x :: xs, t :: ts => if x = t then expect xs ts else none

/-- A number with an optional sign. -/
def readInt : List CTok → Option (Int × List CTok)
  | .word w :: r => (cNumber w).map fun (n : Nat) => (Int.ofNat n, r)
  | .sym c :: .word w :: r => if c = '-' then (cNumber w).map fun (n : Nat) => (-Int.ofNat n, r) else none
  | _ => none

/-- A number without sign. -/
def readNat : List CTok → Option (Nat × List CTok)
  | .word w :: r => (cNumber w).map fun n => (n, r)
  | _ => none

/-- The name of an integer type. -/
def readIntType : List CTok → Option (IntT × List CTok)
  | .word w :: r => (cIntType w).map fun t => (t, r)
  | _ => none

/-- `[k]`. -/
def readIndex (ts : List CTok) : Option (Int × List CTok) := do
  let ts ← expect [.sym '['] ts
  let (k, ts) ← readInt ts
  let ts ← expect [.sym ']'] ts
  some (k, ts)

/-- What follows a variable: `->f`, `.f` and `[i]`. -/
def readPost : List CTok → CPath × List CTok
  | .sym '-' :: .sym '>' :: .word f :: r =>
    if CIdent f then (.arrow f :: (readPost r).1, (readPost r).2) else ([], .sym '-' :: .sym '>' :: .word f :: r)
  | .sym '.' :: .word f :: r =>
    if CIdent f then (.dot f :: (readPost r).1, (readPost r).2) else ([], .sym '.' :: .word f :: r)
  | .sym '[' :: .word ['i'] :: .sym ']' :: r => (.idx :: (readPost r).1, (readPost r).2)
  | r => ([], r)

/-- An lvalue made of the argument `val`. The operator `*` binds weaker than what follows the variable. -/
def readValue (ts : List CTok) : Option (CPath × List CTok) :=
  if ts.head? = some (.sym '*') then do
    let ts ← expect [.sym '*', kw "val"] ts
    some ((readPost ts).1 ++ [.star], (readPost ts).2)
  else do
    let ts ← expect [kw "val"] ts
    some (readPost ts)

/-- An element of the buffer: `*p`, `p[k]` or `buf[k]`. -/
def readElem (buf : Str) (ts : List CTok) : Option (CLoc × List CTok) :=
  if ts.head? = some (.sym '*') then do
    let ts ← expect [.sym '*', kw "p"] ts
    some (.rel 0, ts)
  else if ts.head? = some (kw "p") then do
    let (k, ts) ← readIndex ts.tail
    some (.rel k, ts)
  else do
    let ts ← expect [.word buf] ts
    let (k, ts) ← readIndex ts
    some (.abs k, ts)

/-- A place in the buffer: `p` or `&buf[k]`. -/
def readAddress (buf : Str) (ts : List CTok) : Option (CLoc × List CTok) :=
  if ts.head? = some (kw "p") then some (.rel 0, ts.tail)
  else do
    let ts ← expect [.sym '&', .word buf] ts
    let (k, ts) ← readIndex ts
    some (.abs k, ts)

/-- The rest of `loc = ...;` -/
def readStore (loc : CLoc) (ts : List CTok) : Option CSimple := do
  let ts ← expect [.sym '='] ts
  if ts.head? = some (.sym '\'') then do
    let ts ← expect (lexC "'\\0';".toList) ts
    if ts = [] then some (.zero loc) else none
  else do
    let ts ← expect (lexC "(uint8_t)".toList) ts
    let (v, ts) ← readValue ts
    if ts = [.sym ';'] then some (.storeByte loc v) else none

/-- The rest of `packLE(address,(uint32_t) v,(uint8_t) sizeof(T));` -/
def readPackLE (buf : Str) (ts : List CTok) : Option CSimple := do
  let ts ← expect [.sym '('] ts
  let (a, ts) ← readAddress buf ts
  let ts ← expect (lexC ",(uint32_t)".toList) ts
  let (v, ts) ← readValue ts
  let ts ← expect (lexC ",(uint8_t)sizeof(".toList) ts
  let (t, ts) ← readIntType ts
  if ts = lexC "));".toList then some (.packLE a v t) else none

/-- The rest of `memcpy(address,v,n);` or `memcpy(v,address,n);` -/
def readMemcpy (buf : Str) (ts : List CTok) : Option CSimple := do
  let ts ← expect [.sym '('] ts
  if ts.head? = some (kw "p") ∨ ts.head? = some (.sym '&') then do
    let (a, ts) ← readAddress buf ts
    let ts ← expect [.sym ','] ts
    let (v, ts) ← readValue ts
    let ts ← expect [.sym ','] ts
    let (n, ts) ← readInt ts
    if ts = lexC ");".toList then some (.copyIn a v n) else none
  else do
    let (v, ts) ← readValue ts
    let ts ← expect [.sym ','] ts
    let (a, ts) ← readAddress buf ts
    let ts ← expect [.sym ','] ts
    let (n, ts) ← readInt ts
    if ts = lexC ");".toList then some (.copyOut v a n) else none

/-- The rest of `p++;`, `p+=n;`, `p+=sizeof(T);` or `p[k]=...;` -/
def readPointer (ts : List CTok) : Option CSimple :=
  if ts = lexC "++;".toList then some (.advance 1)
  else if ts.take 3 = lexC "+=sizeof".toList then do
    let ts ← expect [.sym '('] (ts.drop 3)
    let (t, ts) ← readIntType ts
    if ts = lexC ");".toList then some (.advance t.size) else none
  else if ts.take 2 = lexC "+=".toList then do
    let (n, ts) ← readNat (ts.drop 2)
    if ts = [.sym ';'] then some (.advance n) else none
  else do
    let (k, ts) ← readIndex ts
    readStore (.rel k) ts

/-- `v = (T) element;` or `v = (T) unpackLE(address,(uint8_t) sizeof(T));` with the same type twice. -/
def readLoad (buf : Str) (ts : List CTok) : Option CSimple := do
  let (v, ts) ← readValue ts
  let ts ← expect (lexC "=(".toList) ts
  let (t, ts) ← readIntType ts
  let ts ← expect [.sym ')'] ts
  if ts.head? = some (kw "unpackLE") then do
    let ts ← expect [.sym '('] ts.tail
    let (a, ts) ← readAddress buf ts
    let ts ← expect (lexC ",(uint8_t)sizeof(".toList) ts
    let (t', ts) ← readIntType ts
    if ts = lexC "));".toList ∧ t' = t then some (.unpackLE v t a) else none
  else do
    let (l, ts) ← readElem buf ts
    if ts = [.sym ';'] then some (.loadByte v t l) else none

/-- A statement without inner statements. -/
def readSimple (buf : Str) (ts : List CTok) : Option CSimple :=
  if ts.head? = some (kw "packLE") then readPackLE buf ts.tail
  else if ts.head? = some (kw "memcpy") then readMemcpy buf ts.tail
  else if ts.head? = some (kw "p") then readPointer ts.tail
  else if ts.head? = some (.word buf) then do
    let (k, ts) ← readIndex ts.tail
    readStore (.abs k) ts
  else if ts.take 2 = lexC "*p".toList then readStore (.rel 0) (ts.drop 2)
  else readLoad buf ts

/-- `apx_nodeData_outPortDataWriteNotify(&m_nodeData, offset, len, direct);` without the name. -/
def readNotify (ts : List CTok) : Option CTop := do
  let ts ← expect (lexC "(&m_nodeData,".toList) ts
  let (o, ts) ← readNat ts
  let ts ← expect [.sym ','] ts
  let (n, ts) ← readNat ts
  let ts ← expect [.sym ','] ts
  if ts = lexC "true);".toList then some (.notify o n true)
  else if ts = lexC "false);".toList then some (.notify o n false)
  else none

/-- A statement on the outermost level that is not a loop. -/
def readTop (buf : Str) (ts : List CTok) : Option CTop :=
  if ts = lexC "apx_nodeData_lockOutPortData(&m_nodeData);".toList then some .lockOut
  else if ts = lexC "apx_nodeData_lockInPortData(&m_nodeData);".toList then some .lockIn
  else if ts = lexC "apx_nodeData_unlockInPortData(&m_nodeData);".toList then some .unlockIn
  else if ts.head? = some (kw "apx_nodeData_outPortDataWriteNotify") then readNotify ts.tail
  else if ts.take 2 = lexC "p=".toList then do
    let ts ← expect [.sym '&', .word buf, .sym '['] (ts.drop 2)
    let (k, ts) ← readNat ts
    if ts = lexC "];".toList then some (.setP k) else none
  else (readSimple buf ts).map fun s => .stmt (.simple s)

/-- `for(i=0;i<n;i++)` -/
def readFor (ts : List CTok) : Option Nat := do
  let ts ← expect (lexC "for(i=0;i<".toList) ts
  let (n, ts) ← readNat ts
  if ts = lexC ";i++)".toList then some n else none

/-- Where the reader is: outside of loops, after the head of a loop, or inside of one. -/
inductive InLoop
  | outside
  | head (n : Nat)
  | inside (n : Nat) (body : List CSimple)

/-- The statements of a function, one on each line. -/
def readStmts (buf : Str) : InLoop → List (List CTok) → Option (List CTop)
  | .outside, [] => some []
  | .outside, l :: ls =>
    if l.head? = some (kw "for") then do
      let n ← readFor l
      readStmts buf (.head n) ls
    else do
      let t ← readTop buf l
      let r ← readStmts buf .outside ls
      some (t :: r)
  | .head n, l :: ls => if l = [.sym '{'] then readStmts buf (.inside n []) ls else none
  | .inside n body, l :: ls =>
    if l = [.sym '}'] then do
      let r ← readStmts buf .outside ls
      some (.stmt (.loop n body) :: r)
    else do
      let s ← readSimple buf l
      readStmts buf (.inside n (body ++ [s])) ls
  | _, [] => none

/-- The variable for loops: `uint8_t i;`, `uint16_t i;` or `uint32_t i;`. -/
def loopVariable (ts : List CTok) : Option Nat :=
  if ts = lexC "uint8_t i;".toList then some 8
  else if ts = lexC "uint16_t i;".toList then some 16
  else if ts = lexC "uint32_t i;".toList then some 32
  else none

/-- Does the statement use `p`? -/
def CSimple.usesP : CSimple → Bool
  | .storeByte (.rel _) _ | .packLE (.rel _) _ _ | .loadByte _ _ (.rel _) | .unpackLE _ _ (.rel _) | .advance _
  | .copyIn (.rel _) _ _ | .copyOut _ (.rel _) _ | .zero (.rel _) => true
  | _ => false

/-- Does the statement use `p`? -/
def CTop.usesP : CTop → Bool
  | .setP _ => true
  | .stmt (.simple s) => s.usesP
  | .stmt (.loop _ body) => body.any CSimple.usesP
  | _ => false

/-- Is the statement a loop? -/
def CTop.isLoop : CTop → Bool
  | .stmt (.loop _ _) => true
  | _ => false

/-- The lines between the braces of a read or write function: the declarations of the variables `p` and `i`, the
statements, and `return E_OK;`. The variables that are used must be declared. -/
def readCode (buf : Str) (lines : List Str) : Option CFunc :=
  let ls := lines.map lexC
  let hasP := decide (ls.head? = some (lexC "uint8_t *p;".toList))
  let ls := if hasP then ls.tail else ls
  let bits := ls.head?.bind loopVariable
  let ls := if bits.isSome then ls.tail else ls
  if ls.getLast? = some (lexC "return E_OK;".toList) then do
    let body ← readStmts buf .outside ls.dropLast
    if (body.any CTop.usesP && !hasP) || (body.any CTop.isLoop && bits.isNone) then none
    else some ⟨bits, body⟩
  else none

/-! ### Heads of functions -/

/-- The name of a type: an identifier or `void`. -/
def CTypeName (s : Str) : Prop := CIdent s ∨ s = "void".toList

instance (s : Str) : Decidable (CTypeName s) := inferInstanceAs (Decidable (_ ∨ _))

/-- A type and what follows: `T` or `T *`. -/
def readType : List CTok → Option (CTy × List CTok)
  | .word t :: .sym '*' :: r => if CTypeName t then some (⟨t, true⟩, r) else none
  | .word t :: r => if CTypeName t then some (⟨t, false⟩, r) else none
  | _ => none

/-- The parameters up to the closing parenthesis, which ends the head. -/
def readParams : Nat → List CTok → Option (List CParam × List CTok)
  | 0, _ => none
  | fuel + 1, ts => do
    let (t, ts) ← readType ts
    match ts with
    | .word n :: .sym ',' :: r =>
      if CIdent n then do
        let (l, r) ← readParams fuel r
        some (⟨n, t⟩ :: l, r)
      else none
    | .word n :: .sym ')' :: r => if CIdent n then some ([⟨n, t⟩], r) else none
    | _ => none

/-- The head of a function, and what follows. -/
def readHead (ts : List CTok) : Option (CProto × List CTok) := do
  let (t, ts) ← readType ts
  match ts with
  | .word n :: .sym '(' :: r =>
    if CIdent n then
      if r.take 2 = [kw "void", .sym ')'] then some (⟨n, t, []⟩, r.drop 2)
      else do
        let (ps, r) ← readParams r.length r
        some (⟨n, t, ps⟩, r)
    else none
  | _ => none

end Apx
