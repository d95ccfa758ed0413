import Verif.Spec.CText
import Verif.Model.GenInit

/-!
How a C compiler reads a generated file: the definitions of macros, the objects, the functions; and what a call of the
functions `ApxNode_Init_*` and `ApxNode_IsConnected_*` does, given the text between their braces. One declaration or
statement is on each line, and the brace in the first column ends a function; everything else is refused.
-/

namespace Apx

/-- A character in front of the first line. -/
def consLine (c : Char) : List Str → List Str
  | [] => [[c]]
  | l :: r => (c :: l) :: r

/-- The lines of a text. -/
def cLines : Str → List Str
  | [] => []
  | c :: s => if c = '\n' then [] :: cLines s else consLine c (cLines s)

/-- What a source file consists of. -/
inductive CItem
  /-- `#define NAME 12u` -/
  | define (name : Str) (value : Nat)
  /-- `static uint8_t name[SIZE];`, or `static const uint8_t name[SIZE]= {` numbers `};` -/
  | array (name size : Str) (init : Option (List Nat))
  /-- `static type name;` -/
  | object (type name : Str)
  /-- `static const char *name=` literals `;` -/
  | literal (name text : Str)
  /-- a function, with the lines between its braces -/
  | func (head : CProto) (lines : List Str)
  deriving DecidableEq

/-- A function of the file. -/
def CItem.function : CItem → Option (CProto × List Str)
  | .func p l => some (p, l)
  | _ => none

/-- Where the reader is: between declarations, in an initializer with numbers, in one with literals, after the head of a
function, or between its braces. -/
inductive CPlace
  | top
  | numbers (name size : Str) (toks : List CTok)
  | literals (name text : Str)
  | head (p : CProto)
  | body (p : CProto) (lines : List Str)
  deriving DecidableEq

/-- Empty lines, comments on a line, and `#include`. -/
def cSkipped (l : Str) : Bool :=
  decide (l = [] ∨ l.take 2 = "//".toList ∨ l.take 9 = "#include ".toList ∨
    (l.take 2 = "/*".toList ∧ l.drop (l.length - 2) = "*/".toList ∧ '*' ∉ (l.drop 2).dropLast.dropLast))

/-- `12u`. -/
def readUnsigned (w : Str) : Option Nat := if w.getLast? = some 'u' then cNumber w.dropLast else none

/-- Numbers with commas between them. -/
def readNumbers : List CTok → Option (List Nat)
  | [.word w] => (cNumber w).map fun n => [n]
  | .word w :: .sym ',' :: r => (cNumber w).bind fun n => (readNumbers r).map fun l => n :: l
  | _ => none

/-- A declaration after the word `static`. -/
def readStatic : List CTok → Option (CPlace ⊕ CItem)
  | [.word a, .word b, .word n, .sym '[', .word s, .sym ']', .sym '=', .sym '{'] =>
    if a = "const".toList ∧ b = "uint8_t".toList ∧ CIdent n ∧ CIdent s then some (.inl (.numbers n s [])) else none
  | [.word a, .word b, .sym '*', .word n, .sym '='] =>
    if a = "const".toList ∧ b = "char".toList ∧ CIdent n then some (.inl (.literals n [])) else none
  | [.word t, .word n, .sym '[', .word s, .sym ']', .sym ';'] =>
    if t = "uint8_t".toList ∧ CIdent n ∧ CIdent s then some (.inr (.array n s none)) else none
  | [.word t, .word n, .sym ';'] => if CIdent t ∧ CIdent n then some (.inr (.object t n)) else none
  | _ => none

/-- A line between declarations. -/
def readDecl (ts : List CTok) : Option (CPlace ⊕ CItem) :=
  if ts.head? = some (.sym '#') then
    match ts.tail with
    | [.word d, .word n, .word v] =>
      if d = "define".toList ∧ CIdent n then (readUnsigned v).map fun v => .inr (.define n v) else none
    | _ => none
  else if ts.head? = some (kw "static") then readStatic ts.tail
  else (readHead ts).bind fun x => if x.2 = [] then some (.inl (.head x.1)) else none

/-- The lines of a source file. -/
def readItems : CPlace → List Str → Option (List CItem)
  | .top, [] => some []
  | .top, l :: ls =>
    if cSkipped l then readItems .top ls
    else match readDecl (lexC l) with
      | some (.inl p) => readItems p ls
      | some (.inr i) => (readItems .top ls).map fun r => i :: r
      | none => none
  | .numbers n s ts, l :: ls =>
    if lexC l = lexC "};".toList then (readNumbers ts).bind fun x => (readItems .top ls).map fun r => .array n s (some x) :: r
    else readItems (.numbers n s (ts ++ lexC l)) ls
  | .literals n text, l :: ls =>
    if l.getLast? = some ';' then (readItems .top ls).map fun r => .literal n (text ++ l) :: r
    else readItems (.literals n (text ++ l ++ ['\n'])) ls
  | .head p, l :: ls => if l = ['{'] then readItems (.body p []) ls else none
  | .body p lines, l :: ls =>
    if l = ['}'] then (readItems .top ls).map fun r => .func p lines :: r
    else readItems (.body p (lines ++ [l])) ls
  | _, [] => none

/-- A source file. -/
def readSource (text : Str) : Option (List CItem) := readItems .top (cLines text)

/-! ### What names mean in the file -/

/-- The value in the definition of a macro with this name. -/
def CItem.macroValue (name : Str) : CItem → Option Nat
  | .define n v => if n = name then some v else none
  | _ => none

/-- The size in the declaration of an array with this name that can be changed. -/
def CItem.sizeName (name : Str) : CItem → Option Str
  | .array n s none => if n = name then some s else none
  | _ => none

/-- The size and the numbers in the declaration of a constant array with this name. -/
def CItem.numbers (name : Str) : CItem → Option (Str × List Nat)
  | .array n s (some l) => if n = name then some (s, l) else none
  | _ => none

/-- The value of a macro; there is none if it is defined with different values. -/
def macroOf (u : List CItem) (name : Str) : Option Nat :=
  match u.filterMap (CItem.macroValue name) with
  | [] => none
  | v :: l => if l.all fun w => decide (w = v) then some v else none

/-- The size of an array that can be changed. -/
def arraySize (u : List CItem) (name : Str) : Option Nat :=
  match u.filterMap (CItem.sizeName name) with
  | [s] => macroOf u s
  | _ => none

/-- The contents of a constant array: there must not be more numbers than elements; the elements without number are
zero. -/
def constBytes (u : List CItem) (name : Str) : Option Bytes :=
  match u.filterMap (CItem.numbers name) with
  | [(s, l)] => (macroOf u s).bind fun k =>
    if l.length ≤ k ∧ l.all (fun n => decide (n < 256)) then
      some (l.map UInt8.ofNat ++ List.replicate (k - l.length) 0) else none
  | _ => none

/-! ### Calls -/

/-- The arguments for the data of one direction: the array with the data, the array with flags (or `NULL`), the
length. -/
structure CBuffer where
  data : Str
  flags : Option Str
  len : Nat
  deriving DecidableEq

/-- What `m_nodeData` has been told. -/
structure CNodeData where
  name : Str
  definition : Str
  defLen : Nat
  inData : Option CBuffer
  outData : Option CBuffer
  handler : Option Str
  deriving DecidableEq

/-- The contents of the arrays that can be changed, the local variable `nodeDataHandler`, and `m_nodeData`. -/
structure CMem where
  bytes : Str → Bytes
  table : CTable
  node : Option CNodeData

/-- The arrays have the declared sizes. -/
def CMem.Fits (u : List CItem) (m : CMem) : Prop := ∀ name n, arraySize u name = some n → (m.bytes name).length = n

/-- The contents of an array are replaced. -/
def CMem.put (m : CMem) (name : Str) (b : Bytes) : CMem := { m with bytes := fun a => if a = name then b else m.bytes a }

/-- The rest of `memcpy(&a[0], &b[0], N);`, where `a` can be changed and `b` is constant. -/
def cMemcpy (u : List CItem) (m : CMem) : List CTok → Option CMem
  | [.sym '(', .sym '&', .word a, .sym '[', .word i, .sym ']', .sym ',', .sym '&', .word b, .sym '[', .word j, .sym ']', .sym ',',
      .word k, .sym ')', .sym ';'] =>
    if i = ['0'] ∧ j = ['0'] then
      (arraySize u a).bind fun n => (constBytes u b).bind fun src => (macroOf u k).bind fun len =>
        if len ≤ n ∧ len ≤ src.length then some (m.put a (src.take len ++ (m.bytes a).drop len)) else none
    else none
  | _ => none

/-- The rest of `memset(&a[0], 0, sizeof(a));` or `memset(&nodeDataHandler, 0, sizeof(nodeDataHandler));` -/
def cMemset (u : List CItem) (m : CMem) : List CTok → Option CMem
  | [.sym '(', .sym '&', .word a, .sym '[', .word i, .sym ']', .sym ',', .word z, .sym ',', .word s, .sym '(', .word b, .sym ')',
      .sym ')', .sym ';'] =>
    if i = ['0'] ∧ z = ['0'] ∧ s = "sizeof".toList ∧ a = b then
      (arraySize u a).map fun n => m.put a (List.replicate n 0)
    else none
  | [.sym '(', .sym '&', .word a, .sym ',', .word z, .sym ',', .word s, .sym '(', .word b, .sym ')', .sym ')', .sym ';'] =>
    if a = "nodeDataHandler".toList ∧ z = ['0'] ∧ s = "sizeof".toList ∧ a = b ∧ m.table ≠ .missing then
      some { m with table := .set none }
    else none
  | _ => none

/-- `0, 0, 0` or `&a[0], flags, N`, where the flags are `&b[0]` or `NULL`; and what follows. The arrays must have that
size. -/
def readBuffer (u : List CItem) : List CTok → Option (Option CBuffer × List CTok)
  | .word a :: .sym ',' :: .word b :: .sym ',' :: .word c :: r =>
    if a = ['0'] ∧ b = ['0'] ∧ c = ['0'] then some (none, r) else none
  | .sym '&' :: .word a :: .sym '[' :: .word i :: .sym ']' :: .sym ',' :: .sym '&' :: .word b :: .sym '[' :: .word j :: .sym ']' ::
      .sym ',' :: .word k :: r =>
    if i = ['0'] ∧ j = ['0'] ∧ (macroOf u k).isSome ∧ arraySize u a = macroOf u k ∧ arraySize u b = macroOf u k then
      (macroOf u k).map fun n => (some ⟨a, some b, n⟩, r)
    else none
  | .sym '&' :: .word a :: .sym '[' :: .word i :: .sym ']' :: .sym ',' :: .word z :: .sym ',' :: .word k :: r =>
    if i = ['0'] ∧ z = "NULL".toList ∧ (macroOf u k).isSome ∧ arraySize u a = macroOf u k then
      (macroOf u k).map fun n => (some ⟨a, none, n⟩, r)
    else none
  | _ => none

/-- The rest of `apx_nodeData_create(&m_nodeData, "name", (uint8_t*) &definition[0], N, in, out);` -/
def cCreate (u : List CItem) (m : CMem) (ts : List CTok) : Option CMem := do
  let ts ← expect (lexC "(&m_nodeData,\"".toList) ts
  match ts with
  | .word name :: ts => do
    let ts ← expect (lexC "\",(uint8_t*)&".toList) ts
    match ts with
    | .word d :: ts => do
      let ts ← expect (lexC "[0],".toList) ts
      match ts with
      | .word k :: .sym ',' :: ts => do
        let len ← macroOf u k
        let (i, ts) ← readBuffer u ts
        let ts ← expect [.sym ','] ts
        let (o, ts) ← readBuffer u ts
        if ts = lexC ");".toList ∧ .object "apx_nodeData_t".toList "m_nodeData".toList ∈ u then
          some { m with node := some ⟨name, d, len, i, o, none⟩ }
        else none
      | _ => none
    | _ => none
  | _ => none

/-- `apx_nodeData_setHandlerTable(&m_nodeData, &nodeDataHandler);`: both must have been initialized. -/
def cInstall (m : CMem) : Option CMem :=
  match m.table, m.node with
  | .set h, some n => some { m with node := some { n with handler := h } }
  | _, _ => none

/-- `nodeDataHandler.inPortDataWritten = f;` -/
def cAssign (m : CMem) (f : Str) : Option CMem :=
  match m.table with
  | .missing => none
  | .garbage => some m
  | .set _ => some { m with table := .set (some f) }

/-- A statement. -/
def cExec (u : List CItem) (m : CMem) (ts : List CTok) : Option CMem :=
  if ts.head? = some (kw "memcpy") then cMemcpy u m ts.tail
  else if ts.head? = some (kw "memset") then cMemset u m ts.tail
  else if ts.head? = some (kw "apx_nodeData_create") then cCreate u m ts.tail
  else if ts = lexC "apx_nodeData_setHandlerTable(&m_nodeData,&nodeDataHandler);".toList then cInstall m
  else if ts = lexC "apx_nodeDataHandlerTable_t nodeDataHandler;".toList then some { m with table := .garbage }
  else if ts.take 4 = lexC "nodeDataHandler.inPortDataWritten=".toList then
    match ts.drop 4 with
    | [.word f, .sym ';'] => cAssign m f
    | _ => none
  else none

/-- A call of a function with these lines between its braces, which returns the address of `m_nodeData`. -/
def cCall (u : List CItem) : List Str → CMem → Option CMem
  | [], _ => none
  | l :: ls, m =>
    if ls = [] then
      if lexC l = lexC "return &m_nodeData;".toList then some { m with table := .missing } else none
    else (cExec u m (lexC l)).bind (cCall u ls)

/-- Is the file with in-port data (out-port data) of `m_nodeData` open? -/
def cIsOpen (inOpen outOpen : Bool) (ts : List CTok) : Option Bool :=
  if ts = lexC "apx_nodeData_isInPortDataOpen(&m_nodeData)".toList then some inOpen
  else if ts = lexC "apx_nodeData_isOutPortDataOpen(&m_nodeData)".toList then some outOpen
  else if ts = [kw "false"] then some false
  else none

/-- What a function with these lines between its braces returns: `return e;` or `return ( e && e );`. -/
def cCondition (inOpen outOpen : Bool) (lines : List Str) : Option Bool :=
  match lines.map lexC with
  | [.word r :: ts] =>
    if r = "return".toList ∧ ts.getLast? = some (.sym ';') then
      if ts.head? = some (.sym '(') then
        if (ts.drop 6).take 2 = [.sym '&', .sym '&'] ∧ ts.drop 13 = lexC ");".toList then
          (cIsOpen inOpen outOpen (ts.tail.take 5)).bind fun a => (cIsOpen inOpen outOpen ((ts.drop 8).take 5)).map fun b => a && b
        else none
      else cIsOpen inOpen outOpen ts.dropLast
    else none
  | _ => none

end Apx
