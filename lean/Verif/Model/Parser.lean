import Verif.Model.Node

/-!
The parser of APX definitions: apx/parser.py.

Simplifications.
* `lineNumber`, which only occurs in messages, is left out.
* A file is represented by the text it contains, after the newline translation done by Python's text
  files.
* The parser keeps the node it returned; the model does not follow what the caller does to that node
  before the next call.
-/

namespace Apx

/-- `START_SECTION` ... `REQUIRE_SECTION`. /repo/apx/parser.py:9-13. -/
inductive Section
  | start
  | node
  | type
  | provide
  | require
  deriving DecidableEq, Repr

/-- A `Parser`: `node` and `cs`. /repo/apx/parser.py:139-141. -/
structure Parser where
  node : Option Node
  cs : Section

/-- `Parser()`. /repo/apx/parser.py:139-141. -/
def Parser.new : Parser := ⟨none, .start⟩

/-- The digit of `\d` (ASCII only). -/
def isDigitChar (c : Char) : Bool := 48 ≤ c.toNat && c.toNat ≤ 57

/-- `_parseHeaderLine(s)`: the two digits. /repo/apx/parser.py:50-57. -/
def parseHeaderLine (s : Str) : Option (Char × Char) :=
  match s with
  | 'A' :: 'P' :: 'X' :: '/' :: a :: '.' :: b :: _ =>
    if isDigitChar a && isDigitChar b then some (a, b) else none
  | _ => none

/-- The pieces `(name, dsg, attr)` of a line, as `parts[1], parts[2], parts[3]`; a short line has no
`parts[2]`. -/
def Line.args : Line → Py (Str × Str × Option Str)
  | .full _ name dsg attr => .ok (lineName name, dsg, attr)
  | .short _ _ => .error .indexError
  | .other _ => .error .indexError
  | .blank => .error .typeError

/-- `parts[0]`. -/
def Line.kind : Line → Option Str
  | .full k _ _ _ => some k
  | .short k _ => some k
  | .other _ => none
  | .blank => none

/-- `parts[1]` as the name of a node. -/
def Line.nodeName : Line → Str
  | .full _ name _ _ => lineName name
  | .short _ name => lineName name
  | .other p => p
  | .blank => lineName none

/-- `DataType(...)`, then `_applyType`. /repo/apx/parser.py:72-73,88-89,206-207. -/
def Parser.typeLine (st : Parser) (l : Line) : Parser × Py Unit :=
  match (do
      let (name, dsg, attr) ← l.args
      let t ← mkType name dsg attr
      match st.node with
      | none => .error .attributeError
      | some n => n.addType t : Py (Node × TypeObj)) with
  | .ok (n, _) => ({ st with node := some n }, .ok ())
  | .error x => (st, .error x)

/-- `ProvidePort(...)` or `RequirePort(...)`, then `_applyPort`. /repo/apx/parser.py:209-215. -/
def Parser.portLine (st : Parser) (side : Side) (l : Line) : Parser × Py Unit :=
  match (do
      let (name, dsg, attr) ← l.args
      let p ← mkPort name dsg attr
      match st.node with
      | none => .error .attributeError
      | some n => n.addPort side p : Py (Node × Port)) with
  | .ok (n, _) => ({ st with node := some n }, .ok ())
  | .error x => (st, .error x)

/-- `_processLine(line)` after the line has been split. /repo/apx/parser.py:61-121. -/
def Parser.processParts (st : Parser) (l : Line) : Parser × Py Unit :=
  if l = .blank then (st, .ok ())
  else match st.cs with
  | .start =>
    if l.kind = some ['N'] then (⟨some (Node.new l.nodeName), .node⟩, .ok ())
    else (st, .error .parseError)
  | .node =>
    if l.kind = some ['T'] then Parser.typeLine { st with cs := .type } l
    else if l.kind = some ['P'] then Parser.portLine { st with cs := .provide } .provide l
    else if l.kind = some ['R'] then Parser.portLine { st with cs := .require } .require l
    else (st, .error .parseError)
  | .type =>
    if l.kind = some ['T'] then st.typeLine l
    else if l.kind = some ['P'] then Parser.portLine { st with cs := .provide } .provide l
    else if l.kind = some ['R'] then Parser.portLine { st with cs := .require } .require l
    else (st, .error .parseError)
  | .provide =>
    if l.kind = some ['P'] then st.portLine .provide l
    else if l.kind = some ['R'] then Parser.portLine { st with cs := .require } .require l
    else (st, .ok ())
  | .require =>
    if l.kind = some ['R'] then st.portLine .require l
    else if l.kind = some ['P'] then Parser.portLine { st with cs := .provide } .provide l
    else (st, .error .parseError)

/-- `_processLine(line)`. /repo/apx/parser.py:59-121. -/
def Parser.processLine (st : Parser) (line : Str) : Parser × Py Unit := st.processParts (splitLine line)

/-- The loop over the lines. -/
def Parser.processLines (st : Parser) : List Str → Parser × Py Unit
  | [] => (st, .ok ())
  | l :: ls =>
    match st.processLine l with
    | (st, .ok ()) => st.processLines ls
    | (st, .error x) => (st, .error x)

/-- `resolve_types()` on the node and return it; `missing` is raised if there is no node. When
`resolve_types` raises, the node is not changed (its ports are resolved one after the other, which
resolving them again cannot tell). /repo/apx/parser.py:136-137,189-193. -/
def Parser.finish (st : Parser) (missing : PyErr) : Parser × Py Node :=
  match st.node with
  | none => (st, .error missing)
  | some n =>
    match n.resolveTypes with
    | .ok n => ({ st with node := some n }, .ok n)
    | .error x => (st, .error x)

/-- The characters of `rstrip('\r\n')`. -/
def isNewline (c : Char) : Bool := c = '\r' || c = '\n'

/-- `line.rstrip('\r\n')`. -/
def rstripNewline (s : Str) : Str := rstripP isNewline s

/-- `loads(text)`. /repo/apx/parser.py:163-193. -/
def Parser.loads (st : Parser) (text : Str) : Parser × Py Node :=
  let lines := splitOn '\n' text
  let version := parseHeaderLine (rstripNewline (lines.headD []))
  if version ≠ none ∧ version ≠ some ('1', '2') then (st, .error .notImplemented)
  else
    match Parser.processLines ⟨st.node, .start⟩ (if version = none then lines else lines.tail) with
    | (st, .error x) => (st, .error x)
    | (st, .ok ()) => st.finish .runtimeError

/-- The lines `readline()` returns, without the line feed each but possibly the last ends with. -/
def fileLines (text : Str) : List Str :=
  match (splitOn '\n' text).reverse with
  | [] :: ls => ls.reverse
  | ls => ls.reverse

/-- `_parseV12(fp, firstLine)`, called after the first line has been read; that line is never
processed, whether `firstLine` is given or not. /repo/apx/parser.py:123-137. -/
def Parser.parseV12 (st : Parser) (rest : List Str) : Parser × Py Node :=
  match st.processLines (rest.map rstripNewline) with
  | (st, .error x) => (st, .error x)
  | (st, .ok ()) => st.finish .attributeError

/-- `load(fp)` for a file containing `text`. /repo/apx/parser.py:143-161. -/
def Parser.load (st : Parser) (text : Str) : Parser × Py Node :=
  let lines := fileLines text
  let version := parseHeaderLine (rstripNewline (lines.headD []))
  if version ≠ none ∧ version ≠ some ('1', '2') then (st, .error .notImplemented)
  else Parser.parseV12 ⟨st.node, .start⟩ lines.tail

end Apx
