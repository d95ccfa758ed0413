import Verif.Model.Parser

/-!
The command line tools util/*.py, from the parsed arguments and the contents of the input files to what
they write.

Simplifications.
* A run is what has been written, in order, with the destinations, and how the run ended. Files are
  their texts: decoding and encoding, and the translation of line ends, are not modelled.
* Arguments are those `argparse` delivers; the help texts and exits of `argparse` are not modelled.
* File names are POSIX paths.
-/

namespace Apx

/-- Where a tool writes. -/
inductive Dest
  | stdout
  | file (name : Str)
  deriving DecidableEq, Repr

/-- A run of a tool: what it has written, and how it ended. -/
structure ToolRun where
  written : List (Dest × Str)
  result : Py Unit

/-- A run that ends with an exception before anything is written. -/
def ToolRun.raised (x : PyErr) : ToolRun := ⟨[], .error x⟩

/-- What follows a run: nothing if it raised. -/
def ToolRun.andThen (r : ToolRun) (next : Unit → ToolRun) : ToolRun :=
  match r.result with
  | .error x => ⟨r.written, .error x⟩
  | .ok () => ⟨r.written ++ (next ()).written, (next ()).result⟩

/-! ### Writing a node -/

/-- `for x in list: print(f(x), file=fp)`: what is printed, also before an exception. -/
def printAll {α : Type} (f : α → Py Str) : List α → Str × Py Unit
  | [] => ([], .ok ())
  | x :: l =>
    match f x with
    | .error e => ([], .error e)
    | .ok s => (s ++ ('\n' :: (printAll f l).1), (printAll f l).2)

/-- One part of a text after another. -/
def thenPrint (a b : Str × Py Unit) : Str × Py Unit :=
  match a.2 with
  | .error x => (a.1, .error x)
  | .ok () => (a.1 ++ b.1, b.2)

/-- `write(fp, normalized)`. /repo/apx/node.py:233-243. -/
def Node.write (n : Node) (normalized : Bool) : Str × Py Unit :=
  thenPrint ('N' :: '"' :: (n.name ++ ['"', '\n']), .ok ())
    (thenPrint (printAll (TypeObj.toStr n.ids false) n.types)
      (thenPrint (printAll (Port.toStr n.ids normalized .provide) n.provides)
        (printAll (Port.toStr n.ids normalized .require) n.requires)))

/-- The text `save_apx` leaves in the file, which is opened, and so emptied, first.
/repo/apx/node.py:215-218. -/
def Node.fileText (n : Node) (normalized : Bool) : Str × Py Unit :=
  thenPrint (headerText ++ ['\n'], .ok ()) (thenPrint (n.write normalized) (['\n'], .ok ()))

/-- `if not self.isFinalized: self.finalize_sorted()`. /repo/apx/node.py:211-212,224-225. -/
def Node.finalizeIfNot (n : Node) : Py Node := if n.isFinalized then .ok n else n.finalize true false

/-- `save_apx(output_file=file, normalized=...)`. /repo/apx/node.py:203-218. -/
def Node.saveApx (n : Node) (file : Str) (normalized : Bool) : ToolRun :=
  match n.finalizeIfNot with
  | .error x => .raised x
  | .ok n => ⟨[(.file file, (n.fileText normalized).1)], (n.fileText normalized).2⟩

/-- `print(node.dumps(normalized=...))`. /repo/apx/node.py:223-228. -/
def Node.printDumps (n : Node) (normalized : Bool) : ToolRun :=
  match n.dumps normalized with
  | .error x => .raised x
  | .ok (_, text) => ⟨[(.stdout, text ++ ['\n'])], .ok ()⟩

/-- Output of a node to a file if one is given, else to the standard output.
/repo/util/apx_split.py:74-77. -/
def Node.emit (n : Node) (file : Option Str) (normalized : Bool) : ToolRun :=
  match file with
  | some f => n.saveApx f normalized
  | none => n.printDumps normalized

/-! ### apx_split -/

/-- The names in a file given with `--file`; a hash sign starts a comment.
/repo/util/apx_split.py:6-23. -/
def namesInFile (text : Str) : List Str :=
  ((splitOn '\n' text).map fun l => strip (l.takeWhile (· != '#'))).filter (fun l => !l.isEmpty)

/-- `os.path.basename(path)`. -/
def baseName (path : Str) : Str := (path.reverse.takeWhile (· != '/')).reverse

/-- `os.path.splitext(name)[0]` for a name without a slash: the last dot and what follows are cut
off, unless only dots stand before it. -/
def stemName (name : Str) : Str :=
  match (name.reverse.dropWhile (· != '.')).reverse with
  | [] => name
  | stem => if stem.dropLast.all (· == '.') then name else stem.dropLast

/-- `part in text`. -/
def isInfix (part : Str) : Str → Bool
  | [] => part.isEmpty
  | c :: s => part.isPrefixOf (c :: s) || isInfix part s

/-- The name of the node of `create_apx_node_from_file_name(file_name, default_name)`.
/repo/util/apx_split.py:25-32. -/
def nodeNameFor (file : Option Str) (default : Str) : Str :=
  match file with
  | none => default
  | some f => if isInfix ".apx".toList (baseName f) then stemName (baseName f) else baseName f

/-- The arguments of `apx_split`; `names` are those given or those in the file.
/repo/util/apx_split.py:35-44,57-60. -/
structure SplitArgs where
  names : List Str
  head : Option Str
  tail : Option Str
  headName : Str
  tailName : Str
  sort : Bool
  mirror : Bool

/-- The loop over the names; `processed` are the names of the ports copied so far. A type of that
name is found first, and is not accepted by `add_port_from_node`. /repo/util/apx_split.py:62-67,
/repo/apx/node.py:280-283. -/
def splitHead (src : Node) (head : Node) (processed : List Str) : List Str → Py (Node × List Str)
  | [] => .ok (head, processed)
  | name :: names =>
    match src.find name with
    | none => splitHead src head processed names
    | some (.type t) =>
      if t.name ∈ processed then splitHead src head processed names else .error .valueError
    | some (.port side p) =>
      if p.name ∈ processed then splitHead src head processed names
      else
        match head.addPortFrom src side p false with
        | (head, .ok _) => splitHead src head (p.name :: processed) names
        | (_, .error x) => .error x

/-- The loop over the ports of one direction. /repo/util/apx_split.py:83-85. -/
def splitTail (src : Node) (processed : List Str) (side : Side) (tail : Node) : List Port → Py Node
  | [] => .ok tail
  | p :: ps =>
    if p.name ∈ processed then splitTail src processed side tail ps
    else
      match tail.addPortFrom src side p false with
      | (tail, .ok _) => splitTail src processed side tail ps
      | (_, .error x) => .error x

/-- `if args.mirror: node = node.mirror()`. /repo/util/apx_split.py:69-70,80-81. -/
def mirrorIf (b : Bool) (n : Node) : Py Node := if b then n.mirror none else .ok n

/-- The head, before it is written. /repo/util/apx_split.py:50,62-71. -/
def splitHeadNode (a : SplitArgs) (src : Node) : Py (Node × List Str) := do
  let (h, processed) ← splitHead src (Node.new (nodeNameFor a.head a.headName)) [] a.names
  let h ← mirrorIf a.mirror h
  let h ← h.finalize a.sort false
  .ok (h, processed)

/-- The tail, before it is written: mirrored before any port is copied. /repo/util/apx_split.py:52,80-85. -/
def splitTailNode (a : SplitArgs) (file : Str) (src : Node) (processed : List Str) : Py Node := do
  let t ← mirrorIf a.mirror (Node.new (nodeNameFor (some file) a.tailName))
  let t ← splitTail src processed .provide t src.provides
  splitTail src processed .require t src.requires

/-- The second half of the main program. /repo/util/apx_split.py:79-86. -/
def splitRemain (a : SplitArgs) (src : Node) (processed : List Str) : ToolRun :=
  match a.tail with
  | none => ⟨[], .ok ()⟩
  | some f =>
    match splitTailNode a f src processed with
    | .error x => .raised x
    | .ok t => t.saveApx f true

/-- The main program after the input file has been parsed. /repo/util/apx_split.py:62-86. -/
def splitNode (a : SplitArgs) (src : Node) : ToolRun :=
  match splitHeadNode a src with
  | .error x => .raised x
  | .ok (h, processed) => (h.emit a.head true).andThen fun _ => splitRemain a src processed

/-- Loading a file with a new parser. -/
def parseFile (text : Str) : Py Node := (Parser.new.load text).2

/-- `apx_split`, with the text of the input file. /repo/util/apx_split.py:34-86. -/
def apxSplit (a : SplitArgs) (text : Str) : ToolRun :=
  match parseFile text with
  | .error x => .raised x
  | .ok src => splitNode a src

/-! ### apx_join -/

/-- One parser parses all files. /repo/util/apx_join.py:15-17. -/
def parseFiles (st : Parser) : List Str → Py (List Node)
  | [] => .ok []
  | text :: texts =>
    match st.load text with
    | (_, .error x) => .error x
    | (st, .ok n) => do
      let r ← parseFiles st texts
      .ok (n :: r)

/-- The loop over the nodes. /repo/util/apx_join.py:20-21. -/
def joinNodes (n : Node) : List Node → Py Node
  | [] => .ok n
  | src :: srcs =>
    match n.extend src with
    | (n, .ok ()) => joinNodes n srcs
    | (_, .error x) => .error x

/-- The joined node. /repo/util/apx_join.py:18-22. -/
def joinedNode (name : Str) (sort : Bool) (srcs : List Node) : Py Node := do
  let n ← joinNodes (Node.new name) srcs
  n.finalize sort false

/-- `apx_join` on the texts of its input files (at least one, as `argparse` enforces); the result is
saved under the name of the node. A file is identified by the text of its path. /repo/util/apx_join.py:5-23, /repo/apx/node.py:213-214. -/
def apxJoin (name : Str) (sort normalize : Bool) (texts : List Str) : ToolRun :=
  match parseFiles Parser.new texts with
  | .error x => .raised x
  | .ok srcs =>
    match joinedNode name sort srcs with
    | .error x => .raised x
    | .ok n => n.saveApx (n.name ++ ".apx".toList) normalize

/-! ### apx_size -/

/-- `sum([port.dsg.packLen() for port in ports])`. -/
def sumPackLen : List Port → Py Nat
  | [] => .ok 0
  | p :: ps => do
    let n ← p.elem.packLen
    let r ← sumPackLen ps
    .ok (n + r)

/-- What `apx_size` prints: the sizes of the require and of the provide data. /repo/util/apx_size.py:6-11. -/
def apxSize (text : Str) : Py (Nat × Nat) := do
  let n ← parseFile text
  let i ← sumPackLen n.requires
  let o ← sumPackLen n.provides
  .ok (i, o)

/-! ### apx_mirror, apx_normalize, apx_finalize -/

/-- `args.output_file if args.output_file is not None else args.input_file[0]`, evaluated whether the
tool works on files or not. /repo/util/apx_mirror.py:14, /repo/util/apx_normalize.py:15,
/repo/util/apx_finalize.py:16. -/
def outputName (output : Option Str) (inputs : List (Str × Str)) : Py Str :=
  match output, inputs with
  | some o, _ => .ok o
  | none, (f, _) :: _ => .ok f
  | none, [] => .error .indexError

/-- The text a tool reads: the standard input, or the first file. -/
def inputText (pipe : Option Str) (inputs : List (Str × Str)) : Py Str :=
  match pipe, inputs with
  | some t, _ => .ok t
  | none, (_, t) :: _ => .ok t
  | none, [] => .error .indexError

/-- A tool that changes one definition: `inputs` are the names and texts of the files given, `pipe` the
standard input if `-p` is given. /repo/util/apx_normalize.py:8-22, /repo/util/apx_finalize.py:8-23. -/
def filterTool (change : Node → Py Node) (normalized : Bool) (output pipe : Option Str)
    (inputs : List (Str × Str)) : ToolRun :=
  match (do
      let o ← outputName output inputs
      let text ← inputText pipe inputs
      let n ← parseFile text
      let n ← change n
      .ok (o, n) : Py (Str × Node)) with
  | .error x => .raised x
  | .ok (o, n) => n.emit (if pipe.isSome then none else some o) normalized

/-- `apx_normalize`. /repo/util/apx_normalize.py:6-22. -/
def apxNormalize (output pipe : Option Str) (inputs : List (Str × Str)) : ToolRun :=
  filterTool .ok true output pipe inputs

/-- `apx_finalize`. /repo/util/apx_finalize.py:6-23. -/
def apxFinalize (output pipe : Option Str) (inputs : List (Str × Str)) : ToolRun :=
  filterTool .ok false output pipe inputs

/-- `node = node.mirror()`, then the new name, if given. /repo/util/apx_mirror.py:20-25. -/
def mirrorNamed (name : Option Str) (n : Node) : Py Node := do
  let m ← n.mirror none
  .ok { m with name := name.getD m.name }

/-- `apx_mirror`. /repo/util/apx_mirror.py:6-29. -/
def apxMirror (name : Option Str) (normalize : Bool) (output pipe : Option Str) (inputs : List (Str × Str)) : ToolRun :=
  filterTool (mirrorNamed name) normalize output pipe inputs

end Apx
