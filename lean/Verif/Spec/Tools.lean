import Verif.Model.Tools
import Verif.Spec.Parser
import Verif.Spec.Node

/-! Specification vocabulary for the command line tools (C76-C79). -/

namespace Apx

/-- No reference inside. -/
def Elem.NoRefs (e : Elem) : Prop := e.RefsIn []

/-- A field that the copy of a record type deals with: a number, a string, a reference, or a record
without references. -/
def Elem.FieldOk : Elem → Prop
  | .record fs a => (Elem.record fs a).NoRefs
  | _ => True

/-- All fields are such. -/
def Fields.AllOk : Fields → Prop
  | .nil => True
  | .cons _ e r => e.FieldOk ∧ r.AllOk

/-- A type that can be copied: not itself a reference, and no references inside nested records. -/
def Elem.Copyable : Elem → Prop
  | .prim _ _ _ _ => True
  | .record fs _ => fs.AllOk
  | _ => False

/-- Nodes whose ports can be put together in one node: names mean the same in all of them, and no
name is used for a type and a port. -/
structure Compatible (S : Node → Prop) : Prop where
  built : ∀ n, S n → n.Built
  copy : ∀ n, S n → ∀ t ∈ n.types, t.elem.WellFormed ∧ t.elem.Copyable ∧ t.shortName = none
  wf : ∀ n, S n → ∀ side, ∀ p ∈ n.ports side, p.elem.WellFormed
  types : ∀ n m, S n → S m → ∀ t ∈ n.types, ∀ u ∈ m.types, t.name = u.name → t.content = u.content
  apart : ∀ n m, S n → S m → ∀ t ∈ n.types, t.name ∉ m.portNames
  ports : ∀ n m, S n → S m → ∀ side side', ∀ p ∈ n.ports side, ∀ q ∈ m.ports side', p.name = q.name →
    side = side' ∧ p.content = q.content

/-- The contents of the ports of one direction. -/
def Node.contents (n : Node) (side : Side) : List (Str × Elem × Option PortAttr) := (n.ports side).map Port.content

/-- The other direction. -/
def Side.flip : Side → Side
  | .require => .provide
  | .provide => .require

mutual
/-- All references go to names below `b`. -/
def Elem.RefsBelow (b : Str) : Elem → Prop
  | .refType n _ => n < b
  | .record fs _ => fs.RefsBelow b
  | _ => True
/-- See `Elem.RefsBelow`. -/
def Fields.RefsBelow (b : Str) : Fields → Prop
  | .nil => True
  | .cons _ e r => e.RefsBelow b ∧ r.RefsBelow b
end

/-- Definitions that are written and loaded without loss also after sorting: names and attributes can
be written, and record types refer to types with smaller names only. -/
structure Node.Tidy (n : Node) : Prop where
  writable : n.Writable
  below : ∀ t ∈ n.types, t.elem.RefsBelow t.name

/-- A definition that can be split: every port has a name of its own, and every type can be copied. -/
structure Node.Splittable (n : Node) : Prop extends n.Tidy where
  names : n.portNames.Nodup
  apart : ∀ t ∈ n.types, t.name ∉ n.portNames
  copy : ∀ t ∈ n.types, t.elem.Copyable

mutual
/-- No reference by name or number: all types are at hand. -/
def Elem.NoOpenRefs : Elem → Prop
  | .refId _ => False
  | .refName _ => False
  | .record fs _ => fs.NoOpenRefs
  | _ => True
/-- See `Elem.NoOpenRefs`. -/
def Fields.NoOpenRefs : Fields → Prop
  | .nil => True
  | .cons _ e r => e.NoOpenRefs ∧ r.NoOpenRefs
end

mutual
/-- No type number without its type. -/
def Elem.NoNumbers : Elem → Prop
  | .refId _ => False
  | .record fs _ => fs.NoNumbers
  | _ => True
/-- See `Elem.NoNumbers`. -/
def Fields.NoNumbers : Fields → Prop
  | .nil => True
  | .cons _ e r => e.NoNumbers ∧ r.NoNumbers
end

/-- How a tool that changes one definition is called, the text it reads, and where it writes: with a file,
to the output file or else back to the file read; with `-p`, from the standard input to the standard
output, which works only if a file or an output file is given too. -/
def Called (output pipe : Option Str) (inputs : List (Str × Str)) (text : Str) (dest : Option Str) : Prop :=
  (∃ f rest, pipe = none ∧ inputs = (f, text) :: rest ∧ dest = some (output.getD f)) ∨
    (pipe = some text ∧ dest = none ∧ (output ≠ none ∨ inputs ≠ []))

/-- `r` is `n` under that name, sorted, with the directions of the ports reversed if `flip`. -/
structure SortedCopy (n r : Node) (name : Str) (flip : Bool) : Prop where
  name : r.name = name
  types : (r.types.map TypeObj.content).Perm (n.types.map TypeObj.content)
  ports : ∀ side, (r.contents (if flip then side.flip else side)).Perm (n.contents side)
  typesSorted : SortedByName TypeObj.name r.types
  portsSorted : ∀ side, SortedByName Port.name (r.ports side)

/-- Only blanks. -/
def AllBlank (s : Str) : Prop := ∀ c ∈ s, isSpace c = true

/-- Nothing, or a comment. -/
def NoneOrComment (s : Str) : Prop := s = [] ∨ ∃ t, s = '#' :: t

/-- A line of a file with port names and the name in it: blanks, possibly a name, blanks, possibly a
comment. The name has no hash sign and does not begin or end with a blank. -/
inductive NameLine : Str → Option Str → Prop
  | empty (b c : Str) : AllBlank b → NoneOrComment c → NameLine (b ++ c) none
  | name (b n b' c : Str) : AllBlank b → AllBlank b' → NoneOrComment c → '#' ∉ n →
      (∃ x r, n = x :: r ∧ isSpace x = false) → (∃ r x, n = r ++ [x] ∧ isSpace x = false) →
      NameLine (b ++ n ++ b' ++ c) (some n)

/-- A file with port names: its lines and the names in them, in order. -/
inductive NameFile : List Str → List Str → Prop
  | nil : NameFile [] []
  | skip (l : Str) (ls ns : List Str) : NameLine l none → NameFile ls ns → NameFile (l :: ls) ns
  | take (l n : Str) (ls ns : List Str) : NameLine l (some n) → NameFile ls ns → NameFile (l :: ls) (n :: ns)

/-- What the line of a port says: its name, its signature with references by name, its attributes. -/
def Port.line (p : Port) : Str × Elem × Option PortAttr := (p.name, p.elem.asWritten (fun _ => none) true, p.attr)

/-- What the line of a type says. -/
def TypeObj.line (t : TypeObj) : Str × Elem × Option TypeAttr := (t.name, t.elem.asWritten (fun _ => none) true, t.attr)

/-- Two of the definitions have a port of the same name, in different directions or with different lines. -/
def PortsContradict (srcs : List Node) : Prop :=
  ∃ m ∈ srcs, ∃ m' ∈ srcs, ∃ side side', ∃ p ∈ m.ports side, ∃ q ∈ m'.ports side',
    p.name = q.name ∧ (side ≠ side' ∨ p.line ≠ q.line)

/-- Two ports, each the only one of its name, have types of the same name with different lines. -/
def TypesContradict (srcs : List Node) : Prop :=
  ∃ m ∈ srcs, ∃ m' ∈ srcs, ∃ side side', ∃ p ∈ m.ports side, ∃ q ∈ m'.ports side', ∃ t ∈ m.types, ∃ u ∈ m'.types,
    (srcs.flatMap Node.portNames).count p.name = 1 ∧ (srcs.flatMap Node.portNames).count q.name = 1 ∧
    p.elem = .refType t.name t.elem ∧ q.elem = .refType u.name u.elem ∧ t.name = u.name ∧ t.line ≠ u.line

/-- A text without a definition: after the first line, where the version is expected, there are only blank lines and
comments. -/
def NoDefinition (text : Str) : Prop :=
  ∀ l ∈ (fileLines text).tail, ∀ c ∈ l.takeWhile (· != '#'), c = ' ' ∨ c = '\r'

end Apx
