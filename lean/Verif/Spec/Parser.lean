import Verif.Model.Parser
import Verif.Spec.Node
import Verif.Spec.Signature

/-! Specification vocabulary for definition texts (C47-C50). -/

namespace Apx

/-- A version line: `APX/`, digit, dot, digit, then anything. -/
def HeaderLine (l : Str) : Prop :=
  ∃ a b rest, a ∈ "0123456789".toList ∧ b ∈ "0123456789".toList ∧ l = 'A' :: 'P' :: 'X' :: '/' :: a :: '.' :: b :: rest

/-- What a line says: the part before a comment, without trailing blanks. -/
def meaning (l : Str) : Str := rstripP (fun c => c = ' ' || c = '\r') (l.takeWhile (· != '#'))

/-- The lines that say something. -/
def sayings (ls : List Str) : List Str := (ls.map meaning).filter (fun m => !m.isEmpty)

/-- The characters that tell the kind of a line: capital letters, plus and minus. -/
def kindChars : Str := "+-ABCDEFGHIJKLMNOPQRSTUVWXYZ".toList

/-- The kind of a line: what it says begins with these characters, and the next one, if any, is not of that sort. -/
def LineKind (l k : Str) : Prop :=
  ∃ r, meaning l = k ++ r ∧ (∀ c ∈ k, c ∈ kindChars) ∧ ∀ c, r.head? = some c → c ∉ kindChars

/-- No line feed in any line. -/
def OneLiners (ls : List Str) : Prop := ∀ l ∈ ls, '\n' ∉ l

/-- The lines after the node line and the type lines in an accepted text: provide and require ports in
any order, and, as long as the last port line was a provide port (`dropping`), anything at all. -/
inductive PortPart : Bool → List Line → Prop
  | nil (b : Bool) : PortPart b []
  | provide (b : Bool) (l : Line) (ls : List Line) : l.kind = some ['P'] → PortPart true ls → PortPart b (l :: ls)
  | require (b : Bool) (l : Line) (ls : List Line) : l.kind = some ['R'] → PortPart false ls → PortPart b (l :: ls)
  | dropped (l : Line) (ls : List Line) : l.kind ≠ some ['P'] → l.kind ≠ some ['R'] → PortPart true ls →
      PortPart true (l :: ls)

/-- The names on the lines of a given kind, in order. -/
def namesOf (k : Char) (ls : List Line) : List Str := (ls.filter (fun l => l.kind = some [k])).map Line.nodeName

/-- Same parser state and same result, except that a text without a node makes `load` raise an
`AttributeError` and `loads` a `RuntimeError`. -/
def SameOutcome (a b : Parser × Py Node) : Prop :=
  a.1 = b.1 ∧ (a.2 = b.2 ∨ a.2 = .error .attributeError ∧ b.2 = .error .runtimeError)

/-- The first line of a text. -/
def firstLine (text : Str) : Str := (splitOn '\n' text).headD []

/-- The other lines of a text. -/
def otherLines (text : Str) : List Str := (splitOn '\n' text).tail

mutual
/-- No name occurring in the element contains a colon, a hash sign or a line feed. -/
def Elem.Clean : Elem → Prop
  | .prim _ _ _ _ => True
  | .record fs _ => fs.Clean
  | .refId _ => True
  | .refName n => ':' ∉ n ∧ '#' ∉ n ∧ '\n' ∉ n
  | .refType n _ => ':' ∉ n ∧ '#' ∉ n ∧ '\n' ∉ n
/-- See `Elem.Clean`. -/
def Fields.Clean : Fields → Prop
  | .nil => True
  | .cons n e r => (∀ s, n = some s → ':' ∉ s ∧ '#' ∉ s ∧ '\n' ∉ s) ∧ e.Clean ∧ r.Clean
end

/-- A name that survives between quotes. -/
def NameOk (s : Str) : Prop := '"' ∉ s ∧ '#' ∉ s ∧ '\n' ∉ s

/-- An attribute text that survives at the end of a line. -/
def AttrOk (s : Str) : Prop := '#' ∉ s ∧ '\n' ∉ s ∧ s.getLast? ≠ some ' ' ∧ s.getLast? ≠ some '\r'

/-- A node whose names and attributes can be written in a definition text. -/
structure Node.Writable (n : Node) : Prop where
  name : NameOk n.name
  types : ∀ t ∈ n.types, NameOk t.name ∧ t.elem.WellFormed ∧ t.elem.Clean ∧ t.shortName = none ∧
    ∀ a, t.attr = some a → AttrOk a.str
  ports : ∀ side, ∀ p ∈ n.ports side, NameOk p.name ∧ p.elem.WellFormed ∧ p.elem.Clean ∧
    ∀ a, p.attr = some a → AttrOk a.str

/-- Every reference in a type goes to a type before it. -/
def Node.Ordered (n : Node) : Prop :=
  ∀ (i : Nat) (t : TypeObj), n.types[i]? = some t → t.elem.RefsIn ((n.types.take i).map TypeObj.named)

/-- Same name, same types and same ports in the same order. -/
def Node.SameDefinition (a b : Node) : Prop :=
  a.name = b.name ∧ a.types.map TypeObj.content = b.types.map TypeObj.content ∧
    ∀ side, (a.ports side).map Port.content = (b.ports side).map Port.content

end Apx
