/-!
# Python prelude

Values, exceptions and the few CPython library behaviours the model relies on.
No code of /repo is modelled here; this is the semantic vocabulary of the model.
-/

namespace Apx

/-- The exception classes that /repo raises (explicitly or through a Python
runtime error).  Messages are not modelled. -/
inductive PyErr
  | valueError | runtimeError | typeError | keyError | indexError | assertionError
  | attributeError | nameError | structError | notImplemented | unicodeError
  | unboundLocal | parseError | apxTypeError | invalidInstruction | unknownOpCode
  | genericException | zeroDivision | osError
  deriving DecidableEq, Repr, Inhabited

/-- A Python computation: a value or a raised exception. -/
abbrev Py (α : Type) := Except PyErr α

instance {α : Type} [DecidableEq α] : DecidableEq (Py α) := fun a b =>
  match a, b with
  | .ok x, .ok y => if h : x = y then isTrue (h ▸ rfl) else isFalse (fun h' => h (Except.ok.inj h'))
  | .error x, .error y =>
    if h : x = y then isTrue (h ▸ rfl) else isFalse (fun h' => h (Except.error.inj h'))
  | .ok _, .error _ => isFalse (fun h => nomatch h)
  | .error _, .ok _ => isFalse (fun h => nomatch h)

/-- `bytes` and `bytearray` objects. -/
abbrev Bytes := List UInt8

/-- `str` objects (without lone surrogates). -/
abbrev Str := List Char

/-- One element of the list given to `bytes([...])`, or `bytearray.append(v)`:
`ValueError` unless `0 <= v < 256`. -/
def mkByte (v : Int) : Py UInt8 :=
  if 0 ≤ v ∧ v < 256 then .ok (UInt8.ofNat v.toNat) else .error .valueError

/-- `bytes([v0, v1, ...])`. -/
def mkBytes : List Int → Py Bytes
  | [] => .ok []
  | v :: vs => do
    let b ← mkByte v
    let bs ← mkBytes vs
    .ok (b :: bs)

end Apx
