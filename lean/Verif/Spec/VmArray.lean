import Verif.Spec.Layout
import Verif.Model.Compiler

/-!
Specification of C96: programs for the virtual machine that describe lists with the array
instructions, and the values they stand for.  The opcodes are those of /repo/apx/vm_base.py:1-34;
the specification does not refer to the compiler or to the machine.
-/

namespace Apx

mutual
/-- What a program describes: a number, text in a field of `n` bytes, a record, or a list of `n`
items which are all described alike. -/
inductive Descr
  | num (t : IntT)
  | text (n : Nat)
  | record (fs : DescrFields)
  | list (n : Nat) (s : Descr)
/-- The fields of a record. -/
inductive DescrFields
  | nil
  | cons (name : Str) (s : Descr) (rest : DescrFields)
end

/-- The instruction for a number. /repo/apx/vm_base.py:4-9,17-22. -/
def numOpcode : Dir → IntT → UInt8
  | .pack, .u8 => 3 | .pack, .u16 => 4 | .pack, .u32 => 5
  | .pack, .s8 => 6 | .pack, .s16 => 7 | .pack, .s32 => 8
  | .unpack, .u8 => 16 | .unpack, .u16 => 17 | .unpack, .u32 => 18
  | .unpack, .s8 => 19 | .unpack, .s16 => 20 | .unpack, .s32 => 21

/-- A 16-bit number in a program. -/
def word16 (n : Nat) : Bytes := [UInt8.ofNat (n % 256), UInt8.ofNat (n / 256)]

/-- The instruction for text. /repo/apx/vm_base.py:10,23. -/
def textCode : Dir → Nat → Bytes
  | .pack, n => 9 :: word16 n
  | .unpack, n => 22 :: word16 n

/-- The instruction selecting a field. /repo/apx/vm_base.py:31. -/
def selectCode (name : Str) : Bytes := 30 :: (name.map (fun c => UInt8.ofNat c.toNat) ++ [0])

/-- `n` times the same instructions. -/
def repeatCode : Nat → Bytes → Bytes
  | 0, _ => []
  | n + 1, c => c ++ repeatCode n c

mutual
/-- The instructions that make up a description: a record is bracketed by `RECORD_ENTER` (29) and
`RECORD_LEAVE` (31), a list by `ARRAY_ENTER` (32) and `ARRAY_LEAVE` (33). -/
def Descr.code (d : Dir) : Descr → Bytes
  | .num t => [numOpcode d t]
  | .text n => textCode d n
  | .record fs => 29 :: (fs.code d ++ [31])
  | .list n s => 32 :: (repeatCode n (s.code d) ++ [33])
/-- The fields: each is selected and then described. -/
def DescrFields.code (d : Dir) : DescrFields → Bytes
  | .nil => []
  | .cons k s r => selectCode k ++ (s.code d ++ r.code d)
end

mutual
/-- The number of bytes a value occupies. -/
def Descr.size : Descr → Nat
  | .num t => t.width
  | .text n => n
  | .record fs => fs.size
  | .list n s => n * s.size
/-- See `Descr.size`. -/
def DescrFields.size : DescrFields → Nat
  | .nil => 0
  | .cons _ s r => s.size + r.size
end

/-- A whole program: header with the number of bytes, then the instructions. -/
def Descr.program (d : Dir) (s : Descr) : Bytes :=
  (match d with | .pack => 1 | .unpack => 2) :: (littleEndian 4 s.size ++ s.code d)

/-- The bytes of the items of a list, one item after the other. -/
def itemsLayout (f : PyVal → Option Bytes) : List PyVal → Option Bytes
  | [] => some []
  | v :: l => match f v, itemsLayout f l with
    | some a, some b => some (a ++ b)
    | _, _ => none

mutual
/-- The bytes that represent a value; `none` if the value does not fit (number out of range,
missing field, too short list, wrong kind of value). -/
def Descr.layout : Descr → PyVal → Option Bytes
  | .num t, v => intLayout t v
  | .text n, .str s => some (textLayout n s)
  | .record fs, .dict d => fs.layout d
  | .list n s, .list l => if n ≤ l.length then itemsLayout (fun v => s.layout v) (l.take n) else none
  | _, _ => none
/-- The fields of a record in the program's order. -/
def DescrFields.layout : DescrFields → List (Str × PyVal) → Option Bytes
  | .nil, _ => some []
  | .cons k s r, d =>
    match d.lookup k with
    | none => none
    | some v =>
      match s.layout v, r.layout d with
      | some a, some b => some (a ++ b)
      | _, _ => none
end

/-- A record or a list. -/
def Descr.Bracketed : Descr → Prop
  | .record _ => True
  | .list _ _ => True
  | _ => False

mutual
/-- The items of lists are records or lists, text fields have at most 65535 bytes, names are ASCII
without NUL, no record is empty and no list has length 0. -/
def Descr.Ok : Descr → Prop
  | .num _ => True
  | .text n => n ≤ 65535
  | .record fs => fs.Ok ∧ fs ≠ .nil
  | .list n s => 1 ≤ n ∧ s.Bracketed ∧ s.Ok
/-- See `Descr.Ok`. -/
def DescrFields.Ok : DescrFields → Prop
  | .nil => True
  | .cons k s r => (∀ c ∈ k, c ≠ '\x00' ∧ c.toNat < 128) ∧ s.Ok ∧ r.Ok
end

/-- The names of the fields. -/
def DescrFields.names : DescrFields → List Str
  | .nil => []
  | .cons k _ r => k :: r.names

mutual
/-- No field of a record is itself a record (lists of records are allowed), and the fields have
different names. -/
def Descr.Flat : Descr → Prop
  | .record fs => fs.Flat ∧ fs.names.Nodup
  | .list _ s => s.Flat
  | _ => True
/-- See `Descr.Flat`. -/
def DescrFields.Flat : DescrFields → Prop
  | .nil => True
  | .cons _ s r => (∀ fs, s ≠ .record fs) ∧ s.Flat ∧ r.Flat
end

mutual
/-- The value is exactly as described: numbers in range, text that fits and has no NUL, lists of the
given length, dicts with the given fields in the program's order. -/
def Descr.Fits : Descr → PyVal → Prop
  | .num t, v => ∃ i, v = .int i ∧ t.InRange i
  | .text n, v => ∃ s, v = .str s ∧ (utf8Encode s).length ≤ n ∧ '\x00' ∉ s
  | .record fs, v => ∃ d, v = .dict d ∧ fs.Fits d
  | .list n s, v => ∃ l, v = .list l ∧ l.length = n ∧ ∀ x ∈ l, s.Fits x
/-- See `Descr.Fits`. -/
def DescrFields.Fits : DescrFields → List (Str × PyVal) → Prop
  | .nil, d => d = []
  | .cons k s r, d => ∃ v d', d = (k, v) :: d' ∧ s.Fits v ∧ r.Fits d'
end

end Apx
