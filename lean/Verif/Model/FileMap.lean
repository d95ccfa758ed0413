import Verif.Model.Py

/-! Model of /repo/apx/file_map.py. -/

namespace Apx

/-- A file object as far as a file map looks at it: its identity (`id`), whether it is an
`apx.File` (the map asserts this), and its name, length and address
(remotefile/__init__.py:199-206, apx/file.py:25-27).  A length is never negative:
`bytearray(length)` in apx/file.py:27 raises for negative ones. -/
structure FileEnt where
  id : Nat
  isApx : Bool
  name : Str
  length : Nat
  address : Option Int
  deriving DecidableEq, Repr

/-- CPython `bisect.bisect_left(a, x, lo, hi)`: the binary search itself, so that its behaviour
on unsorted lists is the real one too.  (The subscript is in range whenever `hi ≤ len(a)`.) -/
def bisectLeftLoop (a : List Int) (x : Int) (lo hi : Nat) : Nat :=
  if lo < hi then
    let mid := (lo + hi) / 2
    if a.getD mid 0 < x then bisectLeftLoop a x (mid + 1) hi
    else bisectLeftLoop a x lo mid
  else lo
termination_by hi - lo

/-- CPython `bisect.bisect_right(a, x, lo, hi)`. -/
def bisectRightLoop (a : List Int) (x : Int) (lo hi : Nat) : Nat :=
  if lo < hi then
    let mid := (lo + hi) / 2
    if x < a.getD mid 0 then bisectRightLoop a x lo mid
    else bisectRightLoop a x (mid + 1) hi
  else lo
termination_by hi - lo

def bisectLeft (a : List Int) (x : Int) : Nat := bisectLeftLoop a x 0 a.length
def bisectRight (a : List Int) (x : Int) : Nat := bisectRightLoop a x 0 a.length

/-- file_map.py:28-30. -/
structure FileMap where
  keys : List Int
  items : List FileEnt
  deriving DecidableEq, Repr

namespace FileMap

/-- file_map.py:28-30 `__init__`. -/
def empty : FileMap := ⟨[], []⟩

/-- file_map.py:32-37 `index(file)`.  Comparing keys with `None` raises `TypeError`, which
happens only when there is a key to compare with.  `list.index` compares by identity. -/
def index (m : FileMap) (file : FileEnt) : Py Nat :=
  match file.address with
  | none => if m.keys.length = 0 then .error .valueError else .error .typeError
  | some k =>
    let i := bisectLeft m.keys k
    let j := bisectRight m.keys k
    match ((m.items.drop i).take (j - i)).findIdx? (fun g => g.id == file.id) with
    | some d => .ok (d + i)
    | none => .error .valueError

/-- file_map.py:7-13. -/
def portDataStart : Nat := 0x0
def portDataBoundary : Nat := 0x400
def definitionStart : Nat := 0x4000000
def definitionBoundary : Nat := 0x100000
def userDataStart : Nat := 0x20000000
def userDataEnd : Nat := 0x3FFFFC00
def userDataBoundary : Nat := 0x100000

/-- file_map.py:119-128, the backwards search from item `i`: `n = i + 1` items remain to be
looked at.  `none` means that the loop ended without assigning `placement_address`.
`x & ~(b-1)` with `b` a power of two is written `x - x % b`. -/
def scanBack (items : List FileEnt) (start_address end_address : Int) (boundary : Nat) :
    Nat → Py (Option Int)
  | 0 => .ok none
  | i + 1 =>
    match items[i]? with
    | none => .error .indexError
    | some other =>
      match other.address with
      | none => .error .typeError
      | some a =>
        if a < start_address then .ok (some start_address)
        else if a < end_address then
          let x := a + other.length + boundary - 1
          .ok (some (x - x % boundary))
        else scanBack items start_address end_address boundary i

/-- file_map.py:112-128: the placement address; `none`: the variable was never assigned. -/
def placement (m : FileMap) (start_address end_address boundary : Nat) : Py (Option Int) :=
  if m.keys.length = 0 then .ok (some (start_address : Int))
  else
    let i := bisectLeft m.keys end_address
    let i := if i ≥ m.keys.length then m.keys.length - 1 else i
    scanBack m.items start_address end_address boundary (i + 1)

/-- file_map.py:96-132 `assignFileAddress(file, start_address, end_address, address_boundary)`:
the file with its address set.  Arguments are natural numbers (negative ones not modelled). -/
def assignFileAddress (m : FileMap) (file : FileEnt) (start_address end_address boundary : Nat) :
    Py FileEnt :=
  if start_address ≠ 0 ∧ start_address &&& (start_address - 1) ≠ 0 then .error .valueError
  else if end_address < start_address then .error .valueError
  else if boundary &&& (boundary - 1) ≠ 0 then .error .valueError
  else
    match placement m start_address end_address boundary with
    | .error e => .error e
    | .ok none => .error .unboundLocal
    | .ok (some p) =>
      if p + file.length ≤ end_address then .ok { file with address := some p }
      else .error .valueError

/-- `str.endswith`. -/
def endsWith (s suffix : Str) : Bool := suffix.isSuffixOf s

/-- file_map.py:81-94 `_assignFileAddressDefault(file)`. -/
def assignFileAddressDefault (m : FileMap) (file : FileEnt) : Py FileEnt :=
  if endsWith file.name ".in".toList || endsWith file.name ".out".toList then
    assignFileAddress m file portDataStart definitionStart portDataBoundary
  else if endsWith file.name ".apx".toList then
    assignFileAddress m file definitionStart userDataStart definitionBoundary
  else
    assignFileAddress m file userDataStart userDataEnd userDataBoundary

/-- file_map.py:39-48 `insert(file)`: the new map and the file (which may have got an address).
Nothing is changed when it raises. -/
def insert (m : FileMap) (file : FileEnt) : Py (FileMap × FileEnt) :=
  if !file.isApx then .error .assertionError
  else do
    let file ←
      match file.address with
      | none => assignFileAddressDefault m file
      | some _ => .ok file
    match file.address with
    | none => .error .assertionError
    | some k =>
      let i := bisectLeft m.keys k
      .ok (⟨m.keys.insertIdx i k, m.items.insertIdx i file⟩, file)

/-- file_map.py:51-56 `remove(file)`. -/
def remove (m : FileMap) (file : FileEnt) : Py FileMap :=
  if !file.isApx then .error .assertionError
  else do
    let i ← m.index file
    .ok ⟨m.keys.eraseIdx i, m.items.eraseIdx i⟩

/-- file_map.py:65 / 70: does `item` contain `address`? -/
def hits (item : FileEnt) (address : Int) : Bool :=
  match item.address with
  | none => false
  | some a => address ≥ a && address < a + item.length

/-- file_map.py:67-72: test the element before position `i`. -/
def findPrevious (m : FileMap) (i : Nat) (address : Int) : Option FileEnt :=
  if i > 0 then
    match m.items[i - 1]? with
    | some item => if hits item address then some item else none
    | none => none
  else none

/-- file_map.py:58-72 `findByAddress(address)`. -/
def findByAddress (m : FileMap) (address : Int) : Option FileEnt :=
  if m.keys.length = 0 then none
  else
    let i := bisectLeft m.keys address
    match m.items[i]? with
    | some item => if hits item address then some item else m.findPrevious i address
    | none => m.findPrevious i address

/-- file_map.py:74-79 `findByName(name)`: `return None` is inside the loop. -/
def findByName (m : FileMap) (name : Str) : Option FileEnt :=
  match m.items with
  | [] => none
  | file :: _ => if file.name = name then some file else none

/-- file_map.py:135-136 `__len__`. -/
def len (m : FileMap) : Nat := m.keys.length

/-- file_map.py:138-139 `__getitem__`. -/
def getItem (m : FileMap) (i : Nat) : Py FileEnt :=
  match m.items[i]? with
  | some f => .ok f
  | none => .error .indexError

end FileMap
end Apx
