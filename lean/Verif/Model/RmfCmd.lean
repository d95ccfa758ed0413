import Verif.Model.Struct
import Verif.Model.RmfHeader

/-! Model of the command codecs in /repo/remotefile/__init__.py. -/

namespace Apx.Rmf

/-- remotefile/__init__.py:19-21. -/
def cmdFileInfo : Nat := 3
def cmdFileOpen : Nat := 10
def cmdFileClose : Nat := 11

/-- The FILEINFO part of a `remotefile.File`, remotefile/__init__.py:193-206. -/
structure FileInfo where
  name : Str
  length : Int
  fileType : Int
  address : Option Int
  digestType : Int
  digestData : Bytes
  deriving DecidableEq, Repr

/-- remotefile/__init__.py:95-96 and its copies: reject an unknown byte order. -/
def checkByteOrder (bo : Char) : Py Unit :=
  if bo ≠ '<' ∧ bo ≠ '>' then .error .valueError else .ok ()

/-- remotefile/__init__.py:89-100 `packFileInfo(file, byte_order)`: format `3I2H32s<n>s`.
The name is encoded (evaluating the arguments) before `struct.pack` checks the numbers. -/
def packFileInfo (file : FileInfo) (bo : Char := '<') : Py Bytes :=
  match file.address with
  | none => .error .valueError
  | some address => do
    checkByteOrder bo
    let name ← asciiEncode file.name
    let p1 ← packUInt bo 4 cmdFileInfo
    let p2 ← packUInt bo 4 address
    let p3 ← packUInt bo 4 file.length
    let p4 ← packUInt bo 2 file.fileType
    let p5 ← packUInt bo 2 file.digestType
    .ok (p1 ++ p2 ++ p3 ++ p4 ++ p5 ++ packS 32 file.digestData ++ packS file.name.length name)

/-- remotefile/__init__.py:103-130 `unpackFileInfo(data, byte_order)`; `none` is Python's `None`.
Lines 116-124: the name is what precedes the first zero byte, decoded as utf-8. -/
def unpackFileInfo (data : Bytes) (bo : Char := '<') : Py (Option FileInfo) := do
  checkByteOrder bo
  if data.length ≥ 48 then
    let part1 := data.take 48
    let part2 := data.drop 48
    let address := unpackUInt bo ((part1.drop 4).take 4)
    let length := unpackUInt bo ((part1.drop 8).take 4)
    let fileType := unpackUInt bo ((part1.drop 12).take 2)
    let digestType := unpackUInt bo ((part1.drop 14).take 2)
    let digestData := part1.drop 16
    let name ← utf8Decode (part2.takeWhile (· ≠ 0))
    .ok (some { name := name, length := length, fileType := fileType, address := some (address : Int),
                digestType := digestType, digestData := digestData })
  else .ok none

/-- remotefile/__init__.py:133-137 `packFileOpen(address, byte_order)`: format `2I`. -/
def packFileOpen (address : Int) (bo : Char := '<') : Py Bytes := do
  checkByteOrder bo
  let p1 ← packUInt bo 4 cmdFileOpen
  let p2 ← packUInt bo 4 address
  .ok (p1 ++ p2)

/-- remotefile/__init__.py:140-147 `unpackFileOpen(data, byte_order)`: `struct.unpack` demands
exactly 8 bytes. -/
def unpackFileOpen (data : Bytes) (bo : Char := '<') : Py Nat := do
  checkByteOrder bo
  if data.length = 8 then
    let cmdType := unpackUInt bo (data.take 4)
    let address := unpackUInt bo (data.drop 4)
    if cmdType ≠ cmdFileOpen then .error .valueError else .ok address
  else .error .structError

/-- remotefile/__init__.py:150-154 `packFileClose(address, byte_order)`. -/
def packFileClose (address : Int) (bo : Char := '<') : Py Bytes := do
  checkByteOrder bo
  let p1 ← packUInt bo 4 cmdFileClose
  let p2 ← packUInt bo 4 address
  .ok (p1 ++ p2)

/-- remotefile/__init__.py:157-164 `unpackFileClose(data, byte_order)`: line 162 compares with
the undefined name `RMF_CMD_FILE_ClOSE`, so evaluation raises `NameError` there. -/
def unpackFileClose (data : Bytes) (bo : Char := '<') : Py Nat := do
  checkByteOrder bo
  if data.length = 8 then .error .nameError
  else .error .structError

end Apx.Rmf
