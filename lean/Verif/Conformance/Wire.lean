import Verif.Model.Proto
import Verif.Model.NumHeader
import Verif.Model.RmfCmd
import Verif.Model.FileMap
import Verif.Model.File

/-!
The unit tests of the repository, run on the model: number headers, remote file headers and commands, files and
file maps (/repo/tests/numheader_test.py, remotefile_test.py, apx_file_test.py, file_map_test.py).

These are tests of the model, not proofs of properties: they compare it with results the authors of the code
recorded. Left out are checks of Python types.
-/

namespace Apx.Conformance

open NumHeader Rmf

/-! numheader_test.py -/

-- test_encode16
example : encode16 0 = .ok [0] ∧ encode16 127 = .ok [127] ∧ encode16 128 = .ok [0x80, 0x80] ∧
    encode16 32767 = .ok [0xFF, 0xFF] ∧ encode16 32768 = .ok [0x80, 0x00] ∧ encode16 32895 = .ok [0x80, 0x7F] ∧
    encode16 32896 = .error .valueError := by decide +kernel

-- test_decode16
example : decode16 [0] = .ok (1, some 0) ∧ decode16 [127] = .ok (1, some 127) ∧
    decode16 [0x80, 0x80] = .ok (2, some 128) ∧ decode16 [0xFF, 0xFF] = .ok (2, some 32767) ∧
    decode16 [0x80, 0x00] = .ok (2, some 32768) ∧ decode16 [0x80, 0x7F] = .ok (2, some 32895) := by decide +kernel

-- test_encode32
example : encode32 0 = .ok [0] ∧ encode32 127 = .ok [127] ∧ encode32 128 = .ok [0x80, 0x00, 0x00, 0x80] ∧
    encode32 2147483647 = .ok [0xFF, 0xFF, 0xFF, 0xFF] ∧ encode32 2147483648 = .error .valueError := by decide +kernel

-- test_decode32
example : decode32 [0] 0 = .ok (1, some 0) ∧ decode32 [0x7F] 0 = .ok (1, some 127) ∧
    (decode32 [0x80, 0x80] 0).toOption.map (·.1) = some 0 ∧ decode32 [0x80, 0x00, 0x00, 0x80] 0 = .ok (4, some 128) ∧
    decode32 [0xFF, 0xFF, 0xFF, 0xFF] 0 = .ok (4, some 2147483647) ∧
    decode32 [0x00, 0x00, 0xFF, 0xFF, 0xFF, 0xFF] 2 = .ok (4, some 2147483647) := by decide +kernel

/-! remotefile_test.py -/

-- test_packHeader
example : packHeader 0 false = .ok [0, 0] ∧ packHeader 0 true = .ok [0x40, 0] ∧
    packHeader 1234 true = .ok [0x44, 0xD2] ∧ packHeader 16383 false = .ok [0x3F, 0xFF] ∧
    packHeader 16383 true = .ok [0x7F, 0xFF] ∧ packHeader 16384 false = .ok [0x80, 0x00, 0x40, 0x00] ∧
    packHeader 16384 true = .ok [0xC0, 0x00, 0x40, 0x00] ∧
    packHeader 1073741823 false = .ok [0xBF, 0xFF, 0xFF, 0xFF] ∧
    packHeader 1073741823 true = .ok [0xFF, 0xFF, 0xFF, 0xFF] ∧
    packHeader 1073741824 false = .error .valueError ∧ packHeader 1073741824 true = .error .valueError := by
  decide +kernel

-- test_packFileInfo
def infoFile : FileInfo := ⟨"test.txt".toList, 100, 0, some 10000, 0, List.replicate 32 0⟩

example : packFileInfo infoFile = .ok ([3, 0, 0, 0, 0x10, 0x27, 0, 0, 0x64, 0, 0, 0, 0, 0, 0, 0] ++
    List.replicate 32 0 ++ [116, 101, 115, 116, 46, 116, 120, 116]) ∧
    (packFileInfo infoFile >>= fun d => unpackFileInfo d) = .ok (some infoFile) := by decide +kernel

-- test_packFileOpen
example : (packFileOpen 0x12345678).toOption.map List.length = some 8 := by decide +kernel

/-! apx_file_test.py -/

-- test_input_file
example : (FileData.create 10 >>= fun f => .ok (f.inputWrite 5 [1, 2, 3])) =
    .ok (⟨[0, 0, 0, 0, 0, 1, 2, 3, 0, 0]⟩, 3, some ⟨⟨[0, 0, 0, 0, 0, 1, 2, 3, 0, 0]⟩, 5, 3⟩) ∧
    FileData.read ⟨[0, 0, 0, 0, 0, 1, 2, 3, 0, 0]⟩ 5 3 = some [1, 2, 3] := by decide +kernel

-- test_output_file
example : (FileData.create 5 >>= fun f => .ok (f.write 2 [1, 2, 3])) = .ok (⟨[0, 0, 1, 2, 3]⟩, 3) := by decide +kernel

/-! file_map_test.py -/

/-- A file object without an address. -/
def plainFile (id : Nat) (name : String) (len : Nat) : FileEnt := ⟨id, true, name.toList, len, none⟩

/-- `assignFileAddress` followed by `insert`. -/
def assignInsert (m : Py FileMap) (f : FileEnt) (a b boundary : Nat) : Py FileMap := do
  let m ← m
  let f ← m.assignFileAddress f a b boundary
  let r ← m.insert f
  .ok r.1

/-- `_assignFileAddressDefault` (if asked for) followed by `insert`. -/
def defaultInsert (explicit : Bool) (m : Py FileMap) (f : FileEnt) : Py FileMap := do
  let m ← m
  let f ← if explicit then m.assignFileAddressDefault f else .ok f
  let r ← m.insert f
  .ok r.1

/-- The numbers and addresses of the files, in the order of the map. -/
def places (m : Py FileMap) : Py (List (Nat × Option Int)) := do
  let m ← m
  .ok ((List.range m.len).filterMap fun i => (m.getItem i).toOption.map fun f => (f.id, f.address))

-- test_assignFileAddress
example : places (assignInsert (assignInsert (assignInsert (assignInsert (assignInsert (assignInsert (.ok FileMap.empty)
    (plainFile 1 "test.out" 6840) 0 65536 1024) (plainFile 2 "test.in" 64) 0 65536 1024)
    (plainFile 3 "test.txt" 64) 65536 131072 4096) (plainFile 4 "test.bin" 100) 0 65536 1024)
    (plainFile 5 "test2.bin" 8000) 65536 131072 4096) (plainFile 6 "test3.bin" 400) 65536 131072 4096) =
    .ok [(1, some 0), (2, some (1024 * 7)), (4, some (1024 * 8)), (3, some 65536), (5, some (65536 + 4096)),
      (6, some (65536 + 4096 * 3))] := by decide +kernel

/-- The files of the two tests below. -/
def eightFiles : List FileEnt :=
  [plainFile 1 "test1.in" 6840, plainFile 2 "test1.out" 64, plainFile 3 "test1.apx" 64, plainFile 4 "test2.apx" 100,
    plainFile 5 "test2.out" 8000, plainFile 6 "test2.in" 400, plainFile 7 "test2.bin" 6200, plainFile 8 "test2.png" 1234]

-- test_assignFileAddressDefault, test_insert
example : ∀ explicit : Bool, places (eightFiles.foldl (defaultInsert explicit) (.ok FileMap.empty)) =
    .ok [(1, some 0), (2, some (1024 * 7)), (5, some (1024 * 8)), (6, some (1024 * 16)), (3, some 0x4000000),
      (4, some (0x4000000 + 0x100000)), (7, some 0x20000000), (8, some (0x20000000 + 0x100000))] := by decide +kernel

/-- The map of the test below. -/
def fourFiles : Py FileMap := [plainFile 1 "test1.out" 5, plainFile 2 "test1.apx" 32, plainFile 3 "test2.out" 5,
  plainFile 4 "test2.apx" 20].foldl (defaultInsert false) (.ok FileMap.empty)

/-- The file found at each byte of a file and at the byte behind it. -/
def foundAt (m : Py FileMap) (address : Int) (len : Nat) : Option (List (Option Nat)) :=
  m.toOption.map fun m => (List.range (len + 1)).map fun i => (m.findByAddress (address + i)).map (·.id)

-- test_findByAddress
example : foundAt fourFiles 0 5 = some (List.replicate 5 (some 1) ++ [none]) ∧
    foundAt fourFiles 0x4000000 32 = some (List.replicate 32 (some 2) ++ [none]) ∧
    foundAt fourFiles 0x400 5 = some (List.replicate 5 (some 3) ++ [none]) ∧
    foundAt fourFiles (0x4000000 + 0x100000) 20 = some (List.replicate 20 (some 4) ++ [none]) := by decide +kernel

-- test_readLine
example : (fun b => (readLine b 0 29, readLine b 8 29, readLine b 28 29))
    ("RMF/1.0\nNumHeader-Format:32\n\n".toList.map fun c => UInt8.ofNat c.toNat) = (.ok 7, .ok 27, .ok 28) := by decide +kernel

end Apx.Conformance
