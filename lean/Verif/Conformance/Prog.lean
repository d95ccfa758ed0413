import Verif.Model.Compiler
import Verif.Model.Vm
import Verif.Conformance.Text

/-!
The unit tests of the repository, run on the model: the compiler, the virtual machine and its state objects
(/repo/tests/compiler_test.py, vm_test.py, vm_state_test.py).

These are tests of the model, not proofs of properties. Tests of the same name in one class, of which Python runs
only the last, are all transcribed.
-/

set_option synthInstance.maxSize 2000

namespace Apx.Conformance

/-! compiler_test.py -/

/-- The bytes of an ASCII text. -/
def ascii (s : String) : Bytes := s.toList.map fun c => UInt8.ofNat c.toNat

-- TestCompilePackProg: integers, arrays, strings
example : compileProg .pack (.prim .u8 (some 0) (some 3) none) = .ok [1, 1, 0, 0, 0, 3] ∧
    compileProg .pack (.prim .u16 none none none) = .ok [1, 2, 0, 0, 0, 4] ∧
    compileProg .pack (.prim .u32 none none none) = .ok [1, 4, 0, 0, 0, 5] ∧
    compileProg .pack (.prim .s8 (some 0) (some 3) none) = .ok [1, 1, 0, 0, 0, 6] ∧
    compileProg .pack (.prim .s16 none none none) = .ok [1, 2, 0, 0, 0, 7] ∧
    compileProg .pack (.prim .s32 none none none) = .ok [1, 4, 0, 0, 0, 8] := by decide +kernel

example : compileProg .pack (.prim .u8 (some 0) (some 3) (some 10)) = .ok [1, 10, 0, 0, 0, 10, 10, 0] ∧
    compileProg .pack (.prim .u16 (some 0) (some 3) (some 5)) = .ok [1, 10, 0, 0, 0, 11, 5, 0] ∧
    compileProg .pack (.prim .u32 (some 0) (some 3) (some 3)) = .ok [1, 12, 0, 0, 0, 12, 3, 0] ∧
    compileProg .pack (.prim .s8 (some 0) (some 3) (some 10)) = .ok [1, 10, 0, 0, 0, 13, 10, 0] ∧
    compileProg .pack (.prim .s16 (some 0) (some 3) (some 5)) = .ok [1, 10, 0, 0, 0, 14, 5, 0] ∧
    compileProg .pack (.prim .s32 (some 0) (some 3) (some 3)) = .ok [1, 12, 0, 0, 0, 15, 3, 0] := by decide +kernel

example : compileProg .pack (.prim .str none none (some 20)) = .ok [1, 20, 0, 0, 0, 9, 20, 0] := by decide +kernel

-- TestCompilePackProg: test_packRecord
example : compileProg .pack (.record (.cons (some "SoundId".toList) (.prim .u16 none none none)
      (.cons (some "Volume".toList) (.prim .u8 none none (some 4))
        (.cons (some "Repetitions".toList) (.prim .u8 none none none) .nil))) none) =
    .ok ([1, 7, 0, 0, 0, 29, 30] ++ ascii "SoundId" ++ [0, 4, 30] ++ ascii "Volume" ++ [0, 10, 4, 0, 30] ++
      ascii "Repetitions" ++ [0, 3, 31]) := by decide +kernel

-- TestCompileUnpackProg: integers, arrays, strings
example : compileProg .unpack (.prim .u8 (some 0) (some 3) none) = .ok [2, 1, 0, 0, 0, 16] ∧
    compileProg .unpack (.prim .u16 none none none) = .ok [2, 2, 0, 0, 0, 17] ∧
    compileProg .unpack (.prim .u32 none none none) = .ok [2, 4, 0, 0, 0, 18] ∧
    compileProg .unpack (.prim .s8 (some 0) (some 3) none) = .ok [2, 1, 0, 0, 0, 19] ∧
    compileProg .unpack (.prim .s16 none none none) = .ok [2, 2, 0, 0, 0, 20] ∧
    compileProg .unpack (.prim .s32 none none none) = .ok [2, 4, 0, 0, 0, 21] := by decide +kernel

example : compileProg .unpack (.prim .u8 (some 0) (some 3) (some 10)) = .ok [2, 10, 0, 0, 0, 23, 10, 0] ∧
    compileProg .unpack (.prim .u16 (some 0) (some 3) (some 5)) = .ok [2, 10, 0, 0, 0, 24, 5, 0] ∧
    compileProg .unpack (.prim .u32 (some 0) (some 3) (some 3)) = .ok [2, 12, 0, 0, 0, 25, 3, 0] ∧
    compileProg .unpack (.prim .s8 none none (some 10)) = .ok [2, 10, 0, 0, 0, 26, 10, 0] ∧
    compileProg .unpack (.prim .s16 none none (some 5)) = .ok [2, 10, 0, 0, 0, 27, 5, 0] ∧
    compileProg .unpack (.prim .s32 none none (some 3)) = .ok [2, 12, 0, 0, 0, 28, 3, 0] := by decide +kernel

-- TestCompileUnpackProg: test_unpackRecord
example : compileProg .unpack (.record (.cons (some "SoundId".toList) (.prim .u16 none none none)
      (.cons (some "Volume".toList) (.prim .u8 none none (some 4))
        (.cons (some "Repetitions".toList) (.prim .u8 none none none) .nil))) none) =
    .ok ([2, 7, 0, 0, 0, 29, 30] ++ ascii "SoundId" ++ [0, 17, 30] ++ ascii "Volume" ++ [0, 23, 4, 0, 30] ++
      ascii "Repetitions" ++ [0, 16, 31]) := by decide +kernel

/-- `Compiler().exec(port)` for the port found under the name. /repo/apx/compiler.py:12-19. -/
def execPort (items : List Item) (name : String) : Py Bytes := do
  let n ← nodeOf "TestNode" items
  match n.find name.toList with
  | some (.port side p) => do
    let e ← p.elem.resolveType n.named
    let e ← e.resolveDataElement
    compileProg (match side with | .require => .unpack | .provide => .pack) e
  | _ => .error .keyError

/-- The node of test_compile_require_ports. -/
def requireItems : List Item :=
  [.T "TestType1_T" "S(0,1000)", .T "TestType2_T" "a[32]", .R "Signal1" "C" (some "=255"),
   .R "Signal2" "T[0]" (some "=255"), .R "Signal3" "T[\"TestType2_T\"]" (some "=\"\"")]

-- test_compile_require_ports
example : execPort requireItems "Signal1" = .ok [2, 1, 0, 0, 0, 16] ∧
    execPort requireItems "Signal2" = .ok [2, 2, 0, 0, 0, 17] ∧
    execPort requireItems "Signal3" = .ok [2, 32, 0, 0, 0, 22, 32, 0] := by decide +kernel

/-- The node of test_compile_provide_ports. -/
def provideItems : List Item :=
  [.T "TestType1_T" "C", .T "TestType2_T" "C[10]", .T "TestType3_T" "S", .T "TestType4_T" "S[10]",
   .T "TestType5_T" "L", .T "TestType6_T" "L[10]", .P "U8Signal" "T[\"TestType1_T\"]" none,
   .P "U8ArraySignal" "T[\"TestType2_T\"]" none, .P "U16Signal" "T[\"TestType3_T\"]" none,
   .P "U16ArraySignal" "T[\"TestType4_T\"]" none, .P "U32Signal" "T[\"TestType5_T\"]" none,
   .P "U32ArraySignal" "T[\"TestType6_T\"]" none]

-- test_compile_provide_ports
example : execPort provideItems "U8Signal" = .ok [1, 1, 0, 0, 0, 3] ∧
    execPort provideItems "U8ArraySignal" = .ok [1, 10, 0, 0, 0, 10, 10, 0] ∧
    execPort provideItems "U16Signal" = .ok [1, 2, 0, 0, 0, 4] ∧
    execPort provideItems "U16ArraySignal" = .ok [1, 20, 0, 0, 0, 11, 10, 0] ∧
    execPort provideItems "U32Signal" = .ok [1, 4, 0, 0, 0, 5] ∧
    execPort provideItems "U32ArraySignal" = .ok [1, 40, 0, 0, 0, 12, 10, 0] := by decide +kernel

/-- The types of test_compile_record_provide_port and test_compile_record_require_port. -/
def soundTypes : List Item :=
  [.T "SoundId_T" "S", .T "Volume_T" "C", .T "Repetitions_T" "C",
   .T "SoundRequest_T" "{\"SoundId\"T[\"SoundId_T\"]\"Volume\"T[\"Volume_T\"]\"Repetitions\"T[\"Repetitions_T\"]}"]

-- test_compile_record_provide_port, test_compile_record_require_port
example : execPort (soundTypes ++ [.P "SoundRequest" "T[\"SoundRequest_T\"]" (some "={65535,255,255}")]) "SoundRequest" =
      .ok ([1, 4, 0, 0, 0, 29, 30] ++ ascii "SoundId" ++ [0, 4, 30] ++ ascii "Volume" ++ [0, 3, 30] ++
        ascii "Repetitions" ++ [0, 3, 31]) ∧
    execPort (soundTypes ++ [.R "SoundRequest" "T[\"SoundRequest_T\"]" (some "={65535,255,255}")]) "SoundRequest" =
      .ok ([2, 4, 0, 0, 0, 29, 30] ++ ascii "SoundId" ++ [0, 17, 30] ++ ascii "Volume" ++ [0, 16, 30] ++
        ascii "Repetitions" ++ [0, 16, 31]) := by decide +kernel

/-! vm_test.py: parsing of instructions -/

example : parseInstr [1, 0x78, 0x56, 0x34, 0x12] = .ok (some (.packProg 0x12345678, [])) ∧
    parseInstr [2, 0x78, 0x56, 0x34, 0x12] = .ok (some (.unpackProg 0x12345678, [])) ∧
    parseInstr [3] = .ok (some (.pack .u8 0, [])) ∧
    parseInstr [4] = .ok (some (.pack .u16 0, [])) ∧
    parseInstr [5] = .ok (some (.pack .u32 0, [])) ∧
    parseInstr [6] = .ok (some (.pack .s8 0, [])) := by decide +kernel

example : parseInstr [7] = .ok (some (.pack .s16 0, [])) ∧
    parseInstr [8] = .ok (some (.pack .s32 0, [])) ∧
    parseInstr [16] = .ok (some (.unpack .u8 0, [])) ∧
    parseInstr [17] = .ok (some (.unpack .u16 0, [])) ∧
    parseInstr [18] = .ok (some (.unpack .u32 0, [])) ∧
    parseInstr [19] = .ok (some (.unpack .s8 0, [])) := by decide +kernel

example : parseInstr [20] = .ok (some (.unpack .s16 0, [])) ∧
    parseInstr [21] = .ok (some (.unpack .s32 0, [])) ∧
    parseInstr [9, 0x34, 0x12] = .ok (some (.packStr 0x1234, [])) ∧
    parseInstr [22, 0x34, 0x12] = .ok (some (.unpackStr 0x1234, [])) ∧
    parseInstr [10, 0x34, 0x12] = .ok (some (.pack .u8 0x1234, [])) ∧
    parseInstr [11, 0x34, 0x12] = .ok (some (.pack .u16 0x1234, [])) := by decide +kernel

example : parseInstr [12, 0x34, 0x12] = .ok (some (.pack .u32 0x1234, [])) ∧
    parseInstr [13, 0x34, 0x12] = .ok (some (.pack .s8 0x1234, [])) ∧
    parseInstr [14, 0x34, 0x12] = .ok (some (.pack .s16 0x1234, [])) ∧
    parseInstr [15, 0x34, 0x12] = .ok (some (.pack .s32 0x1234, [])) ∧
    parseInstr [23, 0x34, 0x12] = .ok (some (.unpack .u8 0x1234, [])) ∧
    parseInstr [24, 0x34, 0x12] = .ok (some (.unpack .u16 0x1234, [])) := by decide +kernel

example : parseInstr [25, 0x34, 0x12] = .ok (some (.unpack .u32 0x1234, [])) ∧
    parseInstr [26, 0x34, 0x12] = .ok (some (.unpack .s8 0x1234, [])) ∧
    parseInstr [27, 0x34, 0x12] = .ok (some (.unpack .s16 0x1234, [])) ∧
    parseInstr [28, 0x34, 0x12] = .ok (some (.unpack .s32 0x1234, [])) ∧
    parseInstr [29] = .ok (some (.recordEnter, [])) ∧
    parseInstr [31] = .ok (some (.recordLeave, [])) := by decide +kernel

example : parseInstr [32] = .ok (some (.arrayEnter, [])) ∧
    parseInstr [33] = .ok (some (.arrayLeave, [])) ∧
    parseInstr (30 :: (ascii "Selection" ++ [0])) = .ok (some (.recordSelect "Selection".toList, [])) ∧
    parseInstr [] = .ok none := by decide +kernel

/-! vm_test.py: execution of instructions -/

/-- `init_pack_prog` with a buffer of `size` zeros, then for every value: set it, execute the instruction; the buffer
and the data offset. -/
def packAll (t : IntT) (size : Nat) (vs : List PyVal) : Py (Bytes × Nat) := do
  let m ← vs.foldlM (fun (m : Vm) v => execPack (.pack t 0) { m with st := VmState.init v })
    (⟨VmState.init .null, List.replicate size 0, 0⟩ : Vm)
  .ok (m.data, m.off)

/-- `init_unpack_prog`, then `n` times: execute the instruction and note the value; the values and the data offset. -/
def unpackAll (t : IntT) (data : Bytes) : Nat → Py (List PyVal × Nat) := fun n => do
  let (vs, m) ← (List.range n).foldlM (fun (r : List PyVal × Vm) _ => do
      let m ← execUnpack (.unpack t 0) r.2
      .ok (r.1 ++ [m.st.value], m))
    (([] : List PyVal), (⟨VmState.init .null, data, 0⟩ : Vm))
  .ok (vs, m.off)

example : packAll .u8 3 [.int 0, .int 128, .int 255] =
      .ok ([0, 128, 255], 3) ∧
    unpackAll .u8 [0, 128, 255] 3 =
      .ok ([.int 0, .int 128, .int 255], 3) ∧
    packAll .u16 6 [.int 0, .int 4660, .int 65535] =
      .ok ([0, 0, 52, 18, 255, 255], 6) ∧
    unpackAll .u16 [0, 0, 52, 18, 255, 255] 3 =
      .ok ([.int 0, .int 4660, .int 65535], 6) ∧
    packAll .u32 12 [.int 0, .int 305419896, .int 4294967295] =
      .ok ([0, 0, 0, 0, 120, 86, 52, 18, 255, 255, 255, 255], 12) ∧
    unpackAll .u32 [0, 0, 0, 0, 120, 86, 52, 18, 255, 255, 255, 255] 3 =
      .ok ([.int 0, .int 305419896, .int 4294967295], 12) := by decide +kernel

example : packAll .s8 4 [.int (-128), .int (-1), .int 0, .int 127] =
      .ok ([128, 255, 0, 127], 4) ∧
    unpackAll .s8 [128, 255, 0, 127] 4 =
      .ok ([.int (-128), .int (-1), .int 0, .int 127], 4) ∧
    packAll .s16 8 [.int (-32768), .int (-1), .int 0, .int 32767] =
      .ok ([0, 128, 255, 255, 0, 0, 255, 127], 8) ∧
    unpackAll .s16 [0, 128, 255, 255, 0, 0, 255, 127] 4 =
      .ok ([.int (-32768), .int (-1), .int 0, .int 32767], 8) ∧
    packAll .s32 16 [.int (-2147483648), .int (-1), .int 0, .int 2147483647] =
      .ok ([0, 0, 0, 128, 255, 255, 255, 255, 0, 0, 0, 0, 255, 255, 255, 127], 16) ∧
    unpackAll .s32 [0, 0, 0, 128, 255, 255, 255, 255, 0, 0, 0, 0, 255, 255, 255, 127] 4 =
      .ok ([.int (-2147483648), .int (-1), .int 0, .int 2147483647], 16) := by decide +kernel

example : unpackAll .u8 [0, 128, 255] 4 = .error .structError ∧
    unpackAll .u16 [0, 0, 52, 18, 255, 255] 4 = .error .structError := by decide +kernel

/-- Packing of an array of `n` elements into a buffer of `size` zeros, then of one of `n + 1` elements. -/
def packArr (t : IntT) (n size : Nat) (vs : List PyVal) : Py Bytes × Py Bytes :=
  ((execPack (.pack t n) ⟨VmState.init (.list vs), List.replicate size 0, 0⟩).map Vm.data,
   do
    let m ← execPack (.pack t n) ⟨VmState.init (.list vs), List.replicate size 0, 0⟩
    let m ← execPack (.pack t (n + 1)) m
    .ok m.data)

/-- Unpacking of an array. -/
def unpackArr (t : IntT) (n : Nat) (data : Bytes) : Py (PyVal × Nat) := do
  let m ← execUnpack (.unpack t n) ⟨VmState.init .null, data, 0⟩
  .ok (m.st.value, m.off)

example : packArr .u8 4 4 [.int 1, .int 2, .int 3, .int 4] =
      (.ok [1, 2, 3, 4], .error .valueError) ∧
    unpackArr .u8 4 [1, 2, 3, 4] =
      .ok (.list [.int 1, .int 2, .int 3, .int 4], 4) ∧
    packArr .u16 4 8 [.int 10, .int 4660, .int 65535, .int 22] =
      (.ok [10, 0, 52, 18, 255, 255, 22, 0], .error .valueError) ∧
    unpackArr .u16 4 [10, 0, 52, 18, 255, 255, 22, 0] =
      .ok (.list [.int 10, .int 4660, .int 65535, .int 22], 8) ∧
    packArr .u32 4 16 [.int 19, .int 12345678, .int 305419896, .int 900] =
      (.ok [19, 0, 0, 0, 78, 97, 188, 0, 120, 86, 52, 18, 132, 3, 0, 0], .error .valueError) ∧
    unpackArr .u32 4 [19, 0, 0, 0, 78, 97, 188, 0, 120, 86, 52, 18, 132, 3, 0, 0] =
      .ok (.list [.int 19, .int 12345678, .int 305419896, .int 900], 16) := by decide +kernel

example : packArr .s8 4 4 [.int 1, .int (-23), .int 18, .int (-94)] =
      (.ok [1, 233, 18, 162], .error .valueError) ∧
    unpackArr .s8 4 [1, 233, 18, 162] =
      .ok (.list [.int 1, .int (-23), .int 18, .int (-94)], 4) ∧
    packArr .s16 3 6 [.int (-918), .int 600, .int 42] =
      (.ok [106, 252, 88, 2, 42, 0], .error .valueError) ∧
    unpackArr .s16 3 [106, 252, 88, 2, 42, 0] =
      .ok (.list [.int (-918), .int 600, .int 42], 6) ∧
    packArr .s32 2 8 [.int (-100000), .int 100000] =
      (.ok [96, 121, 254, 255, 160, 134, 1, 0], .error .valueError) ∧
    unpackArr .s32 2 [96, 121, 254, 255, 160, 134, 1, 0] =
      .ok (.list [.int (-100000), .int 100000], 8) := by decide +kernel

-- test_exec_pack_str and the test of exec_unpack_str
example : (execPack (.packStr 6) ⟨VmState.init (.str "Hello".toList), List.replicate 8 0, 0⟩).map Vm.data =
      .ok (ascii "Hello" ++ [0, 0, 0]) ∧
    (execUnpack (.unpackStr 6) ⟨VmState.init .null, ascii "Hello" ++ [0], 0⟩).map (fun m => (m.st.value, m.off)) =
      .ok (.str "Hello".toList, 6) := by decide +kernel

-- test_exec_pack_prog_u8, test_exec_unpack_prog_u8
example : execPackProg [1, 1, 0, 0, 0, 3] [0] 0 (.int 128) = .ok [128] ∧
    execUnpackProg [2, 1, 0, 0, 0, 16] [128] 0 = .ok (.int 128) := by decide +kernel

-- test_exec_pack_prog_record, test_exec_unpack_prog_record
example : execPackProg ([1, 3, 0, 0, 0, 29, 30] ++ ascii "SoundId" ++ [0, 4, 30] ++ ascii "Volume" ++ [0, 3, 31]) [0, 0, 0] 0
      (.dict [("SoundId".toList, .int 63), ("Volume".toList, .int 12)]) = .ok [63, 0, 12] ∧
    execUnpackProg ([2, 3, 0, 0, 0, 29, 30] ++ ascii "SoundId" ++ [0, 17, 30] ++ ascii "Volume" ++ [0, 16, 31]) [63, 0, 12] 0 =
      .ok (.dict [("SoundId".toList, .int 63), ("Volume".toList, .int 12)]) := by decide +kernel

/-! vm_state_test.py: packing. (test_pack_u8 to test_pack_s32 and the arrays repeat vm_test.py with other numbers.) -/

/-- Packing one value at offset 0. -/
def packOne (t : IntT) (size : Nat) (v : Int) : Py (Bytes × Nat) :=
  (VmState.init (.int v)).packStruct t (List.replicate size 0) 0 0

example : packAll .u8 3 [.int 1, .int 0x12, .int 255] = .ok ([1, 0x12, 255], 3) := by decide +kernel

example : packOne .u16 2 0 = .ok ([0, 0], 2) ∧
    packOne .u16 2 4660 = .ok ([52, 18], 2) ∧
    packOne .u16 2 65535 = .ok ([255, 255], 2) ∧
    packOne .u32 4 0 = .ok ([0, 0, 0, 0], 4) ∧
    packOne .u32 4 305419896 = .ok ([120, 86, 52, 18], 4) ∧
    packOne .u32 4 4294967295 = .ok ([255, 255, 255, 255], 4) := by decide +kernel

example : packOne .s8 1 0 = .ok ([0], 1) ∧
    packOne .s8 1 127 = .ok ([127], 1) ∧
    packOne .s8 1 (-1) = .ok ([255], 1) ∧
    packOne .s8 1 (-128) = .ok ([128], 1) ∧
    packOne .s16 2 0 = .ok ([0, 0], 2) ∧
    packOne .s16 2 32767 = .ok ([255, 127], 2) := by decide +kernel

example : packOne .s16 2 (-1) = .ok ([255, 255], 2) ∧
    packOne .s16 2 (-32768) = .ok ([0, 128], 2) ∧
    packOne .s32 4 0 = .ok ([0, 0, 0, 0], 4) ∧
    packOne .s32 4 2147483647 = .ok ([255, 255, 255, 127], 4) ∧
    packOne .s32 4 (-1) = .ok ([255, 255, 255, 255], 4) ∧
    packOne .s32 4 (-2147483648) = .ok ([0, 0, 0, 128], 4) := by decide +kernel

example : (VmState.init (.list [.int 1, .int 2, .int 3])).packStruct .u8 (List.replicate 3 0) 0 3 =
      .ok ([1, 2, 3], 3) ∧
    (VmState.init (.list [.int 1, .int 2, .int 3])).packStruct .u16 (List.replicate 6 0) 0 3 =
      .ok ([1, 0, 2, 0, 3, 0], 6) ∧
    (VmState.init (.list [.int 1, .int 2, .int 3])).packStruct .u32 (List.replicate 12 0) 0 3 =
      .ok ([1, 0, 0, 0, 2, 0, 0, 0, 3, 0, 0, 0], 12) ∧
    (VmState.init (.list [.int (-1), .int (-2), .int (-3)])).packStruct .s8 (List.replicate 3 0) 0 3 =
      .ok ([255, 254, 253], 3) ∧
    (VmState.init (.list [.int (-1), .int (-2), .int (-3)])).packStruct .s16 (List.replicate 6 0) 0 3 =
      .ok ([255, 255, 254, 255, 253, 255], 6) ∧
    (VmState.init (.list [.int (-1), .int (-2), .int (-3)])).packStruct .s32 (List.replicate 12 0) 0 3 =
      .ok ([255, 255, 255, 255, 254, 255, 255, 255, 253, 255, 255, 255], 12) := by decide +kernel

-- test_pack_str_...
example : (VmState.init (.str "Select".toList)).packStr (List.replicate 7 0) 0 7 = .ok (ascii "Select" ++ [0], 7) ∧
    (VmState.init (.str "Selects".toList)).packStr (List.replicate 7 0) 0 7 = .ok (ascii "Selects", 7) ∧
    (VmState.init (.str "Selected".toList)).packStr (List.replicate 7 0) 0 7 = .ok (ascii "Selecte", 7) := by decide +kernel

/-- What the tests look at after every step: value, key, index, height of the stack, buffer and data offset. -/
def seen (m : Vm) : PyVal × Option Str × Option Nat × Nat × Bytes × Nat :=
  (m.st.value, m.st.key, m.st.idx, m.st.stack.length, m.data, m.off)

/-- The instructions executed one after the other, and what is seen after each. -/
def trace (d : Dir) : List Instr → Vm → Py (List (PyVal × Option Str × Option Nat × Nat × Bytes × Nat))
  | [], _ => .ok []
  | i :: l, m => do
    let m ← execInstr d i m
    let r ← trace d l m
    .ok (seen m :: r)

/-- A dict with two integers. -/
def two (k : String) (i : Int) (l : String) (j : Int) : PyVal := .dict [(k.toList, .int i), (l.toList, .int j)]

/-- A dict with one integer. -/
def single (k : String) (i : Int) : PyVal := .dict [(k.toList, .int i)]

/-- `record_select`. -/
def sel (s : String) : Instr := .recordSelect s.toList
/-- `pack_u8` and `unpack_u8`. -/
def put8 : Instr := .pack .u8 0
/-- See `put8`. -/
def get8 : Instr := .unpack .u8 0
/-- A key. -/
def key (s : String) : Option Str := some s.toList

-- test_pack_u8_to_record
example : (trace .pack [.recordEnter, sel "a", put8, sel "b", put8] ⟨VmState.init (two "a" 255 "b" 7), [0, 0], 0⟩) = .ok
    [(two "a" 255 "b" 7, none, none, 0, [0, 0], 0), (two "a" 255 "b" 7, key "a", none, 0, [0, 0], 0),
     (two "a" 255 "b" 7, key "a", none, 0, [255, 0], 1), (two "a" 255 "b" 7, key "b", none, 0, [255, 0], 1),
     (two "a" 255 "b" 7, key "b", none, 0, [255, 7], 2)] := by decide +kernel

/-- The value of test_pack_array_of_records. -/
def abList : List PyVal := [two "a" 255 "b" 7, two "a" 29 "b" 4, two "a" 0 "b" 200]

/-- One record of the tests of arrays of records. -/
def abPack : List Instr := [.recordEnter, sel "a", put8, sel "b", put8, .recordLeave]

-- test_pack_array_of_records
example : ((trace .pack (.arrayEnter :: (abPack ++ abPack ++ abPack ++ [.arrayLeave]))
      ⟨VmState.init (.list abList), [0, 0, 0, 0, 0, 0], 0⟩).map fun l => l.map fun s => (s.2.2.1, s.2.2.2)) = .ok
    [(some 0, 0, [0, 0, 0, 0, 0, 0], 0),
     (none, 1, [0, 0, 0, 0, 0, 0], 0), (none, 1, [0, 0, 0, 0, 0, 0], 0), (none, 1, [255, 0, 0, 0, 0, 0], 1),
     (none, 1, [255, 0, 0, 0, 0, 0], 1), (none, 1, [255, 7, 0, 0, 0, 0], 2), (some 1, 0, [255, 7, 0, 0, 0, 0], 2),
     (none, 1, [255, 7, 0, 0, 0, 0], 2), (none, 1, [255, 7, 0, 0, 0, 0], 2), (none, 1, [255, 7, 29, 0, 0, 0], 3),
     (none, 1, [255, 7, 29, 0, 0, 0], 3), (none, 1, [255, 7, 29, 4, 0, 0], 4), (some 2, 0, [255, 7, 29, 4, 0, 0], 4),
     (none, 1, [255, 7, 29, 4, 0, 0], 4), (none, 1, [255, 7, 29, 4, 0, 0], 4), (none, 1, [255, 7, 29, 4, 0, 0], 5),
     (none, 1, [255, 7, 29, 4, 0, 0], 5), (none, 1, [255, 7, 29, 4, 0, 200], 6), (some 3, 0, [255, 7, 29, 4, 0, 200], 6),
     (none, 0, [255, 7, 29, 4, 0, 200], 6)] := by decide +kernel

example : ((trace .pack (.arrayEnter :: (abPack ++ abPack ++ abPack ++ [.arrayLeave]))
      ⟨VmState.init (.list abList), [0, 0, 0, 0, 0, 0], 0⟩).map fun l => [l[1]?, l[7]?, l[13]?].map (Option.map Prod.fst)) =
    .ok [some (two "a" 255 "b" 7), some (two "a" 29 "b" 4), some (two "a" 0 "b" 200)] := by decide +kernel

/-- The value of test_pack_array_of_records_in_record. -/
def customers : PyVal := .dict [("customers".toList, .list [two "id" 1 "amount" 2, two "id" 2 "amount" 10]),
  ("priority".toList, .int 4)]

-- test_pack_array_of_records_in_record
example : (trace .pack [.recordEnter, sel "customers", .arrayEnter, .recordEnter, sel "id", put8, sel "amount", put8,
      .recordLeave, .recordEnter, sel "id", put8, sel "amount", put8, .recordLeave, .arrayLeave, sel "priority", put8,
      .recordLeave] ⟨VmState.init customers, [0, 0, 0, 0, 0], 0⟩).map (fun l => l.map Prod.snd) = .ok
    [(none, none, 0, [0, 0, 0, 0, 0], 0), (key "customers", none, 0, [0, 0, 0, 0, 0], 0), (none, some 0, 1, [0, 0, 0, 0, 0], 0),
     (none, none, 2, [0, 0, 0, 0, 0], 0), (key "id", none, 2, [0, 0, 0, 0, 0], 0), (key "id", none, 2, [1, 0, 0, 0, 0], 1),
     (key "amount", none, 2, [1, 0, 0, 0, 0], 1), (key "amount", none, 2, [1, 2, 0, 0, 0], 2), (none, some 1, 1, [1, 2, 0, 0, 0], 2),
     (none, none, 2, [1, 2, 0, 0, 0], 2), (key "id", none, 2, [1, 2, 0, 0, 0], 2), (key "id", none, 2, [1, 2, 2, 0, 0], 3),
     (key "amount", none, 2, [1, 2, 2, 0, 0], 3), (key "amount", none, 2, [1, 2, 2, 10, 0], 4),
     (none, some 2, 1, [1, 2, 2, 10, 0], 4), (key "customers", none, 0, [1, 2, 2, 10, 0], 4),
     (key "priority", none, 0, [1, 2, 2, 10, 0], 4), (key "priority", none, 0, [1, 2, 2, 10, 4], 5),
     (none, none, 0, [1, 2, 2, 10, 4], 5)] := by decide +kernel

-- test_pack_array_inside_array
example : (trace .pack [.arrayEnter, .arrayEnter, .pack .u8 2, .arrayLeave, .arrayEnter, .pack .u8 2, .arrayLeave, .arrayLeave]
      ⟨VmState.init (.list [.list [.int 1, .int 2], .list [.int 3, .int 4]]), [0, 0, 0, 0], 0⟩).map
      (fun l => l.map fun s => (s.2.2.1, s.2.2.2)) = .ok
    [(some 0, 0, [0, 0, 0, 0], 0), (some 0, 1, [0, 0, 0, 0], 0), (some 0, 1, [1, 2, 0, 0], 2), (some 1, 0, [1, 2, 0, 0], 2),
     (some 0, 1, [1, 2, 0, 0], 2), (some 0, 1, [1, 2, 3, 4], 4), (some 2, 0, [1, 2, 3, 4], 4), (none, 0, [1, 2, 3, 4], 4)] := by
  decide +kernel

/-! vm_state_test.py: unpacking -/

/-- A fresh unpack state with this data. -/
def fresh (data : Bytes) : Vm := ⟨VmState.init .null, data, 0⟩

-- test_record_enter, test_record_select, test_record_leave
example : (trace .unpack [.recordEnter, sel "name", .recordLeave] (fresh [])) = .ok
      [(.dict [], none, none, 0, [], 0), (.dict [], key "name", none, 0, [], 0), (.dict [], none, none, 0, [], 0)] ∧
    (trace .unpack [sel "name"] (fresh [])) = .error .runtimeError := by decide +kernel

-- test_unpack_u8, test_unpack_u8_array
example : (trace .unpack [get8, get8] (fresh [3, 15])) =
      .ok [(.int 3, none, none, 0, [3, 15], 1), (.int 15, none, none, 0, [3, 15], 2)] ∧
    (trace .unpack [.unpack .u8 5] (fresh [1, 3, 7, 15, 31])) =
      .ok [(.list [.int 1, .int 3, .int 7, .int 15, .int 31], none, none, 0, [1, 3, 7, 15, 31], 5)] := by decide +kernel

-- test_unpack_u8_from_record
example : (trace .unpack [.recordEnter, sel "a", get8, sel "b", get8] (fresh [255, 7])).map (fun l => l.getLast?) =
    .ok (some (two "a" 255 "b" 7, key "b", none, 0, [255, 7], 2)) := by decide +kernel

/-- One record of the tests of arrays of records. -/
def abUnpack : List Instr := [.recordEnter, sel "a", get8, sel "b", get8, .recordLeave]

-- test_unpack_array_of_records
example : ((trace .unpack (.arrayEnter :: (abUnpack ++ abUnpack ++ abUnpack ++ [.arrayLeave]))
      (fresh [255, 7, 29, 4, 0, 200])).map fun l => l.map fun s => (s.1, s.2.2.1, s.2.2.2.1, s.2.2.2.2.2)) = .ok
    [(.list [], some 0, 0, 0),
     (.dict [], none, 1, 0), (.dict [], none, 1, 0), (single "a" 255, none, 1, 1), (single "a" 255, none, 1, 1),
     (two "a" 255 "b" 7, none, 1, 2), (.list [two "a" 255 "b" 7], some 1, 0, 2),
     (.dict [], none, 1, 2), (.dict [], none, 1, 2), (single "a" 29, none, 1, 3), (single "a" 29, none, 1, 3),
     (two "a" 29 "b" 4, none, 1, 4), (.list [two "a" 255 "b" 7, two "a" 29 "b" 4], some 2, 0, 4),
     (.dict [], none, 1, 4), (.dict [], none, 1, 4), (single "a" 0, none, 1, 5), (single "a" 0, none, 1, 5),
     (two "a" 0 "b" 200, none, 1, 6), (.list abList, some 3, 0, 6),
     (.list abList, none, 0, 6)] := by decide +kernel

-- test_unpack_array_of_records_in_record
example : (trace .unpack [.recordEnter, sel "customers", .arrayEnter, .recordEnter, sel "id", get8, sel "amount", get8,
      .recordLeave, .recordEnter, sel "id", get8, sel "amount", get8, .recordLeave, .arrayLeave, sel "priority", get8,
      .recordLeave] (fresh [1, 2, 2, 10, 4])).map (fun l => (l.map fun s => (s.2.1, s.2.2.1, s.2.2.2.1, s.2.2.2.2.2),
        l.getLast?.map Prod.fst)) = .ok
    ([(none, none, 0, 0), (key "customers", none, 0, 0), (none, some 0, 1, 0),
     (none, none, 2, 0), (key "id", none, 2, 0), (key "id", none, 2, 1),
     (key "amount", none, 2, 1), (key "amount", none, 2, 2), (none, some 1, 1, 2),
     (none, none, 2, 2), (key "id", none, 2, 2), (key "id", none, 2, 3),
     (key "amount", none, 2, 3), (key "amount", none, 2, 4), (none, some 2, 1, 4), (none, none, 0, 4),
     (key "priority", none, 0, 4), (key "priority", none, 0, 5), (none, none, 0, 5)], some customers) := by decide +kernel

-- test_unpack_array_inside_array
example : (trace .unpack [.arrayEnter, .arrayEnter, .unpack .u8 2, .arrayLeave, .arrayEnter, .unpack .u8 2, .arrayLeave, .arrayLeave]
      (fresh [1, 2, 3, 4])).map (fun l => (l.map fun s => (s.2.2.1, s.2.2.2.1, s.2.2.2.2.2), [l[2]?, l[5]?, l[7]?].map (Option.map Prod.fst))) =
    .ok ([(some 0, 0, 0), (some 0, 1, 0), (some 0, 1, 2), (some 1, 0, 2), (some 0, 1, 2), (some 0, 1, 4), (some 2, 0, 4), (none, 0, 4)],
      [some (.list [.int 1, .int 2]), some (.list [.int 3, .int 4]),
       some (.list [.list [.int 1, .int 2], .list [.int 3, .int 4]])]) := by decide +kernel

-- test_unpack_s8_array, test_unpack_s16_array, test_unpack_s32
example : unpackArr .s8 4 [0x80, 0xFF, 0, 127] = .ok (.list [.int (-128), .int (-1), .int 0, .int 127], 4) ∧
    unpackArr .s16 4 [0, 0x80, 0xFF, 0xFF, 0, 0, 0xFF, 0x7F] =
      .ok (.list [.int (-32768), .int (-1), .int 0, .int 32767], 8) ∧
    unpackArr .s32 4 [0, 0, 0, 0x80, 0xFF, 0xFF, 0xFF, 0xFF, 0, 0, 0, 0, 0xFF, 0xFF, 0xFF, 0x7F] =
      .ok (.list [.int (-2147483648), .int (-1), .int 0, .int 2147483647], 16) := by decide +kernel

-- test_unpack_str
example : (trace .unpack [.unpackStr 6, .unpackStr 5, .unpackStr 3] (fresh (ascii "Hello" ++ [0] ++ ascii "World" ++ [0, 0, 0]))).map
    (fun l => l.map fun s => (s.1, s.2.2.2.2.2)) =
      .ok [(.str "Hello".toList, 6), (.str "World".toList, 11), (.str [], 14)] := by decide +kernel

-- test_unpack_str_in_record
example : (trace .unpack [.recordEnter, sel "Position", .unpack .u16 0, sel "Label", .unpackStr 10, sel "Index", get8, .recordLeave]
      (fresh ([14, 0] ++ ascii "Selection" ++ [0, 0]))).map (fun l => (l.map fun s => s.2.2.2.2.2, l.getLast?.map Prod.fst)) =
    .ok ([0, 0, 2, 2, 12, 12, 13, 13], some (.dict [("Position".toList, .int 14), ("Label".toList, .str "Selection".toList),
      ("Index".toList, .int 0)])) := by decide +kernel

end Apx.Conformance
