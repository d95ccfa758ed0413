import Verif.Model.Tester
import Verif.Model.Session
import Verif.Conformance.Prog

/-!
The unit tests of the repository, run on the model: node data, the client, the file manager with a node, the tester
(/repo/tests/node_data_test.py, client_test.py, file_manager_test.py, tester_test.py).

These are tests of the model, not proofs of properties. The thread of the file manager is run by `worker` on what is
in its queue.
-/

set_option synthInstance.maxSize 2000

namespace Apx.Conformance

/-! node_data_test.py -/

/-- The items of `create_node_and_data`. -/
def dataItems : List Item :=
  [.T "InactiveActive_T" "C(0,3)", .P "VehicleSpeed" "S" (some "=65535"), .P "MainBeam" "T[0]" (some "=3"),
   .P "TotalDistance" "L" (some "=0xFFFFFFFF"),
   .P "ComplexRecordSignal" "{\"SensorData\"{\"x\"S\"y\"S\"z\"S}\"TimeStamp\"L}" (some "={{65535,65535,65535},0xFFFFFFFF}"),
   .R "RheostatLevelRqst" "C" (some "=255"), .R "StrSignal" "a[8]" (some "=\"\""),
   .R "RecordSignal" "{\"Name\"a[8]\"Id\"L\"Data\"S[3]}" (some "={\"\",0xFFFFFFFF,{0,0,0}}")]

/-- `NodeData(node)` for a node with these items. -/
def dataOf (items : List Item) : Py NodeData := do
  let n ← nodeOf "TestNode" items
  n.nodeData

-- test_port_map_and_compiled_programs
example : (nodeOf "TestNode" dataItems).map (fun n => [n.find "VehicleSpeed".toList, n.find "RheostatLevelRqst".toList].map
      fun f => f.bind fun | .port _ p => p.id | .type _ => none) = .ok [some 0, some 0] ∧
    (dataOf dataItems).map (fun d => byteMap d.inRanges) =
      .ok (0 :: (List.replicate 8 1 ++ List.replicate 18 2)) ∧
    (dataOf dataItems).map NodeData.outRanges = .ok [⟨0, 2, 0⟩, ⟨2, 1, 1⟩, ⟨3, 4, 2⟩, ⟨7, 10, 3⟩] := by decide +kernel

example : (dataOf dataItems).map NodeData.outProgs =
      .ok [[1, 2, 0, 0, 0, 4], [1, 1, 0, 0, 0, 3], [1, 4, 0, 0, 0, 5],
        [1, 10, 0, 0, 0, 29, 30] ++ ascii "SensorData" ++ [0, 29, 30] ++ ascii "x" ++ [0, 4, 30] ++ ascii "y" ++
          [0, 4, 30] ++ ascii "z" ++ [0, 4, 31, 30] ++ ascii "TimeStamp" ++ [0, 5, 31]] ∧
    (dataOf dataItems).map NodeData.inProgs =
      .ok [[2, 1, 0, 0, 0, 16], [2, 8, 0, 0, 0, 22, 8, 0],
        [2, 18, 0, 0, 0, 29, 30] ++ ascii "Name" ++ [0, 22, 8, 0, 30] ++ ascii "Id" ++ [0, 18, 30] ++ ascii "Data" ++
          [0, 24, 3, 0, 31]] := by decide +kernel

/-- Read require port `i`, then write to the input file and read the port again, for all writes. -/
def reads (i : Nat) (ws : List (Nat × Bytes)) : Py (List (Outcome PyVal)) := do
  let d ← dataOf dataItems
  let (_, l) := ws.foldl (fun (s : NodeData × List (Outcome PyVal)) w =>
    let d := (s.1.remoteWrite false w.1 w.2 false).1
    let (d, v) := d.readRequire i
    (d, s.2 ++ [v])) (d, [(d.readRequire i).2])
  .ok l

-- test_read_port_RheostatLevelRqst, test_read_port_StrSignal
example : reads 0 [(0, [0]), (0, [10]), (0, [255])] = .ok ([255, 0, 10, 255].map fun i => .ok (.int i)) ∧
    reads 1 [(1, ascii "Hello" ++ [0, 0, 0]), (1, ascii "Selected"), (1, ascii "a" ++ [0, 0, 0, 0, 0, 0]),
      (1, List.replicate 8 0)] = .ok (["", "Hello", "Selected", "a", ""].map fun s => .ok (.str s.toList)) := by
  decide +kernel

/-- A value of the port RecordSignal. -/
def recordVal (name : String) (i : Int) (data : List Int) : PyVal :=
  .dict [("Name".toList, .str name.toList), ("Id".toList, .int i), ("Data".toList, .list (data.map .int))]

-- test_read_RecordSignal
example : reads 2 [(9, ascii "abcdefgh"), (17, leBytes 4 0x12345678), (21, [0, 0, 0, 0, 1, 0]),
      (21, leBytes 2 18000 ++ leBytes 2 2 ++ leBytes 2 10)] =
    .ok [.ok (recordVal "" 0xFFFFFFFF [0, 0, 0]), .ok (recordVal "abcdefgh" 0xFFFFFFFF [0, 0, 0]),
      .ok (recordVal "abcdefgh" 0x12345678 [0, 0, 0]), .ok (recordVal "abcdefgh" 0x12345678 [0, 0, 1]),
      .ok (recordVal "abcdefgh" 0x12345678 [18000, 2, 10])] := by decide +kernel

/-- `list(node_data.byte_to_port(start, len))`. -/
def toPorts (start len : Nat) : Py (List PortRange) := do
  let d ← dataOf dataItems
  d.byteToPort start len

-- test_byte_to_port_all, test_byte_to_port_RheostatLevelRqst, ..._StrSignal, ..._RecordSignal, ..._invalid_args
example : toPorts 0 27 = .ok [⟨0, 1, 0⟩, ⟨1, 8, 1⟩, ⟨9, 18, 2⟩] ∧ toPorts 0 1 = .ok [⟨0, 1, 0⟩] ∧
    ((List.range 8).map fun k => toPorts (1 + k) 1) = List.replicate 8 (.ok [⟨1, 8, 1⟩]) ∧
    ((List.range 18).map fun k => toPorts (9 + k) 1) = List.replicate 18 (.ok [⟨9, 18, 2⟩]) ∧
    [toPorts 28 1, toPorts 25 5] = [.error .valueError, .error .valueError] ∧
    toPorts 25 2 = .ok [⟨9, 18, 2⟩] := by decide +kernel

/-- The calls of `on_require_port_data` after each write to the input file. -/
def callsOf (ws : List (Nat × Bytes)) : Py (List (List (Nat × PyVal))) := do
  let d ← dataOf dataItems
  .ok (ws.foldl (fun (s : NodeData × List (List (Nat × PyVal))) w =>
    let r := s.1.remoteWrite true w.1 w.2 false
    (r.1, s.2 ++ [r.2.1])) (d, [])).2

-- test_callback
example : callsOf [(0, [0]), (0, [255]), (9, ascii "Test"),
      (9, ascii "Abc" ++ [0, 0, 0, 0, 0] ++ leBytes 4 918 ++ leBytes 2 1000 ++ leBytes 2 2000 ++ leBytes 2 4000)] =
    .ok [[(0, .int 0)], [(0, .int 255)], [(2, recordVal "Test" 0xFFFFFFFF [0, 0, 0])],
      [(2, recordVal "Abc" 918 [1000, 2000, 4000])]] := by decide +kernel

/-- The bytes of provide port `i` in the output file: at first and after each value written. -/
def writes (items : List Item) (i off len : Nat) (vs : List PyVal) : Py (List (Option Bytes)) := do
  let d ← dataOf items
  let look (d : NodeData) : Option Bytes := d.outFile.bind fun f => f.read off len
  .ok (vs.foldl (fun (s : NodeData × List (Option Bytes)) v =>
    let d := (s.1.writeProvide i v).1
    (d, s.2 ++ [look d])) (d, [look d])).2

-- test_write_VehicleSpeed, test_write_MainBeam, test_write_TotalDistance, test_write_ComplexRecordSignal
example : writes dataItems 0 0 2 [.int 0x1234] = .ok [some [255, 255], some [0x34, 0x12]] ∧
    writes dataItems 1 2 1 [.int 0, .int 3] = .ok [some [3], some [0], some [3]] ∧
    writes dataItems 2 3 4 [.int 0, .int 0x12345678] =
      .ok [some [255, 255, 255, 255], some [0, 0, 0, 0], some [0x78, 0x56, 0x34, 0x12]] ∧
    writes dataItems 3 7 10 [.dict [("SensorData".toList, .dict [("x".toList, .int 1), ("y".toList, .int 2), ("z".toList, .int 3)]),
        ("TimeStamp".toList, .int 0)]] =
      .ok [some (List.replicate 10 255), some [1, 0, 2, 0, 3, 0, 0, 0, 0, 0]] := by decide +kernel

-- test_write_string, test_write_s8, test_write_s16, test_write_s32
example : writes [.P "StrSignal" "a[6]" (some "=\"\"")] 0 0 6 [.str "Hello".toList, .str "Abc".toList, .str []] =
      .ok [some [0, 0, 0, 0, 0, 0], some (ascii "Hello" ++ [0]), some (ascii "Abc" ++ [0, 0, 0]), some [0, 0, 0, 0, 0, 0]] ∧
    writes [.P "S8Signal" "c" (some "=0")] 0 0 1 [.int (-1), .int (-128), .int 127, .int 0] =
      .ok [some [0], some [255], some [128], some [127], some [0]] ∧
    writes [.P "S16Signal" "s" (some "=0")] 0 0 2 [.int (-1), .int (-32768), .int 32767, .int 0] =
      .ok [some [0, 0], some [255, 255], some [0, 128], some [255, 127], some [0, 0]] ∧
    writes [.P "S32Signal" "l" (some "=0")] 0 0 4 [.int (-1), .int (-2147483648), .int 2147483647, .int 0] =
      .ok [some [0, 0, 0, 0], some [255, 255, 255, 255], some [0, 0, 0, 128], some [255, 255, 255, 127], some [0, 0, 0, 0]] := by
  decide +kernel

/-! client_test.py -/

/-- `client.create_node(text)`. -/
def clientOf (text : String) : Py Client := do
  let n ← parsed text
  Client.attach n

/-- The content of the output file of a client. -/
def outBytes (c : Client) : Option Bytes := c.attached.bind fun a => a.2.outFile.map FileData.data

-- test_create_provide_ports
example : (do
    let c ← clientOf "APX/1.2\nN\"TestNode\"\nT\"VehicleSpeed_T\"S\nT\"EngineSpeed_T\"S\nP\"VehicleSpeed\"T[0]\nP\"EngineSpeed\"T[1]\n"
    let (c, a) := c.write (.index 0) (.int 0x1234)
    let (d, b) := c.write (.name "EngineSpeed".toList) (.int 0xFFFF)
    .ok ((a, outBytes c), (b, outBytes d))) =
    (.ok ((.ok (), some [0x34, 0x12, 0, 0]), (.ok (), some [0x34, 0x12, 0xFF, 0xFF])) : Py _) := by decide +kernel

/-- The text of test_create_require_ports. -/
def clientText : String := "APX/1.2
N\"TestNode\"
T\"VehicleSpeed_T\"S
T\"EngineSpeed_T\"S
T\"InactiveActive_T\"C(0,3):VT(\"InactiveActive_Inactive\",\"InactiveActive_Active\",\"InactiveActive_Error\",\"InactiveActive_NotAvailable\")
R\"VehicleSpeed\"T[0]:=0xFFFF
R\"EngineSpeed\"T[1]:=0xFFFF
R\"ParkBrakeState\"T[\"InactiveActive_T\"]:=3
"

/-- What `read` returns, if it is an integer. -/
def readInt (c : Client) (d : Designator) : Option Int :=
  match (c.read d).2 with
  | .ok (some (.val (.int i))) => some i
  | _ => none

/-- The reads of test_create_require_ports. -/
def clientReads (c : Client) : List (Option Int) :=
  match c.attached with
  | none => []
  | some (n, d) =>
    let written : Client := ⟨some (n, (d.remoteWrite true 0 [0x34, 0x12] false).1)⟩
    [readInt c (.index 0), readInt c (.port ⟨.require, some 2, some 2⟩), readInt written (.index 0)]

-- test_create_require_ports
example : (parsed clientText).map (fun n => (n.find "ParkBrakeState".toList).bind fun
      | .port .require p => p.id
      | _ => none) = .ok (some 2) ∧
    (clientOf clientText).map clientReads = .ok [some 0xFFFF, some 3, some 0x1234] := by decide +kernel

/-! file_manager_test.py -/

/-- The node of test_fileManagerWithNode, to which the type is added without `add_type`. -/
def managerNode : Py Node := do
  let t ← mkType "InactiveActive_T".toList "C(0,3)".toList none
  [Item.P "VehicleSpeed" "S" (some "=65535"), Item.P "MainBeam" "T[0]" (some "=3"), Item.P "FuelLevel" "C" none,
    Item.P "ParkBrakeActive" "T[0]" (some "=3"), Item.R "RheostatLevelRqst" "C" (some "=255")].foldlM Item.append
    { Node.new "Simulator".toList with types := [t] }

-- test_fileManagerWithNode
example : (do
    let n ← managerNode
    let e : Endpoint Unit ← Endpoint.ofNode n
    let (m, _) := Manager.onConnected e.mgr ()
    let (sent, x) := Manager.worker none m.queue
    .ok (e.mgr.localMap.ids.length, e.mgr.requested.length, (sent.map fun f => f.2.length).foldr (· + ·) 0, x)) =
    (.ok (2, 1, 4 + 63 * 2, none) : Py _) := by decide +kernel

/-! tester_test.py -/

-- test_ramp
example : (do
    let c ← clientOf "APX/1.2\nN\"Tester\"\nT\"VehicleSpeed_T\"S\nT\"EngineSpeed_T\"S\nP\"VehicleSpeed\"T[\"VehicleSpeed_T\"]:=65535\nP\"EngineSpeed\"T[\"EngineSpeed_T\"]:=65535\n"
    let (c, _) := c.write (.name "VehicleSpeed".toList) (.int 0)
    let (c, vs, x) := c.ramp .exact (.name "VehicleSpeed".toList) 65535 100 20
    .ok (vs, x, readInt c (.name "VehicleSpeed".toList))) =
    (.ok ([13107, 26214, 39321, 52428, 65535], .ok (), some 65535) : Py _) := by decide +kernel

end Apx.Conformance
