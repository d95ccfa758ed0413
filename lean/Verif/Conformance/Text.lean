import Verif.Model.Signature
import Verif.Model.InitValue
import Verif.Model.PortAttr
import Verif.Model.Generator
import Verif.Model.Parser
import Verif.Model.Context
import Verif.Model.Import

/-!
The unit tests of the repository, run on the model: signatures, data types, attributes, init values, nodes, the
parser and contexts (/repo/tests/datasignature_test.py, data_element_test.py, data_type_test.py,
port_attribute_test.py, port_init_value_test.py, node_test.py, parser_test.py, context_test.py).

These are tests of the model, not proofs of properties. Checks of Python types and of the text of messages are
left out.
-/

namespace Apx.Conformance

/-! datasignature_test.py, class TestDataSignatureParsing -/

/-- `DataSignature.parseDataSignature(text)`. -/
def sig (s : String) : Py (Option Elem × Str) := parseSig s.toList

/-- The parse of a whole text as the element `e`. -/
def whole (e : Elem) : Py (Option Elem × Str) := .ok (some e, [])

-- test_uint8, test_uint8_array
example : sig "C" = whole (.prim .u8 none none none) ∧ sig "C(0,1)" = whole (.prim .u8 (some 0) (some 1) none) ∧
    sig "C(0,255)" = whole (.prim .u8 (some 0) (some 255) none) ∧ sig "C[8]" = whole (.prim .u8 none none (some 8)) ∧
    sig "C(0,1)[4]" = whole (.prim .u8 (some 0) (some 1) (some 4)) ∧
    sig "C(0,255)[10]" = whole (.prim .u8 (some 0) (some 255) (some 10)) := by decide +kernel

-- test_uint8_errors
example : sig "C[8" = .error .parseError ∧ sig "C(0,1" = .error .parseError ∧ sig "C(0,1)[8" = .error .parseError := by
  decide +kernel

-- test_uint16, test_uint16_array
example : sig "S" = whole (.prim .u16 none none none) ∧ sig "S(0,400)" = whole (.prim .u16 (some 0) (some 400) none) ∧
    sig "S(0,65535)" = whole (.prim .u16 (some 0) (some 65535) none) ∧ sig "S[8]" = whole (.prim .u16 none none (some 8)) ∧
    sig "S(0,400)[4]" = whole (.prim .u16 (some 0) (some 400) (some 4)) ∧
    sig "S(0,65535)[10]" = whole (.prim .u16 (some 0) (some 65535) (some 10)) := by decide +kernel

-- test_uint32, test_uint32_array
example : sig "L" = whole (.prim .u32 none none none) ∧
    sig "L(0,100000)" = whole (.prim .u32 (some 0) (some 100000) none) ∧
    sig "L(0,4294967295)" = whole (.prim .u32 (some 0) (some 4294967295) none) ∧
    sig "L[8]" = whole (.prim .u32 none none (some 8)) ∧
    sig "L(0,1000000)[4]" = whole (.prim .u32 (some 0) (some 1000000) (some 4)) ∧
    sig "L(0,4294967295)[10]" = whole (.prim .u32 (some 0) (some 4294967295) (some 10)) := by decide +kernel

-- test_record_simple
example : sig "{\"Hours\"C\"Minutes\"C\"Seconds\"C}" = whole (.record
      (.cons (some "Hours".toList) (.prim .u8 none none none) (.cons (some "Minutes".toList) (.prim .u8 none none none)
        (.cons (some "Seconds".toList) (.prim .u8 none none none) .nil))) none) ∧
    sig "{\"Hours\"C(0,23)\"Minutes\"C(0,59)\"Seconds\"C(0,59)}" = whole (.record
      (.cons (some "Hours".toList) (.prim .u8 (some 0) (some 23) none)
        (.cons (some "Minutes".toList) (.prim .u8 (some 0) (some 59) none)
          (.cons (some "Seconds".toList) (.prim .u8 (some 0) (some 59) none) .nil))) none) := by decide +kernel

/-- `DataSignature(text, typeList)`: the element afterwards. -/
def sigIn (types : List (String × String)) (s : String) : Py Elem := do
  let ts ← types.mapM fun t => do
    let e ← dataSignature t.2.toList
    Except.ok (ε := PyErr) (NamedType.mk t.1.toList e)
  let e ← dataSignature s.toList
  e.resolveType ts

-- test_typeRef
example : sigIn [("TestType_T", "S(0,10000)")] "T[0]" =
      .ok (.refType "TestType_T".toList (.prim .u16 (some 0) (some 10000) none)) ∧
    sigIn [("TestType_T", "S(0,10000)")] "T[\"TestType_T\"]" =
      .ok (.refType "TestType_T".toList (.prim .u16 (some 0) (some 10000) none)) := by decide +kernel

/-! datasignature_test.py, class TestDataSignatureInitValues, and port_init_value_test.py -/

/-- `DataSignature(text, typeList).createInitData(PortAttribute(attribute).initValue)`; `none` if there is no init
value. -/
def initData (types : List (String × String)) (s a : String) : Py (Option Bytes) := do
  let e ← sigIn types s
  let a ← portAttribute a.toList
  match a.initValue with
  | none => .ok none
  | some v => do
    let b ← e.createInitData v
    .ok (some b)

-- test_create_init_data_u8, test_create_init_data_u16, test_create_init_data_u32
example : initData [] "C" "=0" = .ok (some [0]) ∧ initData [] "C" "=0x12" = .ok (some [0x12]) ∧
    initData [] "C" "=255" = .ok (some [0xFF]) ∧ initData [] "C" "=0xFF" = .ok (some [0xFF]) ∧
    initData [] "S" "=0" = .ok (some [0, 0]) ∧ initData [] "S" "=0x1234" = .ok (some [0x34, 0x12]) ∧
    initData [] "S" "=65535" = .ok (some [0xFF, 0xFF]) ∧ initData [] "L" "=0" = .ok (some [0, 0, 0, 0]) ∧
    initData [] "L" "=0x12345678" = .ok (some [0x78, 0x56, 0x34, 0x12]) ∧
    initData [] "L" "=0xFFFFFFFF" = .ok (some [0xFF, 0xFF, 0xFF, 0xFF]) := by decide +kernel

-- test_create_init_data_record
example : initData [] "{\"first\"C\"second\"S\"third\"L}" "={0,0,0}" = .ok (some [0, 0, 0, 0, 0, 0, 0]) ∧
    initData [] "{\"first\"C\"second\"S\"third\"L}" "={0x11,0x22,0x33}" = .ok (some [0x11, 0x22, 0, 0x33, 0, 0, 0]) ∧
    initData [] "{\"first\"C\"second\"S\"third\"L}" "={0x01,0x1234,0x5678}" =
      .ok (some [0x01, 0x34, 0x12, 0x78, 0x56, 0, 0]) ∧
    initData [] "{\"first\"C\"second\"S\"third\"L}" "={0xFF,0xFFFF,0xFFFFFFFF}" =
      .ok (some [0xFF, 0xFF, 0xFF, 0xFF, 0xFF, 0xFF, 0xFF]) := by decide +kernel

-- test_create_init_data_string
example : initData [] "a[6]" "=\"\"" = .ok (some [0, 0, 0, 0, 0, 0]) ∧
    initData [] "a[6]" "=\"Hello\"" = .ok (some [72, 101, 108, 108, 111, 0]) ∧
    initData [] "a[6]" "=\"HelloWorld\"" = .ok (some [72, 101, 108, 108, 111, 87]) ∧
    initData [] "a[6]" "=\"AaA\"" = .ok (some [65, 97, 65, 0, 0, 0]) := by decide +kernel

-- test_create_init_data_arrayU8
example : initData [] "C[2]" "={1,2}" = .ok (some [1, 2]) ∧ initData [] "C[2]" "={0,0}" = .ok (some [0, 0]) ∧
    initData [] "C[2]" "={0xFF, 0xFF}" = .ok (some [0xFF, 0xFF]) := by decide +kernel

-- test_create_init_data_arrayU16
example : initData [] "S[3]" "={0x100,0x1234,0x60}" = .ok (some [0x00, 0x01, 0x34, 0x12, 0x60, 0x00]) ∧
    initData [] "S[3]" "={0,0,0}" = .ok (some [0, 0, 0, 0, 0, 0]) ∧
    initData [] "S[3]" "={0xFFFF, 0xFFFF, 0xFFFF}" = .ok (some [0xFF, 0xFF, 0xFF, 0xFF, 0xFF, 0xFF]) := by decide +kernel

-- test_create_init_data_arrayU32
example : initData [] "L[2]" "={0x12345678, 0x630001}" = .ok (some [0x78, 0x56, 0x34, 0x12, 0x01, 0x00, 0x63, 0x00]) ∧
    initData [] "L[2]" "={0,0}" = .ok (some [0, 0, 0, 0, 0, 0, 0, 0]) ∧
    initData [] "L[2]" "={0xFFFFFFFF, 0xFFFFFFFF}" =
      .ok (some [0xFF, 0xFF, 0xFF, 0xFF, 0xFF, 0xFF, 0xFF, 0xFF]) := by decide +kernel

-- test_create_init_data_reference
example : initData [("TestType1", "S[2]")] "T[0]" "={0x1234,0x5678}" = .ok (some [0x34, 0x12, 0x78, 0x56]) := by
  decide +kernel

-- port_init_value_test.py, test_record_init_value
example : initData [] "{\"x\"S\"y\"S\"z\"S}" "={3, 5, 8}" = .ok (some [3, 0, 5, 0, 8, 0]) ∧
    initData [] "{\"SensorData\"{\"x\"S\"y\"S\"z\"S}\"TimeStamp\"L}" "={{3, 5, 8},0xFFFFFFFF}" =
      .ok (some [3, 0, 5, 0, 8, 0, 0xFF, 0xFF, 0xFF, 0xFF]) ∧
    initData [] "{\"name\"a[6]\"Rectangle\"{\"x\"L\"y\"L\"width\"L\"height\"L}}" "={\"\",{0,0,0,0}}" =
      .ok (some (List.replicate 22 0)) := by decide +kernel

/-! datasignature_test.py, class test_elem_size -/

/-- `DataSignature(text, typeList).packLen()` and `.isComplexType()`. -/
def size (types : List (String × String)) (s : String) : Py Nat := do
  let e ← sigIn types s
  e.packLen
/-- See `size`. -/
def complex (types : List (String × String)) (s : String) : Py Bool := do
  let e ← sigIn types s
  e.isComplexType

example : size [] "C" = .ok 1 ∧ size [] "S" = .ok 2 ∧ size [] "L" = .ok 4 ∧ size [] "C[8]" = .ok 8 ∧
    size [] "S[16]" = .ok 32 ∧ size [] "L[32]" = .ok 128 ∧ size [] "c" = .ok 1 ∧ size [] "s" = .ok 2 ∧
    size [] "l" = .ok 4 ∧ size [] "c[8]" = .ok 8 ∧ size [] "s[16]" = .ok 32 ∧ size [] "l[32]" = .ok 128 ∧
    size [] "a[21]" = .ok 21 ∧ size [] "{\"TrackTitle\"a[40]\"TrackLength\"L}" = .ok 44 := by decide +kernel

/-- The types of test_reference. -/
def sizeTypes : List (String × String) :=
  [("TestType1", "C[8]"), ("TestType2", "a[18]"), ("TestType3", "{\"Name\"a[16]\"ID\"L}"), ("TestType3", "C"),
   ("TestType4", "S"), ("TestType5", "L")]

-- test_reference
example : size sizeTypes "T[0]" = .ok 8 ∧ complex sizeTypes "T[0]" = .ok true ∧
    size sizeTypes "T[1]" = .ok 18 ∧ complex sizeTypes "T[1]" = .ok true ∧
    size sizeTypes "T[2]" = .ok 20 ∧ complex sizeTypes "T[2]" = .ok true ∧
    size sizeTypes "T[3]" = .ok 1 ∧ complex sizeTypes "T[3]" = .ok false ∧
    size sizeTypes "T[4]" = .ok 2 ∧ complex sizeTypes "T[4]" = .ok false ∧
    size sizeTypes "T[5]" = .ok 4 ∧ complex sizeTypes "T[5]" = .ok false := by decide +kernel

/-! data_type_test.py -/

/-- `str(DataType(name, text))`. -/
def typeStr (name s : String) : Py Str := do
  let t ← mkType name.toList s.toList none
  t.toStr (fun _ => none) false

example : typeStr "MyU8_T" "C" = .ok "T\"MyU8_T\"C".toList ∧ typeStr "MyU8_T" "C(0,3)" = .ok "T\"MyU8_T\"C(0,3)".toList ∧
    typeStr "MyU8_T" "C[8]" = .ok "T\"MyU8_T\"C[8]".toList ∧ typeStr "MyU16_T" "S" = .ok "T\"MyU16_T\"S".toList ∧
    typeStr "MyU32_T" "L" = .ok "T\"MyU32_T\"L".toList ∧
    typeStr "MyRef_T" "T[\"MyU8_T\"]" = .ok "T\"MyRef_T\"T[\"MyU8_T\"]".toList ∧
    typeStr "MyRecord_T" "{\"Name\"a[8]\"Id\"L\"Data\"S[3]}" =
      .ok "T\"MyRecord_T\"{\"Name\"a[8]\"Id\"L\"Data\"S[3]}".toList := by decide +kernel

-- test_create_ref_type
example : sig "T[\"MyU8_T\"]" = whole (.refName "MyU8_T".toList) := by decide +kernel

/-! port_attribute_test.py -/

mutual
/-- Equality of init values. -/
def sameInit : InitVal → InitVal → Bool
  | .int i, .int j => i == j
  | .str s, .str t => s == t
  | .list l, .list m => sameInits l m
  | .missing, .missing => true
  | _, _ => false
/-- Equality of lists of init values. -/
def sameInits : List InitVal → List InitVal → Bool
  | [], [] => true
  | a :: l, b :: m => sameInit a b && sameInits l m
  | _, _ => false
end

/-- The attribute has the init value `v` and is neither queued nor a parameter. -/
def attrIs (s : String) (v : InitVal) : Bool :=
  match portAttribute s.toList with
  | .ok a => !a.isQueued && !a.isParameter && (match a.initValue with | some w => sameInit v w | none => false)
  | .error _ => false

-- test_integer_init_value
example : attrIs "=0" (.int 0) ∧ attrIs "=255" (.int 255) ∧ attrIs "={3,3,7}" (.list [.int 3, .int 3, .int 7]) := by
  decide +kernel

-- test_string_init_value
example : attrIs "=\"InitValue\"" (.str "InitValue".toList) ∧ attrIs "=\"\"" (.str []) ∧
    attrIs "={\"a\",\"b\",\"\", \"c\"}" (.list [.str ['a'], .str ['b'], .str [], .str ['c']]) := by decide +kernel

-- test_record_init_value
example : attrIs "={1,2,3}" (.list [.int 1, .int 2, .int 3]) ∧
    attrIs "={{255,255,255},15}" (.list [.list [.int 255, .int 255, .int 255], .int 15]) := by decide +kernel

/-! parser_test.py -/

/-- `Parser().loads(text)`. -/
def parsed (s : String) : Py Node := (Parser.new.loads s.toList).2

/-- Names and elements of the ports of a side. -/
def portsOf (side : Side) (n : Node) : List (String × Elem × Option Nat) :=
  (n.ports side).map fun p => (String.ofList p.name, p.elem, p.id)

/-- The text of test_parse_node. -/
def parseText1 : String :=
"APX/1.2
N\"TestSWC\"
T\"Percent_T\"C
T\"CoolantTemp_T\"C
T\"InactiveActive_T\"C(0,3):VT(\"InactiveActive_Inactive\",\"InactiveActive_Active\",\"InactiveActive_Error\",\"InactiveActive_NotAvailable\")
T\"OnOff_T\"C(0,3):VT(\"OnOff_Off\",\"OnOff_On\",\"OnOff_Error\",\"OnOff_NotAvailable\")
T\"EngineSpeed_T\"S
T\"VehicleSpeed_T\"S
R\"FuelLevel\"T[0]:=255
R\"CoolantTemp\"T[1]:=255
R\"ParkBrakeState\"T[2]:=3
R\"MainBeamState\"T[3]:=3
P\"EngineSpeed\"T[4]:=0xFFFF
P\"VehicleSpeed\"T[5]:=0xFFFF
"

-- test_parse_node
example : ((parsed parseText1).toOption.map fun n => (n.name, n.types.length)) = some ("TestSWC".toList, 6) ∧
    ((parsed parseText1).toOption.map (portsOf .require)) = some
      [("FuelLevel", .refType "Percent_T".toList (.prim .u8 none none none), some 0),
       ("CoolantTemp", .refType "CoolantTemp_T".toList (.prim .u8 none none none), some 1),
       ("ParkBrakeState", .refType "InactiveActive_T".toList (.prim .u8 (some 0) (some 3) none), some 2),
       ("MainBeamState", .refType "OnOff_T".toList (.prim .u8 (some 0) (some 3) none), some 3)] ∧
    ((parsed parseText1).toOption.map (portsOf .provide)) = some
      [("EngineSpeed", .refType "EngineSpeed_T".toList (.prim .u16 none none none), some 0),
       ("VehicleSpeed", .refType "VehicleSpeed_T".toList (.prim .u16 none none none), some 1)] := by decide +kernel

-- test_parse_node2
example : ((parsed
"APX/1.2
N\"TestNode\"
T\"VehicleSpeed_T\"S
T\"EngineSpeed_T\"S
T\"InactiveActive_T\"C(0,3):VT(\"InactiveActive_Inactive\",\"InactiveActive_Active\",\"InactiveActive_Error\",\"InactiveActive_NotAvailable\")
R\"VehicleSpeed\"T[0]:=0xFFFF
R\"EngineSpeed\"T[1]:=0xFFFF
R\"ParkBrakeState\"T[\"InactiveActive_T\"]:=3
").toOption.map fun n => n.name) = some "TestNode".toList := by decide +kernel

-- test_parse_comments
example : ((parsed
"APX/1.2
N\"TestNode\"
T\"VehicleSpeed_T\"S
T\"EngineSpeed_T\"S
T\"InactiveActive_T\"C(0,3):VT(\"InactiveActive_Inactive\",\"InactiveActive_Active\",\"InactiveActive_Error\",\"InactiveActive_NotAvailable\")
#Line Comment1
#Line Comment2
R\"VehicleSpeed\"T[0]:=0xFFFF #A Comment
R\"EngineSpeed\"T[1]:=0xFFFF
R\"ParkBrakeState\"T[\"InactiveActive_T\"]:=3 
").toOption.map fun n => (n.name, match n.find "ParkBrakeState".toList with
    | some (.port .require p) => some p.name
    | _ => none)) = some ("TestNode".toList, some "ParkBrakeState".toList) := by decide +kernel

-- test_missing_end_brace
example : (mkPort "TestPort1".toList "{\"name\"a[6]\"Rectangle\"{\"x\"L\"y\"L\"width\"L\"height\"L}".toList
    (some "={\"\",{0,0,0,0}}".toList)).toOption.isNone ∧
    sig "{\"name\"a[6]\"Rectangle\"{\"x\"L\"y\"L\"width\"L\"height\"L}" = .error .parseError := by decide +kernel

/-! node_test.py -/

/-- A type or a port to be appended. -/
inductive Item
  | T (name sig : String)
  | R (name sig : String) (attr : Option String)
  | P (name sig : String) (attr : Option String)

/-- `node.append(...)`. -/
def Item.append (n : Node) : Item → Py Node
  | .T name s => do
    let t ← mkType name.toList s.toList none
    let (n, _) ← n.addType t
    .ok n
  | .R name s a => do
    let p ← mkPort name.toList s.toList (a.map String.toList)
    let (n, _) ← n.addPort .require p
    .ok n
  | .P name s a => do
    let p ← mkPort name.toList s.toList (a.map String.toList)
    let (n, _) ← n.addPort .provide p
    .ok n

/-- `Node(name)` with these items appended. -/
def nodeOf (name : String) (l : List Item) : Py Node := l.foldlM Item.append (Node.new name.toList)

-- test_raw_ports_1
example : ((nodeOf "TestNode" [.R "U8Signal" "C" (some "=255")]).toOption.map fun n => n.requires.map Port.elem) =
    some [.prim .u8 none none none] := by decide +kernel

/-- The items of test_raw_ports_2. -/
def rawItems : List Item :=
  [.T "InactiveActive_T" "C(0,3)", .P "VehicleSpeed" "S" (some "=65535"), .P "MainBeam" "T[0]" (some "=3"),
   .P "FuelLevel" "C" none, .P "ParkBrakeActive" "T[0]" (some "=3"), .R "RheostatLevelRqst" "C" (some "=255")]

-- test_raw_ports_2
example : (do
    let n ← nodeOf "TestSWC" (rawItems ++ [Item.R "StrSignal" "a[4]" (some "=\"\""),
      Item.R "RecordSignal" "{\"Name\"a[8]\"Id\"L\"Data\"S[3]}" (some "={\"\",0xFFFFFFFF,{0,0,0}}")])
    let n ← n.finalize false false
    n.lines false) =
    .ok (List.map String.toList ["N\"TestSWC\"", "T\"InactiveActive_T\"C(0,3)", "P\"VehicleSpeed\"S:=65535",
      "P\"MainBeam\"T[0]:=3", "P\"FuelLevel\"C", "P\"ParkBrakeActive\"T[0]:=3", "R\"RheostatLevelRqst\"C:=255",
      "R\"StrSignal\"a[4]:=\"\"",
      "R\"RecordSignal\"{\"Name\"a[8]\"Id\"L\"Data\"S[3]}:={\"\",0xFFFFFFFF,{0,0,0}}"]) := by decide +kernel

/-- The text of test_create_node_from_string. -/
def soundText : String :=
"APX/1.2
N\"TestNode1\"
T\"Repetitions_T\"C
T\"SoundId_T\"S
T\"Volume_T\"C
T\"SoundRequest_T\"{\"SoundId\"T[\"SoundId_T\"]\"Volume\"T[\"Volume_T\"]\"Repetitions\"T[\"Repetitions_T\"]}
P\"SoundRequest\"T[\"SoundRequest_T\"]:={65535,255,255}
"

-- test_create_node_from_string
example : ((parsed soundText).toOption.map fun n => n.provides.map Port.elem) = some [.refType "SoundRequest_T".toList
    (.record (.cons (some "SoundId".toList) (.refType "SoundId_T".toList (.prim .u16 none none none))
      (.cons (some "Volume".toList) (.refType "Volume_T".toList (.prim .u8 none none none))
        (.cons (some "Repetitions".toList) (.refType "Repetitions_T".toList (.prim .u8 none none none)) .nil))) none)] := by
  decide +kernel

-- test_copy_data_type_between_nodes_when_type_is_record_with_references
example : (do
    let n ← parsed soundText
    match n.find "SoundRequest_T".toList with
    | some (.type t) => do
      let r ← ((Node.new "MyCopy".toList).addTypeFrom n t.name t.elem).2
      .ok r.name
    | _ => .error .keyError) = .ok "SoundRequest_T".toList := by decide +kernel

-- test_copy_ports_between_nodes
example : (do
    let n ← parsed soundText
    let n ← n.finalize false false
    match n.find "SoundRequest".toList with
    | some (.port side p) => do
      let (m, r) := (Node.new "MyCopy".toList).addPortFrom n side p true
      let _ ← r
      let m ← m.finalize true false
      contextDumps [m] false
    | _ => .error .keyError) = .ok (String.toList
"APX/1.2
N\"MyCopy\"
T\"Repetitions_T\"C
T\"SoundId_T\"S
T\"SoundRequest_T\"{\"SoundId\"T[1]\"Volume\"T[3]\"Repetitions\"T[0]}
T\"Volume_T\"C
P\"SoundRequest\"T[2]:={65535,255,255}
") := by decide +kernel

/-! context_test.py; the tests append to `dataTypes` and the port lists of the node and call `finalize`. -/

-- test_dumps_from_raw
example : (do
    let n ← nodeOf "Simulator" rawItems
    let n ← n.finalize false false
    contextDumps [n] false) = .ok (String.toList
"APX/1.2
N\"Simulator\"
T\"InactiveActive_T\"C(0,3)
P\"VehicleSpeed\"S:=65535
P\"MainBeam\"T[0]:=3
P\"FuelLevel\"C
P\"ParkBrakeActive\"T[0]:=3
R\"RheostatLevelRqst\"C:=255
") := by decide +kernel

-- test_load_dumped_apx_text
example : (do
    let n ← nodeOf "Simulator" rawItems
    let n ← n.finalize false false
    let s ← contextDumps [n] false
    let m ← (Parser.new.loads s).2
    match m.provides.head? with
    | some p => p.elem.isComplexType
    | none => .error .indexError) = .ok false := by decide +kernel

end Apx.Conformance
