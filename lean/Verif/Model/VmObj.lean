import Verif.Spec.NodeData

/-!
`VM` objects: the attributes of apx/vm.py and how the methods use them.

`Verif.Model.Vm` describes one run of a program on a machine of its own. `NodeData` keeps one machine
and uses it for everything; here the machine is an object with a history.

Simplification: when an instruction raises an exception the attributes it leaves behind are not
computed. They are given with the call (`left`), and the theorems are about all of them.
-/

namespace Apx

/-- A `VM` object: `data`, `data_offset`, `prog_type` (`none`: `NO_PROG`), `state` with its class, and
`first_instruction`. /repo/apx/vm.py:63-70,329. -/
structure VmObj where
  data : Option Bytes
  off : Option Nat
  progType : Option Dir
  state : Option (Dir × VmState)
  first : Bool

namespace VmObj

/-- `reset()`. /repo/apx/vm.py:63-70. -/
def reset (o : VmObj) : VmObj := { o with data := none, off := none, progType := none, state := none }

/-- `VM(little_endian_format)`. The parameter is not used. /repo/apx/vm.py:12-49. -/
def new (_littleEndian : Bool) : VmObj := ⟨none, none, none, none, false⟩

/-- `verify_data_len(data_len, data, data_offset)`. /repo/apx/vm.py:86-89. -/
def verify (dataLen : Int) (data : Bytes) (off : Nat) : Py Unit :=
  if (data.length : Int) - off < dataLen then .error .runtimeError else .ok ()

/-- `init_pack_prog(value, data_len, data, data_offset)`. /repo/apx/vm.py:72-77. -/
def initPack (o : VmObj) (value : PyVal) (dataLen : Int) (data : Bytes) (off : Nat) : VmObj × Py Unit :=
  match verify dataLen data off with
  | .error x => (o, .error x)
  | .ok _ => ({ o with state := some (.pack, VmState.init value), progType := some .pack, data := some data,
                       off := some off }, .ok ())

/-- `init_unpack_prog(data_len, data, data_offset)`. /repo/apx/vm.py:79-84. -/
def initUnpack (o : VmObj) (dataLen : Int) (data : Bytes) (off : Nat) : VmObj × Py Unit :=
  match verify dataLen data off with
  | .error x => (o, .error x)
  | .ok _ => ({ o with state := some (.unpack, VmState.init .null), progType := some .unpack, data := some data,
                       off := some off }, .ok ())

/-- `exec_pack_prog_instruction(data_len)`, `exec_unpack_prog_instruction(data_len)`: the program type
of the object is compared with that of the instruction. /repo/apx/vm.py:394-406. -/
def progInstr (o : VmObj) (d : Dir) (n : Nat) : Py VmObj :=
  match o.progType with
  | none => .error .runtimeError
  | some p =>
    if p ≠ d then .error .runtimeError
    else match o.data, o.off with
      | some data, some off => do
        verify n data off
        .ok o
      | _, _ => .error .typeError

/-- The methods of the object in `self.state`. A missing state, and a method the class of the state
does not have, is an `AttributeError`. /repo/apx/vm.py:261-316, /repo/apx/vm_state.py. -/
def stateInstr (o : VmObj) (i : Instr) : Py VmObj :=
  match o.state with
  | none => .error .attributeError
  | some (d, s) =>
    match o.data, o.off with
    | some data, some off =>
      match i, d with
      | .pack t n, .pack => do
        let (data, off) ← s.packStruct t data off n
        .ok { o with data := some data, off := some off }
      | .packStr n, .pack => do
        let (data, off) ← s.packStr data off n
        .ok { o with data := some data, off := some off }
      | .unpack t n, .unpack => do
        let (s, off) ← s.unpackStruct t data off n
        .ok { o with state := some (d, s), off := some off }
      | .unpackStr n, .unpack => do
        let (s, off) ← s.unpackStr data off n
        .ok { o with state := some (d, s), off := some off }
      | .recordEnter, .pack => do
        let s ← s.packRecordEnter
        .ok { o with state := some (d, s) }
      | .recordEnter, .unpack => do
        let s ← s.unpackRecordEnter
        .ok { o with state := some (d, s) }
      | .recordSelect n, _ => do
        let s ← s.recordSelect n
        .ok { o with state := some (d, s) }
      | .recordLeave, .pack => .ok { o with state := some (d, s.packRecordLeave) }
      | .recordLeave, .unpack => do
        let s ← s.unpackRecordLeave
        .ok { o with state := some (d, s) }
      | .arrayEnter, .pack => do
        let s ← s.packArrayEnter
        .ok { o with state := some (d, s) }
      | .arrayEnter, .unpack => .ok { o with state := some (d, s.unpackArrayEnter) }
      | .arrayLeave, .pack => .ok { o with state := some (d, s.packArrayLeave) }
      | .arrayLeave, .unpack => do
        let s ← s.unpackArrayLeave
        .ok { o with state := some (d, s) }
      | _, _ => .error .attributeError
    | _, _ => .error .typeError

/-- `exec_instruction(instruction, args)`. /repo/apx/vm.py:388-392. -/
def instr (o : VmObj) : Instr → Py VmObj
  | .packProg n => o.progInstr .pack n
  | .unpackProg n => o.progInstr .unpack n
  | i => o.stateInstr i

/-- The loop of `exec_pack_prog` and `exec_unpack_prog`. /repo/apx/vm.py:330-340,362-372. -/
def loop (d : Dir) (code : Bytes) (o : VmObj) : Py VmObj :=
  match _h : parseInstr code with
  | .error x => .error x
  | .ok none => .ok o
  | .ok (some (i, rest)) =>
    if o.first && !isProgHeader d i then .error .runtimeError
    else match instr { o with first := false } i with
      | .error x => .error x
      | .ok o => loop d rest o
termination_by code.length
decreasing_by exact parseInstr_length (by assumption)

/-- `exec_pack_prog(code, data, data_offset, value)`: the object afterwards and the buffer.
/repo/apx/vm.py:318-340. -/
def execPack (o : VmObj) (code data : Bytes) (off : Nat) (value : PyVal) (left : VmObj) : VmObj × Py Bytes :=
  match o.reset.initPack value ((data.length : Int) - off) data off with
  | (o, .error x) => (o, .error x)
  | (o, .ok _) =>
    match loop .pack code { o with first := true } with
    | .ok o => match o.data with
      | some b => (o, .ok b)
      | none => (o, .ok data)
    | .error x => (left, .error x)

/-- `exec_unpack_prog(code, data, data_offset)`. /repo/apx/vm.py:343-372. -/
def execUnpack (o : VmObj) (code data : Bytes) (off : Nat) (left : VmObj) : VmObj × Py Unit :=
  match o.reset.initUnpack ((data.length : Int) - off) data off with
  | (o, .error x) => (o, .error x)
  | (o, .ok _) =>
    match loop .unpack code { o with first := true } with
    | .ok o => (o, .ok ())
    | .error x => (left, .error x)

/-- The property `value`. /repo/apx/vm.py:51-55. -/
def value (o : VmObj) : Py PyVal :=
  match o.state with
  | none => .error .runtimeError
  | some (_, s) => .ok s.value

/-- The setter of `value`. /repo/apx/vm.py:57-61. -/
def setValue (o : VmObj) (v : PyVal) : VmObj × Py Unit :=
  match o.state with
  | none => (o, .error .runtimeError)
  | some (d, s) => ({ o with state := some (d, { s with value := v }) }, .ok ())

end VmObj

/-- A call of a method of a machine; `left` is what the machine looks like if the call raises an
exception on the way. -/
inductive VmCall
  | reset
  | initPack (value : PyVal) (dataLen : Int) (data : Bytes) (off : Nat)
  | initUnpack (dataLen : Int) (data : Bytes) (off : Nat)
  | instr (i : Instr) (left : VmObj)
  | execPack (code data : Bytes) (off : Nat) (value : PyVal) (left : VmObj)
  | execUnpack (code data : Bytes) (off : Nat) (left : VmObj)
  | setValue (v : PyVal)

/-- The machine after a call. -/
def VmObj.call (o : VmObj) : VmCall → VmObj
  | .reset => o.reset
  | .initPack v n data off => (o.initPack v n data off).1
  | .initUnpack n data off => (o.initUnpack n data off).1
  | .instr i left => match o.instr i with
    | .ok o => o
    | .error _ => left
  | .execPack code data off v left => (o.execPack code data off v left).1
  | .execUnpack code data off left => (o.execUnpack code data off left).1
  | .setValue v => (o.setValue v).1

/-- The machine after a history of calls. -/
def VmObj.calls (o : VmObj) (cs : List VmCall) : VmObj := cs.foldl VmObj.call o

/-! ### `NodeData` with its machine -/

/-- A `NodeData` object together with `self.vm`. /repo/apx/node_data.py:47. -/
structure NodeDataVm where
  nd : NodeData
  vm : VmObj

namespace NodeDataVm

/-- `write_provide_port(port_id, value)` run on the machine of the object; `left` as above.
/repo/apx/node_data.py:130-137,148-155. -/
def write (x : NodeDataVm) (i : Int) (v : PyVal) (left : VmObj) : NodeDataVm × Outcome (Nat × Bytes) :=
  match NodeData.lookupRange x.nd.outRanges i with
  | .error e => (x, .raised e)
  | .ok r =>
    match x.nd.outProgs[r.id]? with
    | none => (x, .raised .indexError)
    | some prog =>
      if x.nd.locked then (x, .blocked)
      else match x.vm.execPack prog (List.replicate r.len 0) 0 v left with
        | (vm, .error e) => (⟨{ x.nd with locked := true }, vm⟩, .raised e)
        | (vm, .ok data) =>
          let nd := { x.nd with outValues := x.nd.outValues.set r.id (.val v) }
          match nd.outFile with
          | none => (⟨nd, vm⟩, .raised .attributeError)
          | some f => (⟨{ nd with outFile := some (f.write r.offset data).1 }, vm⟩, .ok (r.offset, data))

/-- `_unpackRequirePort` on the machine of the object. /repo/apx/node_data.py:166-175. -/
def unpackRequire (x : NodeDataVm) (r : PortRange) (left : VmObj) : NodeDataVm × Outcome PyVal :=
  match x.nd.inProgs[r.id]? with
  | none => (x, .raised .indexError)
  | some prog =>
    match x.nd.inFile with
    | none => (x, .raised .attributeError)
    | some f =>
      match f.read r.offset r.len with
      | none => (x, .raised .runtimeError)
      | some data =>
        if x.nd.locked then (x, .blocked)
        else match x.vm.execUnpack prog data 0 left with
          | (vm, .error e) => (⟨{ x.nd with locked := true }, vm⟩, .raised e)
          | (vm, .ok _) =>
            match vm.value with
            | .error e => (⟨{ x.nd with locked := true }, vm⟩, .raised e)
            | .ok v => (⟨x.nd, vm⟩, .ok v)

/-- `read_require_port(port_id)`. /repo/apx/node_data.py:157-164. -/
def read (x : NodeDataVm) (i : Int) (left : VmObj) : NodeDataVm × Outcome PyVal :=
  match NodeData.lookupRange x.nd.inRanges i with
  | .error e => (x, .raised e)
  | .ok r => x.unpackRequire r left

/-- The loop of `inPortDataWriteNotify`; it ends with the first exception.
/repo/apx/node_data.py:106-108. -/
def notifyLoop (x : NodeDataVm) (left : VmObj) : List PortRange → NodeDataVm × List (Nat × PyVal) × Outcome Unit
  | [] => (x, [], .ok ())
  | r :: rs =>
    match x.unpackRequire r left with
    | (x, .raised e) => (x, [], .raised e)
    | (x, .blocked) => (x, [], .blocked)
    | (x, .ok v) =>
      let (x, l, o) := notifyLoop x left rs
      (x, (r.id, v) :: l, o)

/-- `inPortDataWriteNotify(file, write_offset, write_len)`. /repo/apx/node_data.py:101-108. -/
def inPortNotify (x : NodeDataVm) (hasClient : Bool) (off len : Nat) (left : VmObj) :
    NodeDataVm × List (Nat × PyVal) × Outcome Unit :=
  if hasClient then
    match x.nd.byteToPort off len with
    | .error e => (x, [], .raised e)
    | .ok rs => x.notifyLoop left rs
  else (x, [], .ok ())

/-- A remote write to the in-port data file. /repo/apx/file.py:70-75, /repo/apx/node_data.py:101-108. -/
def remoteWrite (x : NodeDataVm) (hasClient : Bool) (off : Nat) (data : Bytes) (more : Bool) (left : VmObj) :
    NodeDataVm × List (Nat × PyVal) × Outcome Int :=
  match x.nd.inFile with
  | none => (x, [], .raised .attributeError)
  | some f =>
    let w := f.inputWrite off data more true
    let x : NodeDataVm := ⟨{ x.nd with inFile := some w.1 }, x.vm⟩
    match w.2.2 with
    | none => (x, [], .ok w.2.1)
    | some _ =>
      match x.inPortNotify hasClient off data.length left with
      | (x, l, .ok ()) => (x, l, .ok w.2.1)
      | (x, l, .raised e) => (x, l, .raised e)
      | (x, l, .blocked) => (x, l, .blocked)

/-- What the caller of an operation sees: the result and the values reported to the client. -/
inductive Seen
  | wrote (o : Outcome (Nat × Bytes))
  | got (o : Outcome PyVal)
  | remote (reported : List (Nat × PyVal)) (o : Outcome Int)

/-- An operation on the object with its one machine. -/
def step (x : NodeDataVm) (left : VmObj) : Access → NodeDataVm × Seen
  | .write i v => let r := x.write i v left; (r.1, .wrote r.2)
  | .read i => let r := x.read i left; (r.1, .got r.2)
  | .remote c off data more => let r := x.remoteWrite c off data more left; (r.1, .remote r.2.1 r.2.2)

end NodeDataVm

end Apx
