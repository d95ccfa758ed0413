import Verif.Model.PyVal
import Verif.Model.Compiler

/-!
The virtual machine: apx/vm.py and apx/vm_state.py.

The program counter is represented by the remaining code.  When an exception is raised the partly
written buffer is not part of the result (`NodeData` throws it away).  Data offsets are
non-negative.
-/

namespace Apx

/-- The parsed instructions (bound method and arguments). /repo/apx/vm.py:12-48. -/
inductive Instr
  | packProg (n : Nat)
  | unpackProg (n : Nat)
  | pack (t : IntT) (arrayLen : Nat)
  | packStr (n : Nat)
  | unpack (t : IntT) (arrayLen : Nat)
  | unpackStr (n : Nat)
  | recordEnter
  | recordSelect (name : Str)
  | recordLeave
  | arrayEnter
  | arrayLeave
  deriving DecidableEq, Repr

/-- The four length bytes after a program header. /repo/apx/vm.py:91-103. -/
def parse4 (mk : Nat → Instr) : Bytes → Py (Option (Instr × Bytes))
  | a :: b :: c :: d :: rest => .ok (some (mk (leNat [a, b, c, d]), rest))
  | _ => .error .invalidInstruction

/-- The two length bytes after an array opcode. /repo/apx/vm.py:123-177,197-237. -/
def parse2 (mk : Nat → Instr) : Bytes → Py (Option (Instr × Bytes))
  | a :: b :: rest => .ok (some (mk (leNat [a, b]), rest))
  | _ => .error .invalidInstruction

/-- `bytes.decode("ascii")`. -/
def asciiDecode : Bytes → Py Str
  | [] => .ok []
  | b :: bs => if b.toNat < 128 then do
      let r ← asciiDecode bs
      .ok (Char.ofNat b.toNat :: r)
    else .error .unicodeError

/-- The bytes before the first zero byte and those after it. /repo/apx/vm.py:243-251. -/
def splitZero : Bytes → Option (Bytes × Bytes)
  | [] => none
  | b :: bs => if b = 0 then some ([], bs) else (splitZero bs).map fun (x, y) => (b :: x, y)

/-- `parse_record_select`. /repo/apx/vm.py:242-251. -/
def parseSelect (code : Bytes) : Py (Option (Instr × Bytes)) :=
  match splitZero code with
  | none => .error .invalidInstruction
  | some (name, rest) => do
    let s ← asciiDecode name
    .ok (some (.recordSelect s, rest))

/-- `parse_next_instruction`: `none` at the end of the code.  An unknown opcode raises
`UnknownOpCodeError`, except as last byte of the program, where building the message fails with
`IndexError`. /repo/apx/vm.py:12-48,375-386. -/
def parseInstr : Bytes → Py (Option (Instr × Bytes))
  | [] => .ok none
  | op :: rest =>
    match op.toNat with
    | 1 => parse4 .packProg rest
    | 2 => parse4 .unpackProg rest
    | 3 => .ok (some (.pack .u8 0, rest))
    | 4 => .ok (some (.pack .u16 0, rest))
    | 5 => .ok (some (.pack .u32 0, rest))
    | 6 => .ok (some (.pack .s8 0, rest))
    | 7 => .ok (some (.pack .s16 0, rest))
    | 8 => .ok (some (.pack .s32 0, rest))
    | 9 => parse2 .packStr rest
    | 10 => parse2 (.pack .u8) rest
    | 11 => parse2 (.pack .u16) rest
    | 12 => parse2 (.pack .u32) rest
    | 13 => parse2 (.pack .s8) rest
    | 14 => parse2 (.pack .s16) rest
    | 15 => parse2 (.pack .s32) rest
    | 16 => .ok (some (.unpack .u8 0, rest))
    | 17 => .ok (some (.unpack .u16 0, rest))
    | 18 => .ok (some (.unpack .u32 0, rest))
    | 19 => .ok (some (.unpack .s8 0, rest))
    | 20 => .ok (some (.unpack .s16 0, rest))
    | 21 => .ok (some (.unpack .s32 0, rest))
    | 22 => parse2 .unpackStr rest
    | 23 => parse2 (.unpack .u8) rest
    | 24 => parse2 (.unpack .u16) rest
    | 25 => parse2 (.unpack .u32) rest
    | 26 => parse2 (.unpack .s8) rest
    | 27 => parse2 (.unpack .s16) rest
    | 28 => parse2 (.unpack .s32) rest
    | 29 => .ok (some (.recordEnter, rest))
    | 30 => parseSelect rest
    | 31 => .ok (some (.recordLeave, rest))
    | 32 => .ok (some (.arrayEnter, rest))
    | 33 => .ok (some (.arrayLeave, rest))
    | _ => match rest with
      | [] => .error .indexError
      | _ => .error .unknownOpCode

theorem splitZero_length (s a b : Bytes) (h : splitZero s = some (a, b)) : b.length < s.length := by
  induction s generalizing a b with
  | nil => simp [splitZero] at h
  | cons c s ih =>
    simp only [splitZero] at h
    split at h
    · simp only [Option.some.injEq, Prod.mk.injEq] at h
      obtain ⟨_, rfl⟩ := h
      simp
    · rw [Option.map_eq_some_iff] at h
      obtain ⟨⟨a', b'⟩, h1, h2⟩ := h
      simp only [Prod.mk.injEq] at h2
      obtain ⟨_, rfl⟩ := h2
      have := ih _ _ h1
      simp; omega

theorem parse4_length {mk : Nat → Instr} {s rest : Bytes} {i : Instr}
    (h : parse4 mk s = .ok (some (i, rest))) : rest.length ≤ s.length := by
  unfold parse4 at h
  split at h
  · simp only [Except.ok.injEq, Option.some.injEq, Prod.mk.injEq] at h
    obtain ⟨_, rfl⟩ := h
    simp; omega
  · simp at h

theorem parse2_length {mk : Nat → Instr} {s rest : Bytes} {i : Instr}
    (h : parse2 mk s = .ok (some (i, rest))) : rest.length ≤ s.length := by
  unfold parse2 at h
  split at h
  · simp only [Except.ok.injEq, Option.some.injEq, Prod.mk.injEq] at h
    obtain ⟨_, rfl⟩ := h
    simp; omega
  · simp at h

theorem parseSelect_length {s rest : Bytes} {i : Instr}
    (h : parseSelect s = .ok (some (i, rest))) : rest.length ≤ s.length := by
  unfold parseSelect at h
  split at h
  · simp at h
  · rename_i name r hz
    have := splitZero_length _ _ _ hz
    cases hd : asciiDecode name with
    | error e => rw [hd] at h; simp [bind, Except.bind] at h
    | ok v =>
      rw [hd] at h
      simp only [bind, Except.bind, Except.ok.injEq, Option.some.injEq, Prod.mk.injEq] at h
      obtain ⟨_, rfl⟩ := h
      omega

/-- Parsing an instruction consumes code. -/
theorem parseInstr_length {code rest : Bytes} {i : Instr}
    (h : parseInstr code = .ok (some (i, rest))) : rest.length < code.length := by
  cases code with
  | nil => simp [parseInstr] at h
  | cons op s =>
    suffices rest.length ≤ s.length by simp; omega
    simp only [parseInstr] at h
    split at h <;> first
      | exact parse4_length h
      | exact parse2_length h
      | exact parseSelect_length h
      | (simp only [Except.ok.injEq, Option.some.injEq, Prod.mk.injEq] at h
         obtain ⟨_, rfl⟩ := h
         exact Nat.le_refl _)
      | (split at h <;> simp at h)

/-- `VmState`: value, current dict key, current list index and the stack of suspended ones.
/repo/apx/vm_state.py:12-18. -/
structure VmState where
  value : PyVal
  key : Option Str
  idx : Option Nat
  stack : List (PyVal × Option Str × Option Nat)

namespace VmState

/-- A fresh state. /repo/apx/vm_state.py:13-18. -/
def init (v : PyVal) : VmState := ⟨v, none, none, []⟩

/-- `VmPackState.record_enter`. /repo/apx/vm_state.py:27-41. -/
def packRecordEnter (s : VmState) : Py VmState :=
  match s.key, s.idx with
  | none, none => if s.value.isDict then .ok s else .error .valueError
  | _, some i => do
    let v ← s.value.getIdx i
    .ok ⟨v, none, none, (s.value, s.key, s.idx) :: s.stack⟩
  | some k, none => do
    let v ← s.value.getKey k
    .ok ⟨v, none, none, (s.value, s.key, s.idx) :: s.stack⟩

/-- `record_select` (the same in both state classes). /repo/apx/vm_state.py:44-47,151-154. -/
def recordSelect (s : VmState) (name : Str) : Py VmState :=
  if s.value.isDict then .ok { s with key := some name } else .error .runtimeError

/-- `VmPackState.record_leave`. /repo/apx/vm_state.py:49-54. -/
def packRecordLeave (s : VmState) : VmState :=
  match s.stack with
  | (v, _, i) :: stack => ⟨v, none, i.map (· + 1), stack⟩
  | [] => { s with key := none }

/-- `VmPackState.array_enter`. /repo/apx/vm_state.py:56-70. -/
def packArrayEnter (s : VmState) : Py VmState :=
  match s.key, s.idx with
  | none, none => if s.value.isList then .ok { s with idx := some 0 } else .error .valueError
  | some k, _ => do
    let v ← s.value.getKey k
    .ok ⟨v, none, some 0, (s.value, s.key, s.idx) :: s.stack⟩
  | none, some i => do
    let v ← s.value.getIdx i
    .ok ⟨v, none, some 0, (s.value, s.key, s.idx) :: s.stack⟩

/-- `VmPackState.array_leave`. /repo/apx/vm_state.py:72-78. -/
def packArrayLeave (s : VmState) : VmState :=
  match s.stack with
  | (v, k, i) :: stack => ⟨v, k, i.map (· + 1), stack⟩
  | [] => { s with idx := none }

/-- The value a pack instruction works on. /repo/apx/vm_state.py:99-104,115-120. -/
def current (s : VmState) : Py PyVal :=
  if s.value.isDict then
    match s.key with
    | none => .error .runtimeError
    | some k => s.value.getKey k
  else .ok s.value

/-- The loop over the elements of an array value. /repo/apx/vm_state.py:126-128. -/
def packItems (t : IntT) (data : Bytes) (off : Nat) (l : List PyVal) : Nat → Nat → Py (Bytes × Nat)
  | _, 0 => .ok (data, off)
  | i, n + 1 => do
    let v ← (PyVal.list l).getIdx i
    let b ← packInt t v
    let data ← packInto data off b
    packItems t data (off + t.size) l (i + 1) n

/-- `pack_struct`. Note that the length test looks at `self.value`, not at the selected value.
/repo/apx/vm_state.py:111-132. -/
def packStruct (s : VmState) (t : IntT) (data : Bytes) (off : Nat) (arrayLen : Nat) : Py (Bytes × Nat) := do
  let value ← s.current
  if arrayLen > 0 then
    match value with
    | .list l => do
      let n ← s.value.len
      if n < arrayLen then .error .valueError
      else packItems t data off l 0 arrayLen
    | _ => .error .valueError
  else do
    let b ← packInt t value
    let data ← packInto data off b
    .ok (data, off + t.size)

/-- `pack_str`; a value without `encode` gives `AttributeError`. /repo/apx/vm_state.py:98-109. -/
def packStr (s : VmState) (data : Bytes) (off : Nat) (n : Nat) : Py (Bytes × Nat) := do
  let value ← s.current
  match value with
  | .str t => do
    let data ← packInto data off (packS n (utf8Encode t))
    .ok (data, off + n)
  | _ => .error .attributeError

/-- `VmUnpackState.record_enter`. /repo/apx/vm_state.py:138-148. -/
def unpackRecordEnter (s : VmState) : Py VmState :=
  match s.key, s.idx with
  | none, none => .ok { s with value := .dict [] }
  | _, some _ => .ok ⟨.dict [], none, none, (s.value, s.key, s.idx) :: s.stack⟩
  | some _, none => .error .notImplemented

/-- `self.value.append(child)`. -/
def appendChild : PyVal → PyVal → Py PyVal
  | .list l, c => .ok (.list (l ++ [c]))
  | _, _ => .error .attributeError

/-- `self.value[key] = child`. -/
def setChild : PyVal → Str → PyVal → Py PyVal
  | .dict d, k, c => .ok (.dict (dictSet d k c))
  | _, _, _ => .error .typeError

/-- `VmUnpackState.record_leave`. /repo/apx/vm_state.py:156-165. -/
def unpackRecordLeave (s : VmState) : Py VmState :=
  match s.stack with
  | [] => .ok { s with key := none }
  | (v, _, some i) :: stack => do
    let v ← appendChild v s.value
    .ok ⟨v, none, some (i + 1), stack⟩
  | (v, some k, none) :: stack => do
    let v ← setChild v k s.value
    .ok ⟨v, none, none, stack⟩
  | (v, none, none) :: stack => .ok ⟨v, none, none, stack⟩

/-- `VmUnpackState.array_enter`. /repo/apx/vm_state.py:167-175. -/
def unpackArrayEnter (s : VmState) : VmState :=
  match s.key, s.idx with
  | none, none => { s with value := .list [], idx := some 0 }
  | _, _ => ⟨.list [], none, some 0, (s.value, s.key, s.idx) :: s.stack⟩

/-- `VmUnpackState.array_leave`. /repo/apx/vm_state.py:177-190. -/
def unpackArrayLeave (s : VmState) : Py VmState :=
  match s.idx with
  | none => .error .runtimeError
  | some _ =>
    match s.stack with
    | [] => .ok { s with idx := none }
    | (v, k, some i) :: stack => do
      let v ← appendChild v s.value
      .ok ⟨v, k, some (i + 1), stack⟩
    | (v, some k, none) :: stack => do
      let v ← setChild v k s.value
      .ok ⟨v, none, none, stack⟩
    | (v, none, none) :: stack => .ok ⟨v, none, none, stack⟩

/-- Storing an unpacked value. /repo/apx/vm_state.py:224-230,243-249. -/
def store (s : VmState) (v : PyVal) : Py VmState :=
  match s.value with
  | .dict d => match s.key with
    | none => .error .runtimeError
    | some k => .ok { s with value := .dict (dictSet d k v) }
  | _ => .ok { s with value := v }

/-- The loop reading the elements of an array. /repo/apx/vm_state.py:236-239. -/
def unpackItems (t : IntT) (data : Bytes) (off : Nat) : Nat → Py (List PyVal)
  | 0 => .ok []
  | n + 1 => do
    let b ← unpackFrom data off t.size
    let r ← unpackItems t data (off + t.size) n
    .ok (.int (unpackInt t b) :: r)

/-- `unpack_struct`. /repo/apx/vm_state.py:234-250. -/
def unpackStruct (s : VmState) (t : IntT) (data : Bytes) (off : Nat) (arrayLen : Nat) : Py (VmState × Nat) :=
  if arrayLen > 0 then do
    let l ← unpackItems t data off arrayLen
    let s ← s.store (.list l)
    .ok (s, off + t.size * arrayLen)
  else do
    let b ← unpackFrom data off t.size
    let s ← s.store (.int (unpackInt t b))
    .ok (s, off + t.size)

/-- `unpack_str`: the text up to the first zero byte. /repo/apx/vm_state.py:211-231. -/
def unpackStr (s : VmState) (data : Bytes) (off : Nat) (n : Nat) : Py (VmState × Nat) :=
  if (data.length : Int) - off < n then .error .valueError
  else do
    let t ← utf8Decode (((data.drop off).take n).takeWhile (· ≠ 0))
    let s ← s.store (.str t)
    .ok (s, off + n)

end VmState

/-- The machine: state object, data buffer and data offset. /repo/apx/vm.py:63-84. -/
structure Vm where
  st : VmState
  data : Bytes
  off : Nat

/-- `verify_data_len`. /repo/apx/vm.py:86-89. -/
def verifyDataLen (n : Nat) (m : Vm) : Py Vm :=
  if (m.data.length : Int) - m.off < n then .error .runtimeError else .ok m

/-- Execution of one instruction while the program type is `PACK_PROG`.  Unpack instructions are
missing from the pack state class (`AttributeError`). /repo/apx/vm.py:261-316,394-406. -/
def execPack (i : Instr) (m : Vm) : Py Vm :=
  match i with
  | .packProg n => verifyDataLen n m
  | .unpackProg _ => .error .runtimeError
  | .pack t n => do
    let (data, off) ← m.st.packStruct t m.data m.off n
    .ok { m with data := data, off := off }
  | .packStr n => do
    let (data, off) ← m.st.packStr m.data m.off n
    .ok { m with data := data, off := off }
  | .unpack _ _ => .error .attributeError
  | .unpackStr _ => .error .attributeError
  | .recordEnter => do
    let s ← m.st.packRecordEnter
    .ok { m with st := s }
  | .recordSelect n => do
    let s ← m.st.recordSelect n
    .ok { m with st := s }
  | .recordLeave => .ok { m with st := m.st.packRecordLeave }
  | .arrayEnter => do
    let s ← m.st.packArrayEnter
    .ok { m with st := s }
  | .arrayLeave => .ok { m with st := m.st.packArrayLeave }

/-- Execution of one instruction while the program type is `UNPACK_PROG`.
/repo/apx/vm.py:261-316,394-406. -/
def execUnpack (i : Instr) (m : Vm) : Py Vm :=
  match i with
  | .packProg _ => .error .runtimeError
  | .unpackProg n => verifyDataLen n m
  | .pack _ _ => .error .attributeError
  | .packStr _ => .error .attributeError
  | .unpack t n => do
    let (s, off) ← m.st.unpackStruct t m.data m.off n
    .ok { m with st := s, off := off }
  | .unpackStr n => do
    let (s, off) ← m.st.unpackStr m.data m.off n
    .ok { m with st := s, off := off }
  | .recordEnter => do
    let s ← m.st.unpackRecordEnter
    .ok { m with st := s }
  | .recordSelect n => do
    let s ← m.st.recordSelect n
    .ok { m with st := s }
  | .recordLeave => do
    let s ← m.st.unpackRecordLeave
    .ok { m with st := s }
  | .arrayEnter => .ok { m with st := m.st.unpackArrayEnter }
  | .arrayLeave => do
    let s ← m.st.unpackArrayLeave
    .ok { m with st := s }

/-- Execution of one instruction for the given program type. -/
def execInstr : Dir → Instr → Vm → Py Vm
  | .pack => execPack
  | .unpack => execUnpack

/-- The test on the first instruction. /repo/apx/vm.py:335-338,367-370. -/
def isProgHeader : Dir → Instr → Bool
  | .pack, .packProg _ => true
  | .unpack, .unpackProg _ => true
  | _, _ => false

/-- The instruction loop of `exec_pack_prog` and `exec_unpack_prog`; `first` is
`self.first_instruction`. /repo/apx/vm.py:330-340,362-372. -/
def runVm (d : Dir) (first : Bool) (code : Bytes) (m : Vm) : Py Vm :=
  match _h : parseInstr code with
  | .error x => .error x
  | .ok none => .ok m
  | .ok (some (i, rest)) =>
    if first && !isProgHeader d i then .error .runtimeError
    else match execInstr d i m with
      | .error x => .error x
      | .ok m => runVm d false rest m
termination_by code.length
decreasing_by exact parseInstr_length (by assumption)

/-- `VM.exec_pack_prog(code, data, data_offset, value)`: the buffer afterwards. The call of
`verify_data_len` with `len(data)-data_offset` can never fail. /repo/apx/vm.py:318-340. -/
def execPackProg (code : Bytes) (data : Bytes) (off : Nat) (value : PyVal) : Py Bytes := do
  let m ← runVm .pack true code ⟨VmState.init value, data, off⟩
  .ok m.data

/-- `VM.exec_unpack_prog(code, data, data_offset)` followed by reading `VM.value`.
/repo/apx/vm.py:50-54,343-372. -/
def execUnpackProg (code : Bytes) (data : Bytes) (off : Nat) : Py PyVal := do
  let m ← runVm .unpack true code ⟨VmState.init .null, data, off⟩
  .ok m.st.value

end Apx
