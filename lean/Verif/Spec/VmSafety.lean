import Verif.Model.Vm

/-! Specification for C65: programs that end inside an instruction. -/

namespace Apx

/-- The text of an instruction that has lost its end: a program header with fewer than four length
bytes, an array or string instruction with fewer than two, a field selection whose name is not
terminated. -/
inductive CutInstr : Bytes → Prop
  | header (op : UInt8) (rest : Bytes) : op = 1 ∨ op = 2 → rest.length < 4 → CutInstr (op :: rest)
  | array (op : UInt8) (rest : Bytes) : 9 ≤ op ∧ op ≤ 15 ∨ 22 ≤ op ∧ op ≤ 28 → rest.length < 2 →
      CutInstr (op :: rest)
  | select (rest : Bytes) : 0 ∉ rest → CutInstr (30 :: rest)

end Apx
