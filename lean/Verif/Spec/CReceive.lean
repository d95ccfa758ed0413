import Verif.Spec.ComText
import Verif.Spec.GenCode

/-!
What happens when the program is told of received data: the function of the node that is told calls, with the members of
its union, the read functions of the node and the callbacks of the program.
-/

namespace Apx

mutual
/-- The C object has the type that belongs to the element; its contents are arbitrary. -/
def Elem.Typed (sfx : Str) : Elem → CVal → Prop
  | .prim tc _ _ none, c => tc.integer.isSome ∧ ∃ i, c = .int i
  | .prim tc _ _ (some n), c =>
    (tc.integer.isSome ∧ ∃ l : List Int, l.length = n ∧ c = .ints l) ∨ (tc = .str ∧ ∃ b, b.length = n ∧ c = .chars b)
  | .record fs none, .struct cs => fs.Typed sfx cs
  | .refType _ t, c => t.Typed sfx c
  | _, _ => False
/-- See `Elem.Typed`. -/
def Fields.Typed (sfx : Str) : Fields → CFields → Prop
  | .nil, .nil => True
  | .cons (some k) e r, .cons k' c cs => k' = k ++ sfx ∧ e.Typed sfx c ∧ r.Typed sfx cs
  | _, _ => False
end

mutual
/-- There is no text in a value of this type. -/
def Elem.NoText : Elem → Prop
  | .prim tc _ _ _ => tc ≠ .str
  | .record fs _ => fs.NoText
  | .refType _ t => t.NoText
  | _ => True
/-- See `Elem.NoText`. -/
def Fields.NoText : Fields → Prop
  | .nil => True
  | .cons _ e r => e.NoText ∧ r.NoText
end

/-- The argument of a call; `data` says what the members of the union contain. A pointer to an array is one to its first
element. -/
def CDataCall.operand (data : Str → CVal) (c : CDataCall) : Option CVal :=
  if c.ref then some (.ptr (data c.member))
  else if c.first then
    match data c.member with
    | .ints (i :: _) => some (.int i)
    | _ => none
  else some (data c.member)

/-- The calls, one after the other: the calls that leave the file, with their arguments. A call of a function of the file
works on the received data `buf`; afterwards the member it was given contains what it has stored. What the other members
contain then, and what all of them contain after a call that leaves the file, is arbitrary: `views k` after call `k`. -/
def runDataCalls (u : List CItem) (buf : Bytes) (views : Nat → Str → CVal) : Nat → (Str → CVal) → List CDataCall →
    Option (List (Str × CVal))
  | _, _, [] => some []
  | k, data, c :: cs =>
    (c.operand data).bind fun x =>
      if (u.filterMap CItem.function).any fun f => f.1.name = c.func then
        (nodeTextCall "m_inPortdata".toList u c.func ⟨buf, []⟩ x).bind fun r =>
          match r.2 with
          | .ptr y => runDataCalls u buf views (k + 1) (fun m => if m = c.member then y else views (k + 1) m) cs
          | _ => none
      else (runDataCalls u buf views (k + 1) (views (k + 1)) cs).map fun l => (c.func, x) :: l

/-- A call of the function that is told of received data: the calls of other parts of the program. The union is not
initialized: before the first call it contains anything, `views 0`. -/
def CSwitch.run (u : List CItem) (d : CSwitch) (buf : Bytes) (views : Nat → Str → CVal) (offset len : Nat) :
    Option (List (Str × CVal)) :=
  (d.call u offset len).bind (runDataCalls u buf views 0 (views 0))

/-- In the data `buf`, the bytes of the signal are those of a value of its type, and the object `x` represents this
value. -/
def Signal.Contains (s : Signal) (sfx : Str) (buf : Bytes) (d : Elem) (x : CVal) : Prop :=
  s.elem.resolveDataElement = .ok d ∧
    ∃ v, d.Repr sfx v x ∧ s.elem.layout v = some ((buf.drop s.offset).take s.packLen)

end Apx
