import Verif.Model.Client

/-!
The method `ramp` of apx/tester.py.

Floating-point numbers are rationals. The two operations that round, division and addition, are
parameters (`FloatOps`); infinities and NaN do not occur. Sleeping only matters in that negative times
raise `ValueError`.
-/

namespace Apx

/-- The rounded quotient and sum of two numbers. -/
structure FloatOps where
  div : Rat → Rat → Rat
  add : Rat → Rat → Rat

/-- Without rounding. -/
def FloatOps.exact : FloatOps := ⟨(· / ·), (· + ·)⟩

/-- `int(x)`: truncation. -/
def pyTrunc (x : Rat) : Int := if x < 0 then -(-x).floor else x.floor

/-- `round(x)`: to the nearest integer, halves to the even one. -/
def pyRound (x : Rat) : Int :=
  let d := x - x.floor
  if d < 1 / 2 then x.floor
  else if 1 / 2 < d then x.floor + 1
  else if x.floor % 2 = 0 then x.floor else x.floor + 1

/-- The values set by the loop of `ramp`. /repo/apx/tester.py:62-65. -/
def rampLoop (F : FloatOps) (next size : Rat) : Nat → List Int
  | 0 => []
  | n + 1 => pyRound (F.add next size) :: rampLoop F (F.add next size) size n

/-- The values that `ramp` sets, in order, if setting them raises nothing.
/repo/apx/tester.py:50-67. -/
def rampPlan (F : FloatOps) (start target : Int) (time step : Rat) : Py (List Int) :=
  if step = 0 then .error .zeroDivision
  else
    let steps := F.div time step
    if start = target then .ok []
    else if steps = 0 then .error .zeroDivision
    else
      let size := if start < target then F.div (target - start : Int) steps else F.div (start - target : Int) steps
      if step < 0 then .error .valueError      -- the first `sleep`
      else .ok (rampLoop F start size ((pyTrunc steps).toNat - 1) ++ [target])

/-- Set the values one after the other; returns those set. /repo/apx/tester.py:33-34,62-68. -/
def Client.setAll (c : Client) (d : Designator) : List Int → Client × List Int × Outcome Unit
  | [] => (c, [], .ok ())
  | v :: vs =>
    match c.write d (.int v) with
    | (c, .ok ()) =>
      let (c, l, o) := c.setAll d vs
      (c, v :: l, o)
    | (c, .raised x) => (c, [], .raised x)
    | (c, .blocked) => (c, [], .blocked)

/-- `ramp(identifier, target_value, target_time, step_time)` with an integer as target. Comparing
anything but a number (an `InitValue` object in particular) with the target is a `TypeError`. That
`resolve_data_element` stores the resolved type in the port is left out, since the node data has done
the same. /repo/apx/tester.py:36-68. -/
def Client.ramp (F : FloatOps) (c : Client) (d : Designator) (target : Int) (time step : Rat) :
    Client × List Int × Outcome Unit :=
  match d with
  | .name s =>
    match c.attached with
    | none => (c, [], .raised .assertionError)
    | some (n, _) =>
      match n.find s with
      | none => (c, [], .raised .assertionError)
      | some (.port .provide p) =>
        match resolveDsg n.named p.elem with
        | .error x => (c, [], .raised x)
        | .ok _ =>
          let port : Designator := .port ⟨.provide, n.provides.findIdx? (fun q => q.name = s), p.id⟩
          match c.read port with
          | (c, .raised x) => (c, [], .raised x)
          | (c, .blocked) => (c, [], .blocked)
          | (c, .ok (some (.val (.int start)))) =>
            match rampPlan F start target time step with
            | .error x => (c, [], .raised x)
            | .ok vs => c.setAll port vs
          | (c, .ok _) => (c, [], .raised .typeError)
      | some _ => (c, [], .raised .valueError)
  | _ => (c, [], .raised .notImplemented)

end Apx
