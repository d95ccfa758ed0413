import Verif.Model.Tester
import Mathlib.Data.Rat.Floor

/-! Specification vocabulary for ramps (C52). -/

namespace Apx

/-- The values go monotonically from `start` to `target`, stay between them and end in `target`. -/
def MonotoneTo (start target : Int) (vs : List Int) : Prop :=
  (∀ v ∈ vs, min start target ≤ v ∧ v ≤ max start target) ∧
  (start ≤ target → (start :: vs).Pairwise (· ≤ ·)) ∧
  (target ≤ start → (start :: vs).Pairwise (· ≥ ·)) ∧
  vs.getLast? = some target

/-- Rounding errors are at most `δ`: in sums of numbers between `lo` and `hi` (with the sum there as
well), and in quotients of numbers up to `hi - lo` by numbers of at least 1. -/
structure FloatOps.Accurate (F : FloatOps) (δ lo hi : Rat) : Prop where
  add : ∀ x y, lo ≤ x → x ≤ hi → lo ≤ x + y → x + y ≤ hi → x + y - δ ≤ F.add x y ∧ F.add x y ≤ x + y + δ
  div : ∀ x y, 0 ≤ x → x ≤ hi - lo → 1 ≤ y → x / y - δ ≤ F.div x y ∧ F.div x y ≤ x / y + δ

end Apx
