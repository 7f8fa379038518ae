import Verif.Model.Arith
import Mathlib.Analysis.SpecialFunctions.Pow.Real
/-
The assumption about the square root of the C library.
-/
namespace Cuttlefish.Spec

/-- The values of finite doubles (of any size). -/
def IsDouble (q : ℚ) : Prop := ∃ m k : ℤ, |m| ≤ 2 ^ 53 ∧ -1074 ≤ k ∧ q = m * (2 : ℚ) ^ k

/-- Assumption about `sqrt` of the C library, which IEEE 754 demands: the result is a double, and no other one is closer
to the root. -/
def RoundedSqrt (L : Libm) : Prop :=
  ∀ q : ℚ, 0 ≤ q → ∃ z : ℚ, L.sqrt (.fin q) = .fin z ∧ IsDouble z ∧
    ∀ s, IsDouble s → |(z : ℝ) - √(q : ℝ)| ≤ |(s : ℝ) - √(q : ℝ)|

end Cuttlefish.Spec
