import Mathlib.Analysis.SpecialFunctions.Pow.Real
import Mathlib.Analysis.SpecialFunctions.Sqrt
import Verif.Model.Image
/-
Two arithmetics for class `Image`: IEEE double precision, and exact real numbers.
-/
namespace Cuttlefish

/-- The functions of the C library that are not fixed by IEEE 754, or not rational. -/
structure Libm where
  sqrt : Dbl → Dbl
  pow : Dbl → Dbl → Dbl

/-- Equality of floats: NaN is not equal to itself. -/
def F32.beq : F32 → F32 → Bool
  | .fin a, .fin b => a = b
  | .inf s, .inf t => s == t
  | _, _ => false

/-- IEEE 754 arithmetic, rounding to nearest, no excess precision. -/
def Arith.ieee (L : Libm) : Arith Dbl where
  lit := Dbl.ofQ
  add := F32.addWith Dbl.ofQ
  sub a b := F32.addWith Dbl.ofQ a b.neg
  mul := F32.mulWith Dbl.ofQ
  div := F32.divWith Dbl.ofQ
  lt := F32.lt
  eq := F32.beq
  round := F32.roundAway
  cast := F32.cast
  single := Dbl.single
  addS := F32.addWith F32.round
  mulS := F32.mulWith F32.round
  sqrt := L.sqrt
  pow := L.pow

open Classical in
/-- Exact arithmetic on real numbers: what the program computes if no operation rounds. -/
noncomputable def Arith.exact : Arith ℝ where
  lit q := (q : ℝ)
  add a b := a + b
  sub a b := a - b
  mul a b := a * b
  div a b := a / b
  lt a b := decide (a < b)
  eq a b := decide (a = b)
  round a := if 0 ≤ a then (⌊a + 1 / 2⌋ : ℝ) else -(⌊-a + 1 / 2⌋ : ℝ)
  cast lo hi a :=
    let t : Int := if 0 ≤ a then ⌊a⌋ else -⌊-a⌋
    if lo ≤ t ∧ t ≤ hi then .ok t else .ub
  single a := a
  addS a b := a + b
  mulS a b := a * b
  sqrt := Real.sqrt
  pow a b := a ^ b

end Cuttlefish
