import Verif.Spec.Quant
/-
Specification of half floats (IEEE 754 binary16).
-/
namespace Cuttlefish.Spec

/-- The number denoted by a 16-bit word: sign, 5 exponent bits, 10 fraction bits. -/
def halfVal (n : Nat) : F32 :=
  let sign : ℚ := if n / 2 ^ 15 % 2 = 1 then -1 else 1
  let e : Nat := n / 2 ^ 10 % 32
  let m : Nat := n % 2 ^ 10
  if e = 31 then (if m = 0 then .inf (n / 2 ^ 15 % 2 = 1) else .nan)
  else if e = 0 then .fin (sign * (m / 2 ^ 24))
  else .fin (sign * ((2 ^ 10 + m) * 2 ^ e / 2 ^ 25))

/-- The half float `h` is one nearest to the channel value `w`: no half float is closer, numbers that
round beyond the largest one (65504) are infinite, NaN stays NaN, and the sign is kept, also that of
zero. -/
def IsHalf (w h : Nat) : Prop :=
  h < 2 ^ 16 ∧ h / 2 ^ 15 = w / 2 ^ 31 % 2 ∧
  match F32.ofBits w with
  | .nan => halfVal h = .nan
  | .inf s => halfVal h = .inf s
  | .fin q =>
    if 65520 ≤ |q| then halfVal h = .inf (q < 0)
    else ∃ v, halfVal h = .fin v ∧ ∀ h' v', halfVal h' = .fin v' → |v - q| ≤ |v' - q|

/-- If two half floats are equally close, the even one is stored. -/
def TiesEven (w h : Nat) : Prop :=
  ∀ q v h' v', F32.ofBits w = .fin q → halfVal h = .fin v → halfVal h' = .fin v' → v' ≠ v →
    |v' - q| = |v - q| → h % 2 = 0

/-- The half floats of the build are nearest ones: they are converted by the processor, or else by a
library function with this property. -/
def NearestHalves (X : Ext) : Prop :=
  (∃ ecx, X.cpu = .sse ecx ∧ ecx / 2 ^ 29 % 2 = 1) ∨ X.cpu = .neon ∨ ∀ w < 2 ^ 32, IsHalf w (X.glmHalf w)

end Cuttlefish.Spec
