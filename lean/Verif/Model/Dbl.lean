import Verif.Model.Num
/-
IEEE 754 double precision numbers.  A double denotes the same kinds of numbers as a float (`F32`):
not a number, infinities, rationals.  Simplification: the two zeros denote the same number.
-/
namespace Cuttlefish

/-- The number denoted by a `double`. -/
abbrev Dbl := F32

/-- The spacing of doubles around `q`. -/
def ulpD (q : ℚ) : ℚ := pow2 (max (binade |q|) (-1022) - 52)

/-- Nearest multiple of the spacing (53-bit significand, subnormals included), without overflow. -/
def rneD (q : ℚ) : ℚ := if q = 0 then 0 else (roundEven (q / ulpD q) : ℚ) * ulpD q

/-- IEEE rounding of an exact result to double precision (round to nearest, ties to even),
overflowing to infinity. -/
def Dbl.ofQ (q : ℚ) : Dbl :=
  if 2 ^ 1024 ≤ |rneD q| then .inf (q < 0) else .fin (rneD q)

/-- `a + b`, the exact sum rounded by `rd`. -/
def F32.addWith (rd : ℚ → F32) : F32 → F32 → F32
  | .fin a, .fin b => rd (a + b)
  | .nan, _ => .nan
  | _, .nan => .nan
  | .inf s, .inf t => if s = t then .inf s else .nan
  | .inf s, .fin _ => .inf s
  | .fin _, .inf t => .inf t

/-- `-a`. -/
def F32.neg : F32 → F32
  | .fin a => .fin (-a)
  | .nan => .nan
  | .inf s => .inf (!s)

/-- `a * b`, the exact product rounded by `rd`. -/
def F32.mulWith (rd : ℚ → F32) : F32 → F32 → F32
  | .fin a, .fin b => rd (a * b)
  | .nan, _ => .nan
  | _, .nan => .nan
  | .inf s, .inf t => .inf (s != t)
  | .inf s, .fin b => if b = 0 then .nan else .inf (s != (b < 0))
  | .fin a, .inf t => if a = 0 then .nan else .inf ((a < 0) != t)

/-- `a / b`, the exact quotient rounded by `rd`.  Simplification: the sign of a quotient by zero
takes the zero as positive. -/
def F32.divWith (rd : ℚ → F32) : F32 → F32 → F32
  | .fin a, .fin b => if b = 0 then (if a = 0 then .nan else .inf (a < 0)) else rd (a / b)
  | .nan, _ => .nan
  | _, .nan => .nan
  | .inf _, .inf _ => .nan
  | .inf s, .fin b => .inf (s != (b < 0))
  | .fin _, .inf _ => .fin 0

/-- `static_cast<float>(double)`. -/
def Dbl.single : Dbl → Dbl
  | .fin q => F32.round q
  | x => x

end Cuttlefish
