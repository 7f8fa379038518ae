import Mathlib.Data.Rat.Floor
import Verif.Model.Geometry
/-
IEEE 754 single precision numbers and the conversions the encoders use.

A float is held in memory as a 32-bit word (`Nat` below 2^32); `F32` is the number it denotes.
Simplification: the two zeros denote the same number.
-/
namespace Cuttlefish

/-- The number denoted by a `float`. -/
inductive F32 where
  | nan
  | inf (neg : Bool)
  | fin (q : ℚ)
  deriving DecidableEq

/-- The number denoted by a 32-bit word (IEEE 754 binary32: sign, 8 exponent bits, 23 fraction
bits). -/
def F32.ofBits (n : Nat) : F32 :=
  let sign : ℚ := if n / 2 ^ 31 % 2 = 1 then -1 else 1
  let e : Nat := n / 2 ^ 23 % 256
  let m : Nat := n % 2 ^ 23
  if e = 255 then (if m = 0 then .inf (n / 2 ^ 31 % 2 = 1) else .nan)
  else if e = 0 then .fin (sign * (m : ℚ) / 2 ^ 149)
  else if e < 150 then .fin (sign * ((2 ^ 23 + m : Nat) : ℚ) / 2 ^ (150 - e))
  else .fin (sign * ((2 ^ 23 + m : Nat) : ℚ) * 2 ^ (e - 150))

/-- 2^e for an integer exponent. -/
def pow2 : Int → ℚ
  | .ofNat n => 2 ^ n
  | .negSucc n => 1 / 2 ^ (n + 1)

/-- The exponent of the binade of a positive rational: the `e` with `2^e ≤ q < 2^(e+1)`. -/
def binade (q : ℚ) : Int :=
  let k : Int := (Nat.log2 q.num.natAbs : Int) - Nat.log2 q.den
  if pow2 k ≤ q then k else k - 1

/-- Round to the nearest integer, ties to even. -/
def roundEven (q : ℚ) : Int :=
  let f := ⌊q⌋
  let r := q - f
  if r < 1 / 2 then f
  else if 1 / 2 < r then f + 1
  else if f % 2 = 0 then f else f + 1

/-- The spacing of floats around `q`. -/
def ulp (q : ℚ) : ℚ := pow2 (max (binade |q|) (-126) - 23)

/-- Nearest multiple of the spacing (24-bit significand, subnormals included), without overflow. -/
def rne (q : ℚ) : ℚ := if q = 0 then 0 else (roundEven (q / ulp q) : ℚ) * ulp q

/-- IEEE rounding of an exact result to single precision (round to nearest, ties to even),
overflowing to infinity. -/
def F32.round (q : ℚ) : F32 :=
  if 2 ^ 128 ≤ |rne q| then .inf (q < 0) else .fin (rne q)

/-- `a < b` on floats (false if one is NaN). -/
def F32.lt : F32 → F32 → Bool
  | .fin a, .fin b => a < b
  | .inf true, .fin _ => true
  | .fin _, .inf false => true
  | .inf true, .inf false => true
  | _, _ => false

/-- `a * b` on floats. -/
def F32.mul : F32 → F32 → F32
  | .fin a, .fin b => F32.round (a * b)
  | .nan, _ => .nan
  | _, .nan => .nan
  | .inf s, .inf t => .inf (s != t)
  | .inf s, .fin b => if b = 0 then .nan else .inf (s != (b < 0))
  | .fin a, .inf t => if a = 0 then .nan else .inf ((a < 0) != t)

/-- `clamp`, lib/src/Shared.h:30-37.  NaN passes through. -/
def clampF (v lo hi : F32) : F32 :=
  if v.lt lo then lo else if hi.lt v then hi else v

/-- Nearest integer, halves away from zero. -/
def roundAwayQ (q : ℚ) : Int := if 0 ≤ q then ⌊q + 1 / 2⌋ else -⌊-q + 1 / 2⌋

/-- `std::round(float)`: exact, halves away from zero. -/
def F32.roundAway : F32 → F32
  | .fin q => .fin (roundAwayQ q)
  | x => x

/-- `static_cast<T>(float)` for an integer type with range `lo..hi`: truncates; undefined for NaN,
infinities and values out of range. -/
def F32.cast (lo hi : Int) : F32 → Res Int
  | .fin q =>
    let t := if 0 ≤ q then ⌊q⌋ else -⌊-q⌋
    if lo ≤ t ∧ t ≤ hi then .ok t else .ub
  | _ => .ub

/-- The two's complement bits of an integer in `n` bits. -/
def bits (n : Nat) (i : Int) : Nat := (i % 2 ^ n).toNat

/-- The bytes of an `n`-byte word in memory; the host is little endian. -/
def leBytes : Nat → Nat → List UInt8
  | 0, _ => []
  | n + 1, v => UInt8.ofNat (v % 256) :: leBytes n (v / 256)

/-- The value of a little endian byte sequence. -/
def leVal : List UInt8 → Nat
  | [] => 0
  | b :: bs => b.toNat + 256 * leVal bs

end Cuttlefish
