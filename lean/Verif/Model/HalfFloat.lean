import Verif.Model.Num
/-
Half float packing with processor instructions: lib/src/HalfFloat.h and lib/src/HalfFloat.cpp.
-/
namespace Cuttlefish

/-- The processor the library is built for, lib/src/HalfFloat.h:25-36: x86 (`CUTTLEFISH_SSE`) with the
register `ecx` that `cpuid` returns for leaf 1, ARM (`CUTTLEFISH_NEON`), or another one. -/
inductive Cpu where
  | sse (ecx : Nat)
  | neon
  | other
  deriving DecidableEq, Repr

/-- `checkHasHardwareHalfFloat`, lib/src/HalfFloat.cpp:42-56; `hasHardwareHalfFloat` (line 58) is its
result. -/
def Cpu.hasHardwareHalfFloat : Cpu → Bool
  | .sse ecx => (ecx &&& (1 <<< 29)) != 0
  | .neon => true
  | .other => false

/-- Exponent, sign excluded, and mantissa bits of the half float nearest to a number `q ≥ 0`, ties to
even: the spacing of half floats at `q` is `2^(e - 10)`, and counting in that spacing gives the bits
directly, because the next binade follows the last mantissa.  Numbers beyond the range are
infinite. -/
def halfMagnitude (q : ℚ) : Nat :=
  if q = 0 then 0
  else
    let e := max (binade q) (-14)
    min 0x7C00 ((e + 14).toNat * 1024 + (roundEven (q / pow2 (e - 10))).toNat)

/-- One lane of `_mm_cvtps_ph(f, 0)` (rounding to nearest, ties to even) or `vcvt_f16_f32`: the
instructions used by `packHardwareHalfFloat1` to `4`, lib/src/HalfFloat.h:61-135.  NaN keeps the upper
bits of its payload and becomes quiet.  Modelled from the description of the instruction; the
floating point environment is the default one (rounding to nearest, subnormal numbers kept). -/
def hardwareHalf (w : Nat) : Nat :=
  w / 2 ^ 31 % 2 * 2 ^ 15 +
    match F32.ofBits w with
    | .nan => 0x7E00 ||| (w % 2 ^ 23 / 2 ^ 13)
    | .inf _ => 0x7C00
    | .fin q => halfMagnitude |q|

end Cuttlefish
