import Mathlib.Data.Rat.Floor
import Verif.Model.Num
import Verif.Spec.Formats
import Verif.Model.Encode
/-
Specification of stored channel values: how a texel of an uncompressed format is decoded, and what
number a channel denotes after clamping.  Uses only the format names (`layout`) and the IEEE
decoding of words.
-/
namespace Cuttlefish.Spec

/-- A channel value clamped to `lo..hi`; NaN has no clamped value. -/
def clampVal (lo hi : ℚ) : F32 → Option ℚ
  | .nan => none
  | .inf true => some lo
  | .inf false => some hi
  | .fin q => some (max lo (min hi q))

/-- Total number of bits of the channels. -/
def bitsOf (cs : List (Chan × Nat)) : Nat := (cs.map Prod.snd).sum

/-- The fields of a packed word: the first channel is in the most significant bits. -/
def wordFields : List (Chan × Nat) → Nat → List (Chan × Nat)
  | [], _ => []
  | (c, n) :: cs, w => (c, w / 2 ^ bitsOf cs % 2 ^ n) :: wordFields cs w

/-- The fields of an array of whole-byte channels: the first channel comes first in memory. -/
def arrayFields : List (Chan × Nat) → List UInt8 → List (Chan × Nat)
  | [], _ => []
  | (c, n) :: cs, bs => (c, leVal (bs.take (n / 8))) :: arrayFields cs (bs.drop (n / 8))

/-- Are all channels whole bytes? -/
def isArray (cs : List (Chan × Nat)) : Bool := cs.all (fun c => c.2 % 8 == 0)

/-- The channel fields stored in the bytes of one texel. -/
def texelFields (cs : List (Chan × Nat)) (bs : List UInt8) : List (Chan × Nat) :=
  if isArray cs then arrayFields cs bs else wordFields cs (leVal bs)

/-- The value of an `n`-bit two's complement field. -/
def signedVal (n w : Nat) : ℤ := if w < 2 ^ (n - 1) then w else (w : ℤ) - 2 ^ n

end Cuttlefish.Spec

namespace Cuttlefish

/-- A channel of a pixel. -/
def Spec.Chan.of (c : Spec.Chan) (p : Pixel) : Nat :=
  match c with
  | .R => p.r
  | .G => p.g
  | .B => p.b
  | .A => p.a

namespace Spec

/-- The value `w` can be converted to an `n`-bit channel of type `t`: it is not NaN, and for 32-bit
integers it is below the first power of two that does not fit.  (`w` is a 32-bit word.) -/
def Storable (t : TType) (n w : Nat) : Prop :=
  w < 2 ^ 32 ∧ F32.ofBits w ≠ .nan ∧
  (t = .UInt → n = 32 → (F32.ofBits w).lt (.fin (2 ^ 32)) = true) ∧
  (t = .Int → n = 32 → (F32.ofBits w).lt (.fin (2 ^ 31)) = true)

/-- The field `d` is the `n`-bit unsigned normalised value closest to the clamped channel, up to
the rounding of one single precision product. -/
def IsUNorm (n w d : Nat) : Prop :=
  ∃ c, clampVal 0 1 (F32.ofBits w) = some c ∧ d ≤ 2 ^ n - 1 ∧
    |(d : ℚ) - c * (2 ^ n - 1)| ≤ 1 / 2 + 2 ^ n / 2 ^ 25

/-- Same for signed normalised values; the most negative value is not used. -/
def IsSNorm (n w d : Nat) : Prop :=
  ∃ c, clampVal (-1) 1 (F32.ofBits w) = some c ∧ d < 2 ^ n ∧
    -(2 ^ (n - 1) - 1) ≤ signedVal n d ∧
    |(signedVal n d : ℚ) - c * (2 ^ (n - 1) - 1)| ≤ 1 / 2 + 2 ^ (n - 1) / 2 ^ 25

/-- The field is the nearest unsigned integer in range. -/
def IsUInt (n w d : Nat) : Prop :=
  ∃ c, clampVal 0 (2 ^ n - 1) (F32.ofBits w) = some c ∧ d ≤ 2 ^ n - 1 ∧ |(d : ℚ) - c| ≤ 1 / 2

/-- The field is the nearest signed integer in range. -/
def IsInt (n w d : Nat) : Prop :=
  ∃ c, clampVal (-2 ^ (n - 1)) (2 ^ (n - 1) - 1) (F32.ofBits w) = some c ∧ d < 2 ^ n ∧
    |(signedVal n d : ℚ) - c| ≤ 1 / 2

/-- What a stored field of each type must be.  Float formats of 32 bits store the word itself. -/
def IsStored (t : TType) (n w d : Nat) : Prop :=
  match t with
  | .UNorm => IsUNorm n w d
  | .SNorm => IsSNorm n w d
  | .UInt => IsUInt n w d
  | .Int => IsInt n w d
  | .Float | .UFloat => d = w

end Cuttlefish.Spec
