import Verif.Model.Arith
import Verif.Spec.Image
/-
Specification of the adjustment of value ranges: the integers an image holds, and images of floats
that stand for them.
-/
namespace Cuttlefish.Spec

/-- The image formats whose components are integers that stand for 0 to 1. -/
def sources : List IFormat := [.Gray8, .Gray16, .RGB5, .RGB565, .RGB8, .RGB16, .RGBA8, .RGBA16]

/-- The floating point formats that are adjusted. -/
def floats : List IFormat := [.Float, .RGBF, .RGBAF]

/-- The floating point format with the same channels. -/
def floatOf : IFormat → IFormat
  | .Gray8 | .Gray16 => .Float
  | .RGBA8 | .RGBA16 => .RGBAF
  | _ => .RGBF

/-- The largest value of a channel of a source format; the 5 and 6 bit formats have no fourth
channel. -/
def largest : IFormat → Nat → Option ℕ
  | .Gray8, _ | .RGB8, _ | .RGBA8, _ => some 255
  | .Gray16, _ | .RGB16, _ | .RGBA16, _ => some 65535
  | .RGB5, k => [31, 31, 31][k]?
  | .RGB565, k => [31, 63, 31][k]?
  | _, _ => none

/-- The integers of a pixel with their largest values. -/
def integers {N : Type} : IFormat → Px N → List (ℕ × ℤ)
  | .RGB5, .ints [w] => [(31, w / 1024 % 32), (31, w / 32 % 32), (31, w % 32)]
  | .RGB565, .ints [w] => [(31, w / 2048 % 32), (63, w / 32 % 64), (31, w % 32)]
  | .Gray8, .ints vs | .RGB8, .ints vs | .RGBA8, .ints vs => vs.map (fun v => (255, v))
  | .Gray16, .ints vs | .RGB16, .ints vs | .RGBA16, .ints vs => vs.map (fun v => (65535, v))
  | _, _ => []

/-- The lowest integer of the type: 0, or for signed integers of the width of `m` the negative half of
the range. -/
def lowest (type : TType) (m : ℕ) : ℤ := if type = .Int then -((m + 1) / 2 : ℤ) else 0

/-- A float that stands for the integer `v` of `m`, between 0 and 1. -/
def StandsFor (x : Dbl) (mv : ℕ × ℤ) : Prop :=
  ∃ q : ℚ, x = .fin q ∧ 0 ≤ q ∧ q ≤ 1 ∧ |q - mv.2 / mv.1| ≤ 1 / 2 ^ 18

/-- An image of floats for an image of integers. -/
def FloatsOf (i j : Image Dbl) : Prop :=
  j.format = floatOf i.format ∧ j.bmp.width = i.bmp.width ∧ j.bmp.height = i.bmp.height ∧
    ∀ y x, y < i.bmp.height → x < i.bmp.width →
      ∃ l, j.bmp.px y x = .nums l ∧ List.Forall₂ StandsFor l (integers i.format (i.bmp.px y x))

/-- Assumption about FreeImage: its conversions of integer images to floats, where they work, stand for
the same integers. -/
def ConvertsWell (A : Arith Dbl) (FI : FreeImage Dbl) : Prop :=
  ∀ f b b' cs, f ∈ sources → (∀ y x, y < b.height → x < b.width → PxOk A f (b.px y x)) →
    FI.convert f b (floatOf f) = some b' → FloatsOf ⟨f, cs, b⟩ ⟨floatOf f, cs, b'⟩

/-- The brightness that the library computes for a grey of an sRGB image, through linear values and back, stands for the
same integer.  (It does if `pow` is accurate, see C32Rounded.) -/
def GreyStands (L : Libm) : Prop :=
  ∀ (m : ℕ) (v : ℤ), m = 255 ∨ m = 65535 → 0 ≤ v → v ≤ m →
    StandsFor (Dbl.single ((Arith.ieee L).linearToSRGB ((Arith.ieee L).toGrayscale
      ((Arith.ieee L).sRGBToLinear ((Arith.ieee L).fromNorm m v)) ((Arith.ieee L).sRGBToLinear ((Arith.ieee L).fromNorm m v))
      ((Arith.ieee L).sRGBToLinear ((Arith.ieee L).fromNorm m v))))) (m, v)

end Cuttlefish.Spec
