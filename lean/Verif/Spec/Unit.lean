import Verif.Spec.Resize
import Verif.Spec.ImageCalls
/-
Colours from 0 to 1, and the assumptions about the libraries that keep them there.
-/
namespace Cuttlefish.Spec

/-- A colour whose channels are finite numbers from 0 to 1. -/
def UnitColor (c : Color Dbl) : Prop := ∀ ch ∈ doubleChannels, Ranged 0 1 (ch c)

/-- All colours of the image are from 0 to 1. -/
def UnitImage (L : Libm) (i : Image Dbl) : Prop := ∀ c, DoubleColors L i c → UnitColor c

/-- Assumption about `pow` of the C library: powers of numbers from 0 to 1 are from 0 to 1, and accurate to three digits
(the actual function is accurate to the last bits). -/
def UnitPow (L : Libm) : Prop :=
  ∀ x y : ℚ, 0 ≤ x → x ≤ 1 → 0 < y → ∃ z : ℚ, L.pow (.fin x) (.fin y) = .fin z ∧ 0 ≤ z ∧ z ≤ 1 ∧
    |(z : ℝ) - (x : ℝ) ^ (y : ℝ)| ≤ 1 / 1000

/-- Assumption about `pow` of the C library: the same, and accurate to 50 bits after the point (the errors of actual
functions are below the last of 53 bits). -/
def AccuratePow (L : Libm) : Prop :=
  ∀ x y : ℚ, 0 ≤ x → x ≤ 1 → 0 < y → ∃ z : ℚ, L.pow (.fin x) (.fin y) = .fin z ∧ 0 ≤ z ∧ z ≤ 1 ∧
    |(z : ℝ) - (x : ℝ) ^ (y : ℝ)| ≤ 1 / 2 ^ 50

/-- Every channel of `d` is finite, and at most `e` below the smallest or above the largest one in `S`. -/
def CloseDoubles (e : ℚ) (S : Color Dbl → Prop) (d : Color Dbl) : Prop :=
  ∀ ch ∈ doubleChannels, ∃ lo hi q : ℚ, ch d = .fin q ∧ lo - e ≤ q ∧ q ≤ hi + e ∧
    (∃ c, S c ∧ ch c = .fin lo) ∧ ∃ c, S c ∧ ch c = .fin hi

/-- Assumption about FreeImage: converting to floats does not leave the range 0 to 1. -/
def UnitConvert (L : Libm) (FI : FreeImage Dbl) : Prop :=
  ∀ f cs b b', BmpOk (Arith.ieee L) f b → UnitImage L ⟨f, cs, b⟩ → FI.convert f b .RGBAF = some b' →
    UnitImage L ⟨.RGBAF, cs, b'⟩

/-- Assumption about FreeImage: if it resizes images of floats with this filter, it does not leave the range 0 to 1.
(With the filters that have negative weights it does.) -/
def UnitFilter (L : Libm) (FI : FreeImage Dbl) (filter : ResizeFilter) : Prop :=
  ∀ f cs b w h b', IsFloat f → BmpOk (Arith.ieee L) f b → UnitImage L ⟨f, cs, b⟩ → FI.rescale b w h filter = some b' →
    UnitImage L ⟨f, cs, b'⟩

/-- All images that are given have colours from 0 to 1, and mipmaps are made with a filter that keeps them there. -/
def UnitCall (L : Libm) (FI : FreeImage Dbl) : Op (Image Dbl) → Prop
  | .setImage img _ _ _ _ => ∀ g, img = some g → UnitImage L g
  | .generateMipmaps filter _ custom => UnitFilter L FI filter ∧
      ∀ e ∈ custom, ∀ g, e.2.image = some (some g) → UnitImage L g
  | _ => True

/-- The job makes no normal map, its type is not one of those that the tool gives another range, it resizes with a filter
that keeps colours from 0 to 1, and the images that it reads have such colours. -/
structure UnitJob (L : Libm) (FI : FreeImage Dbl) (read : Str → ColorSpace → Img? Dbl) (c : Cmd Dbl) : Prop where
  normal : c.normalMap = false
  type : c.type ∉ [TType.SNorm, .UInt, .Int]
  filter : UnitFilter L FI c.resizeFilter
  mipFilter : UnitFilter L FI c.mipFilter
  read : ∀ p i, read p c.imageColorSpace = some i → UnitImage L i

end Cuttlefish.Spec
