import Verif.Spec.Resize
import Verif.Spec.Image
import Verif.Spec.MipChain
/-
Which colours the levels of a mip chain may have, for textures of the modelled images.
-/
namespace Cuttlefish.Spec
variable {N : Type}

/-- An image that is not empty. -/
def RealImage (A : Arith N) (i : Image N) : Prop := ImgOk A i ∧ 0 < i.bmp.width ∧ 0 < i.bmp.height

/-- The image library of the texture is the modelled class `Image`, wherever its methods are defined. -/
structure UsesImages (A : Arith N) (FI : FreeImage N) (L : ImageLib (Image N)) : Prop where
  width : ∀ i, L.width i = i.bmp.width
  height : ∀ i, L.height i = i.bmp.height
  format : ∀ i, L.isRGBAF i = decide (i.format = .RGBAF)
  space : ∀ i, L.colorSpace i = i.colorSpace
  convert : ∀ i r, RealImage A i → i.convert A FI .RGBAF true = .ok r → L.toRGBAF i = r
  change : ∀ i cs j, RealImage A i → i.changeColorSpace A cs = .ok j → L.changeColorSpace i cs = j
  resize : ∀ i w h filter r, RealImage A i → i.resize A FI w h filter = .ok r → L.resize i w h filter = r
  mip3d : ∀ prev w h depth d cs filter j, (∀ i ∈ prev, RealImage A i) →
    mipSlice3d A FI prev w h depth cs filter d = .ok j → L.mip3d prev w h depth d cs filter = j

/-- How far one resize may leave the range of the source: sRGB colours are converted to linear ones and back, with
constants that are not exact. -/
noncomputable def drift : ColorSpace → ℝ
  | .Linear => 0
  | .sRGB => 2 / 10 ^ 7

/-- An image of floats in a colour space. -/
structure FloatImage (A : Arith N) (cs : ColorSpace) (i : Image N) : Prop where
  ok : ImgOk A i
  format : i.format = .RGBAF
  space : i.colorSpace = cs

/-- All custom images have valid pointers to images of floats in the colour space of the texture. -/
def FloatCustom (A : Arith N) (cs : ColorSpace) (custom : CustomMips (Image N)) : Prop :=
  ∀ e ∈ custom, ∃ g, e.2.image = some (some g) ∧ FloatImage A cs g ∧ Countable g

/-- The colours of an image. -/
def ImageColors (A : Arith N) (i : Image N) (c : Color N) : Prop := ∃ x y, i.getPixel A x y = .ok (some c)

/-- The colours that level `m` of a chain is made of: those of the base image and of the custom images of the chain up
to this level. -/
def ChainColors (A : Arith N) (base : Image N) (custom : CustomMips (Image N)) (cf : CubeFace) (d m : ℕ) (c : Color N) :
    Prop :=
  ImageColors A base c ∨
    ∃ k ≤ m, ∃ e g, CustomMips.find custom ⟨cf, k, d⟩ = some e ∧ e.image = some (some g) ∧ ImageColors A g c

/-- The colours that level `m` of a 3D texture is made of: those of all slices of the base level and of the custom
images up to this level. -/
def VolumeColors (A : Arith N) (base : List (Image N)) (custom : CustomMips (Image N)) (m : ℕ) (c : Color N) : Prop :=
  (∃ g ∈ base, ImageColors A g c) ∨
    ∃ k ≤ m, ∃ s e g, CustomMips.find custom ⟨.PosX, k, s⟩ = some e ∧ e.image = some (some g) ∧ ImageColors A g c

/-- A finite image of doubles of which no more than 2^24 pixels can be averaged. -/
def SmallDoubles (L : Libm) (i : Image Dbl) : Prop :=
  i.bmp.width * i.bmp.height ≤ 2 ^ 24 ∧ ∀ c, DoubleColors L i c → FiniteColor c

end Cuttlefish.Spec
