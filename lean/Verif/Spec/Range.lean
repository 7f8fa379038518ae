import Verif.Spec.Unit
import Verif.Spec.Sqrt
import Verif.Spec.Process
import Verif.Props.C36
/-
The range of the values in a texture of the tool.
-/
namespace Cuttlefish.Spec

/-- A colour whose channels are finite numbers from `lo` to `hi`. -/
def RangeColor (lo hi : ℚ) (c : Color Dbl) : Prop := ∀ ch ∈ doubleChannels, Ranged lo hi (ch c)

/-- All colours of the image are from `lo` to `hi`. -/
def RangeImage (L : Libm) (lo hi : ℚ) (i : Image Dbl) : Prop := ∀ c, DoubleColors L i c → RangeColor lo hi c

/-- Assumption about FreeImage: converting to floats does not leave a range. -/
def RangeConvert (L : Libm) (FI : FreeImage Dbl) (lo hi : ℚ) : Prop :=
  ∀ f cs b b', BmpOk (Arith.ieee L) f b → RangeImage L lo hi ⟨f, cs, b⟩ → FI.convert f b .RGBAF = some b' →
    RangeImage L lo hi ⟨.RGBAF, cs, b'⟩

/-- Assumption about FreeImage: if it resizes images of floats with this filter, it does not leave a range.  (With the filters
that have negative weights it does.) -/
def RangeFilter (L : Libm) (FI : FreeImage Dbl) (lo hi : ℚ) (filter : ResizeFilter) : Prop :=
  ∀ f cs b w h b', IsFloat f → BmpOk (Arith.ieee L) f b → RangeImage L lo hi ⟨f, cs, b⟩ →
    FI.rescale b w h filter = some b' → RangeImage L lo hi ⟨f, cs, b'⟩

/-- Ranges from 0 or a negative power of two to a power of two. -/
def PowerRange (lo hi : ℚ) : Prop := (lo = 0 ∨ ∃ a : ℕ, a ≤ 64 ∧ lo = -2 ^ a) ∧ ∃ b : ℕ, b ≤ 64 ∧ hi = 2 ^ b

/-- The calls of a texture with linear colours, with images and a filter of the range. -/
def RangeCall (L : Libm) (FI : FreeImage Dbl) (lo hi : ℚ) : Op (Image Dbl) → Prop
  | .initialize _ _ _ _ _ cs => cs = .Linear
  | .setImage img _ _ _ _ => ∀ g, img = some g → RangeImage L lo hi g ∧ g.colorSpace = .Linear
  | .generateMipmaps filter _ custom => RangeFilter L FI lo hi filter ∧
      ∀ e ∈ custom, ∀ g, e.2.image = some (some g) → RangeImage L lo hi g ∧ g.colorSpace = .Linear
  | _ => True

/-- The types with negative values. -/
def signedTypes : List TType := [.SNorm, .Int, .Float]

/-- The range of the values that the tool gives to the pixels of a texture.  Images of integers have at most 16 bits. -/
def jobRange {H : Type} (c : Cmd H) : ℚ × ℚ :=
  if c.normalMap then (if c.type ∈ signedTypes then (-1, 1) else (0, 1))
  else match c.type with
    | .SNorm => (-1, 1)
    | .UInt => (0, 2 ^ 16)
    | .Int => (-2 ^ 15, 2 ^ 15)
    | _ => (0, 1)

/-- The job resizes with filters that do not leave the range, and the images that it reads have colours from 0 to 1.  If it
makes normal maps: the height is finite and at most 2^64, the option to keep the sign is left to the type, and the pixels of
the size that is asked for can be counted with 32 bits. -/
structure RangeJob (L : Libm) (FI : FreeImage Dbl) (read : Str → ColorSpace → Img? Dbl) (c : Cmd Dbl) : Prop where
  filter : UnitFilter L FI c.resizeFilter
  mipFilter : RangeFilter L FI (jobRange c).1 (jobRange c).2 c.mipFilter
  reads : ∀ p i, read p c.imageColorSpace = some i → UnitImage L i
  normal : c.normalMap = true → c.normalOptions.keepSign = false ∧ (∃ h : ℚ, c.normalHeight = .fin h ∧ |h| ≤ 2 ^ 64) ∧
    RangeFilter L FI (jobRange c).1 (jobRange c).2 c.resizeFilter
  sizes : c.normalMap = true → c.images ≠ [] ∧ GivenSizes c ∧
    ∀ p first, c.images.head? = some p → read p c.imageColorSpace = some first → ∀ w h,
      SizeFor first.bmp.width first.bmp.width first.bmp.height (sizeOfInt c.width) w →
      SizeFor first.bmp.height first.bmp.width first.bmp.height (sizeOfInt c.height) h → Counts (w, h)

end Cuttlefish.Spec
