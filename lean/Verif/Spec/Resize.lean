import Verif.Model.Mips3d
import Verif.Spec.Exact
/-
Specification of averaging: a colour whose channels are between those of the source.
-/
namespace Cuttlefish.Spec

/-- The channels of a colour. -/
def colorChannels : List (Color ℝ → ℝ) := [Color.r, Color.g, Color.b, Color.a]

/-- Every channel of `d` is, up to `e`, between the smallest and the largest one in `S`. -/
def Between (e : ℝ) (S : Color ℝ → Prop) (d : Color ℝ) : Prop :=
  ∀ ch ∈ colorChannels, (∃ c, S c ∧ ch c - e ≤ ch d) ∧ ∃ c, S c ∧ ch d ≤ ch c + e

/-- The colours of an image. -/
def Colors (i : Image ℝ) (c : Color ℝ) : Prop := ∃ x y, i.getPixel Arith.exact x y = .ok (some c)

/-- The colours of all slices at a position. -/
def SliceColors (prev : List (Image ℝ)) (y x : Nat) (c : Color ℝ) : Prop :=
  ∃ i ∈ prev, i.getPixel Arith.exact x y = .ok (some c)

/-- The code resizes without FreeImage: it does not ask it, or FreeImage fails. -/
def OwnFilter {N : Type} (FI : FreeImage N) (i : Image N) (w h : Nat) (filter : ResizeFilter) : Prop :=
  (filter = .Box ∨ filter = .Linear) ∧ (i.format ∈ [.Int16, .Int32, .UInt32, .Double, .Complex] ∨
    ∀ b, FI.rescale b w h filter = none)

/-- The code resizes with its box or linear filter, or FreeImage does it and gives averages as well. -/
def AverageFilter (FI : FreeImage ℝ) (f : IFormat) (w h : Nat) (filter : ResizeFilter) : Prop :=
  (filter = .Box ∨ filter = .Linear) ∧ (f ∈ [.Int16, .Int32, .UInt32, .Double, .Complex] ∨
    ∀ b b' cs, FI.rescale b w h filter = some b' →
      ∀ d, Colors ⟨f, cs, b'⟩ d → Between 0 (Colors ⟨f, cs, b⟩) d)

/-- An image whose pixels can be counted with 32 bits. -/
def Countable {N : Type} (i : Image N) : Prop :=
  0 < i.bmp.width ∧ 0 < i.bmp.height ∧ i.bmp.width < 2 ^ 31 ∧ i.bmp.height < 2 ^ 31 ∧
    i.bmp.width * i.bmp.height < 2 ^ 32

/-- A bound on the number of source pixels that are averaged for one pixel of a resized image: those in a window of
twice the size ratio, rounded up, in each direction. -/
def windowPixels {N : Type} (i : Image N) (w h : Nat) : Nat :=
  min (i.bmp.width * i.bmp.height) ((2 * (i.bmp.height / h + 1) + 1) * (2 * (i.bmp.width / w + 1) + 1))

/-- The formats whose channels are limited to 0 to 1, or floating point numbers. -/
def NotInteger (f : IFormat) : Prop := f ∉ [.Invalid, .Int16, .UInt16, .Int32, .UInt32]

/-- A finite number of magnitude at most `2 ^ e`. -/
def Within (e : ℕ) (v : Dbl) : Prop := ∃ q : ℚ, v = .fin q ∧ |q| ≤ 2 ^ e

/-- A colour with finite channels of magnitude at most `2 ^ e`. -/
def Limited (e : ℕ) (c : Color Dbl) : Prop := Within e c.r ∧ Within e c.g ∧ Within e c.b ∧ Within e c.a

/-- A finite number from `lo` to `hi`. -/
def Ranged (lo hi : ℚ) (v : Dbl) : Prop := ∃ q : ℚ, v = .fin q ∧ lo ≤ q ∧ q ≤ hi

/-- A colour whose channels are finite and in these ranges. -/
def RangedColor (lo hi : Color ℚ) (c : Color Dbl) : Prop :=
  Ranged lo.r hi.r c.r ∧ Ranged lo.g hi.g c.g ∧ Ranged lo.b hi.b c.b ∧ Ranged lo.a hi.a c.a

/-- The channels of a colour of doubles. -/
def doubleChannels : List (Color Dbl → Dbl) := [Color.r, Color.g, Color.b, Color.a]

/-- The colours of an image of doubles. -/
def DoubleColors (L : Libm) (i : Image Dbl) (c : Color Dbl) : Prop :=
  ∃ x y, i.getPixel (Arith.ieee L) x y = .ok (some c)

/-- The colours of all slices of doubles at a position. -/
def SliceDoubles (L : Libm) (prev : List (Image Dbl)) (y x : Nat) (c : Color Dbl) : Prop :=
  ∃ i ∈ prev, i.getPixel (Arith.ieee L) x y = .ok (some c)

/-- All channels are finite. -/
def FiniteColor (c : Color Dbl) : Prop := ∀ ch ∈ doubleChannels, ∃ q : ℚ, ch c = .fin q

/-- Every channel of `d` is finite, and between the smallest and the largest one in `S`. -/
def BetweenDoubles (S : Color Dbl → Prop) (d : Color Dbl) : Prop :=
  ∀ ch ∈ doubleChannels, ∃ lo hi q : ℚ, ch d = .fin q ∧ lo ≤ q ∧ q ≤ hi ∧
    (∃ c, S c ∧ ch c = .fin lo) ∧ ∃ c, S c ∧ ch c = .fin hi

/-- With rounding: the code resizes with its box or linear filter, or FreeImage does it and gives averages of finite
colours as well. -/
def AverageDoubles (L : Libm) (FI : FreeImage Dbl) (f : IFormat) (w h : Nat) (filter : ResizeFilter) : Prop :=
  (filter = .Box ∨ filter = .Linear) ∧ ∀ b b' cs, FI.rescale b w h filter = some b' →
    (∀ c, DoubleColors L ⟨f, cs, b⟩ c → FiniteColor c) →
      ∀ d, DoubleColors L ⟨f, cs, b'⟩ d → BetweenDoubles (DoubleColors L ⟨f, cs, b⟩) d

/-- All colours of an image of doubles are limited. -/
def LimitedImage (L : Libm) (e : ℕ) (i : Image Dbl) : Prop :=
  ∀ x y c, i.getPixel (Arith.ieee L) x y = .ok (some c) → Limited e c

end Cuttlefish.Spec
