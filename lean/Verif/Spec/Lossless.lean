import Verif.Spec.Process
import Verif.Spec.Written
import Verif.Model.Process
import Verif.Model.FloatImage
/-
Images of integers whose values are found again in the file that the tool writes.
-/
namespace Cuttlefish.Spec
variable {H : Type}

/-- The image formats without alpha; their pixels are opaque. -/
def opaqueFormats : List IFormat := [.Gray8, .Gray16, .RGB5, .RGB565, .RGB8, .RGB16]

/-- The integer that a pixel of an image file holds for a channel, with the largest value it can have.  Gray images
have the same value for red, green and blue; the alpha of opaque pixels is the largest value (the 16-bit colours
have no value for it). -/
def sample {N : Type} (f : IFormat) (p : Px N) : Chan → Option (ℕ × ℤ)
  | .R => (integers f p)[0]?
  | .G => (integers f p)[if f ∈ [.Gray8, .Gray16] then 0 else 1]?
  | .B => (integers f p)[if f ∈ [.Gray8, .Gray16] then 0 else 2]?
  | .A => if f ∈ [.Gray8, .RGB8] then some (255, 255)
      else if f ∈ [.Gray16, .RGB16] then some (65535, 65535)
      else (integers f p)[3]?

/-- How far the float of a channel may be from its integer: FreeImage converts colours of 16 bits to 8 bits per
channel first. -/
def closeness (m : ℕ) : ℚ := if m < 255 then 1 / 255 else 1 / 2 ^ 18

/-- A float from 0 to 1 that is near to the integer `v` of `m`. -/
def Near (x : Dbl) (mv : ℕ × ℤ) : Prop :=
  ∃ q : ℚ, x = .fin q ∧ 0 ≤ q ∧ q ≤ 1 ∧ |q - mv.2 / mv.1| ≤ closeness mv.1

/-- The channel of a pixel of four numbers. -/
def Chan.pick {N : Type} (r g b a : N) : Chan → N
  | .R => r
  | .G => g
  | .B => b
  | .A => a

/-- The pixel of floats `p'` has the values of the pixel `p` of an image of integers. -/
def FloatPixel (f : IFormat) (p p' : Px Dbl) : Prop :=
  ∃ r g b a, p' = .nums [r, g, b, a] ∧ (∀ ch mv, sample f p ch = some mv → Near (Chan.pick r g b a ch) mv) ∧
    (f ∈ opaqueFormats → a = .fin 1)

/-- Assumption about FreeImage: its conversions of integer images to `RGBAF`, where they work, keep the values. -/
def ReadsWell (A : Arith Dbl) (FI : FreeImage Dbl) : Prop :=
  ∀ f b b', f ∈ sources → BmpOk A f b → FI.convert f b .RGBAF = some b' →
    ∀ y x, y < b.height → x < b.width → FloatPixel f (b.px y x) (b'.px y x)

/-- A job that does not change colours. -/
structure KeepsValues (c : Cmd H) : Prop where
  space : c.imageColorSpace = c.textureColorSpace
  gray : c.grayscale = false
  normal : c.normalMap = false
  swizzle : c.swizzle = false
  multiply : c.preMultiply = false

/-- A field of `n` bits can hold integers from 0 to `m` without loss. -/
def CanHold (type : TType) (n m : ℕ) : Prop :=
  match type with
  | .UNorm => m = 2 ^ n - 1 ∨ 255 ≤ m ∧ m ∣ 2 ^ n - 1
  | .UInt | .Int => m < 2 ^ n
  | _ => False

/-- The field `d` of `n` bits holds the integer `v` of `m`: the same fraction of the largest value for `UNorm`, the same
integer for `UInt`, and the integer minus half the range for `Int`. -/
def FieldHolds (type : TType) (n m : ℕ) (v : ℤ) (d : ℕ) : Prop :=
  match type with
  | .UNorm => (d : ℤ) * m = v * (2 ^ n - 1)
  | .UInt => (d : ℤ) = v
  | .Int => signedVal n d = v - ((m + 1) / 2 : ℤ)
  | _ => False

/-- The image library that the texture uses is the one that loads and processes images (what is needed of it here). -/
structure SameImages (L : ImageLib (Image Dbl)) : Prop where
  width : ∀ i, L.width i = i.bmp.width
  height : ∀ i, L.height i = i.bmp.height
  format : ∀ i, L.isRGBAF i = decide (i.format = .RGBAF)
  space : ∀ i, L.colorSpace i = i.colorSpace
  change : ∀ i, L.changeColorSpace i i.colorSpace = i

end Cuttlefish.Spec
