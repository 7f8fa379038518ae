import Verif.Model.Arith
/-
Specification of storing a colour in a pixel: which colours can be stored, and what is read back.
Numbers are those of IEEE arithmetic: `.fin q`, infinities and NaN; `Dbl.ofQ q` is the double nearest
to `q`, `Dbl.single` the conversion to `float`.
-/
namespace Cuttlefish.Spec

/-- A channel limited to the range 0 to 1; NaN has no place in it. -/
def limited : Dbl → Option ℚ
  | .nan => none
  | .inf neg => some (if neg then 0 else 1)
  | .fin q => some (max (min q 1) 0)

/-- Stored as an integer from 0 to `m` that stands for 0 to 1: the integer is the nearest one to
within the rounding of the multiplication. -/
def NormAs (m : Nat) (c d : Dbl) : Prop :=
  ∃ (q : ℚ) (k : ℤ), limited c = some q ∧ 0 ≤ k ∧ k ≤ m ∧ |k - m * q| ≤ 1 / 2 + 1 / 2 ^ 38 ∧
    d = Dbl.ofQ (k / m)

/-- Stored as an integer from `lo` to `hi`, cut off towards zero. -/
def IntAs (lo hi : ℤ) (c d : Dbl) : Prop :=
  ∃ (q : ℚ) (t : ℤ), c = .fin q ∧ d = .fin t ∧ lo ≤ t ∧ t ≤ hi ∧ |q - t| < 1 ∧ |(t : ℚ)| ≤ |q| ∧ 0 ≤ t * q

/-- Stored as a `float`. -/
def FloatAs (c d : Dbl) : Prop := d = Dbl.single c

/-- The number of a grey pixel is read as red, green and blue. -/
def Grey (d : Color Dbl) : Prop := d.g = d.r ∧ d.b = d.r ∧ d.a = .fin 1

/-- What is read back (`d`) after the colour `c` is stored, if grey pixels take the red channel. -/
def ReadBack : IFormat → Color Dbl → Color Dbl → Prop
  | .Gray8, c, d => NormAs 255 c.r d.r ∧ Grey d
  | .Gray16, c, d => NormAs 65535 c.r d.r ∧ Grey d
  | .RGB5, c, d => NormAs 31 c.r d.r ∧ NormAs 31 c.g d.g ∧ NormAs 31 c.b d.b ∧ d.a = .fin 1
  | .RGB565, c, d => NormAs 31 c.r d.r ∧ NormAs 63 c.g d.g ∧ NormAs 31 c.b d.b ∧ d.a = .fin 1
  | .RGB8, c, d => NormAs 255 c.r d.r ∧ NormAs 255 c.g d.g ∧ NormAs 255 c.b d.b ∧ d.a = .fin 1
  | .RGB16, c, d => NormAs 65535 c.r d.r ∧ NormAs 65535 c.g d.g ∧ NormAs 65535 c.b d.b ∧ d.a = .fin 1
  | .RGBF, c, d => FloatAs c.r d.r ∧ FloatAs c.g d.g ∧ FloatAs c.b d.b ∧ d.a = .fin 1
  | .RGBA8, c, d => NormAs 255 c.r d.r ∧ NormAs 255 c.g d.g ∧ NormAs 255 c.b d.b ∧ NormAs 255 c.a d.a
  | .RGBA16, c, d =>
    NormAs 65535 c.r d.r ∧ NormAs 65535 c.g d.g ∧ NormAs 65535 c.b d.b ∧ NormAs 65535 c.a d.a
  | .RGBAF, c, d => FloatAs c.r d.r ∧ FloatAs c.g d.g ∧ FloatAs c.b d.b ∧ FloatAs c.a d.a
  | .Int16, c, d => IntAs (-2 ^ 15) (2 ^ 15 - 1) c.r d.r ∧ Grey d
  | .UInt16, c, d => IntAs 0 (2 ^ 16 - 1) c.r d.r ∧ Grey d
  | .Int32, c, d => IntAs (-2 ^ 31) (2 ^ 31 - 1) c.r d.r ∧ Grey d
  | .UInt32, c, d => IntAs 0 (2 ^ 32 - 1) c.r d.r ∧ Grey d
  | .Float, c, d => FloatAs c.r d.r ∧ Grey d
  | .Double, c, d => d.r = c.r ∧ Grey d
  | .Complex, c, d => d.r = c.r ∧ d.g = c.g ∧ d.b = .fin 0 ∧ d.a = .fin 1
  | .Invalid, _, _ => False

/-- A number that an integer type can hold after it is cut off towards zero. -/
def InRange (lo hi : ℤ) (c : Dbl) : Prop := ∃ q : ℚ, c = .fin q ∧ (lo : ℚ) - 1 < q ∧ q < hi + 1

/-- The colours that can be stored. -/
def Keepable : IFormat → Color Dbl → Prop
  | .Gray8, c | .Gray16, c => c.r ≠ .nan
  | .RGB5, c | .RGB565, c | .RGB8, c | .RGB16, c => c.r ≠ .nan ∧ c.g ≠ .nan ∧ c.b ≠ .nan
  | .RGBA8, c | .RGBA16, c => c.r ≠ .nan ∧ c.g ≠ .nan ∧ c.b ≠ .nan ∧ c.a ≠ .nan
  | .Int16, c => InRange (-2 ^ 15) (2 ^ 15 - 1) c.r
  | .UInt16, c => InRange 0 (2 ^ 16 - 1) c.r
  | .Int32, c => InRange (-2 ^ 31) (2 ^ 31 - 1) c.r
  | .UInt32, c => InRange 0 (2 ^ 32 - 1) c.r
  | .RGBF, _ | .RGBAF, _ | .Float, _ | .Double, _ | .Complex, _ => True
  | .Invalid, _ => False

/-- The luminance of a colour. -/
def luma (r g b : ℚ) : ℚ := 0.2126 * r + 0.7152 * g + 0.0722 * b

/-- What is read back after a colour with luminance `y` is stored in a grey pixel. -/
def GreyBack : IFormat → ℚ → Color Dbl → Prop
  | .Gray8, y, d => (∃ k : ℤ, |k - 255 * max (min y 1) 0| ≤ 1 / 2 + 1 / 2 ^ 33 ∧ 0 ≤ k ∧ k ≤ 255 ∧
      d.r = Dbl.ofQ (k / 255)) ∧ Grey d
  | .Gray16, y, d => (∃ k : ℤ, |k - 65535 * max (min y 1) 0| ≤ 1 / 2 + 1 / 2 ^ 33 ∧ 0 ≤ k ∧ k ≤ 65535 ∧
      d.r = Dbl.ofQ (k / 65535)) ∧ Grey d
  | .Float, y, d => (∃ v : ℚ, |v - y| ≤ 1 / 2 ^ 23 ∧ d.r = .fin v) ∧ Grey d
  | .Double, y, d => (∃ v : ℚ, |v - y| ≤ 1 / 2 ^ 50 ∧ d.r = .fin v) ∧ Grey d
  | _, _, _ => False

end Cuttlefish.Spec
