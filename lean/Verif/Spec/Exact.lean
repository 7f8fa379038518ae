import Verif.Model.Arith
/-
Specification of storing a colour in exact arithmetic: what a pixel of each format keeps of a colour
with real channels, and the colour-space functions of the sRGB standard.
-/
namespace Cuttlefish.Spec
noncomputable section

/-- The multiple of `1/m` in [0, 1] nearest to `x`, the upper one of two. -/
def nearest (m : Nat) (x : ℝ) : ℝ := (⌊max (min x 1) 0 * m + 1 / 2⌋ : ℝ) / m

/-- `x` without its fraction. -/
def whole (x : ℝ) : ℤ := if 0 ≤ x then ⌊x⌋ else ⌈x⌉

/-- A grey colour. -/
def grey (v : ℝ) : Color ℝ := ⟨v, v, v, 1⟩

/-- What is read back after the colour `c` is stored. -/
def stored : IFormat → Color ℝ → Color ℝ
  | .Gray8, c => grey (nearest 255 c.r)
  | .Gray16, c => grey (nearest 65535 c.r)
  | .RGB5, c => ⟨nearest 31 c.r, nearest 31 c.g, nearest 31 c.b, 1⟩
  | .RGB565, c => ⟨nearest 31 c.r, nearest 63 c.g, nearest 31 c.b, 1⟩
  | .RGB8, c => ⟨nearest 255 c.r, nearest 255 c.g, nearest 255 c.b, 1⟩
  | .RGB16, c => ⟨nearest 65535 c.r, nearest 65535 c.g, nearest 65535 c.b, 1⟩
  | .RGBF, c => ⟨c.r, c.g, c.b, 1⟩
  | .RGBA8, c => ⟨nearest 255 c.r, nearest 255 c.g, nearest 255 c.b, nearest 255 c.a⟩
  | .RGBA16, c => ⟨nearest 65535 c.r, nearest 65535 c.g, nearest 65535 c.b, nearest 65535 c.a⟩
  | .RGBAF, c => c
  | .Int16, c | .UInt16, c | .Int32, c | .UInt32, c => grey (whole c.r)
  | .Float, c | .Double, c => grey c.r
  | .Complex, c => ⟨c.r, c.g, 0, 1⟩
  | .Invalid, c => c

/-- The integers a pixel of an integer format holds. -/
def intRange : IFormat → Option (ℤ × ℤ)
  | .Int16 => some (-2 ^ 15, 2 ^ 15 - 1)
  | .UInt16 => some (0, 2 ^ 16 - 1)
  | .Int32 => some (-2 ^ 31, 2 ^ 31 - 1)
  | .UInt32 => some (0, 2 ^ 32 - 1)
  | _ => none

/-- The colour can be stored: for the integer formats the integer is in range. -/
def Fitting (f : IFormat) (c : Color ℝ) : Prop :=
  f ≠ .Invalid ∧ ∀ lo hi, intRange f = some (lo, hi) → lo ≤ whole c.r ∧ whole c.r ≤ hi

/-- No channel of the first colour is larger. -/
def Below (c d : Color ℝ) : Prop := c.r ≤ d.r ∧ c.g ≤ d.g ∧ c.b ≤ d.b ∧ c.a ≤ d.a

/-- The formats with floating point channels. -/
def IsFloat (f : IFormat) : Prop :=
  f = .RGBF ∨ f = .RGBAF ∨ f = .Float ∨ f = .Double ∨ f = .Complex

/-- From sRGB to linear, as in IEC 61966-2-1. -/
def toLinear (c : ℝ) : ℝ := if c ≤ 0.04045 then c / 12.92 else ((c + 0.055) / 1.055) ^ (2.4 : ℝ)

/-- From linear to sRGB, as in IEC 61966-2-1. -/
def toSRGB (c : ℝ) : ℝ := if c ≤ 0.0031308 then c * 12.92 else 1.055 * c ^ (1 / 2.4 : ℝ) - 0.055

/-- From one colour space to another. -/
def transfer : ColorSpace → ColorSpace → ℝ → ℝ
  | .sRGB, .Linear => toLinear
  | .Linear, .sRGB => toSRGB
  | _, _ => id

/-- Apply a function to the channels other than alpha. -/
def onColor (f : ℝ → ℝ) (c : Color ℝ) : Color ℝ := ⟨f c.r, f c.g, f c.b, c.a⟩

end
end Cuttlefish.Spec
