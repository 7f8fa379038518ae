import Verif.Spec.Exact
/-
Specification of pre-multiplied alpha and of grayscale.
-/
namespace Cuttlefish.Spec
noncomputable section

/-- A stored value as an amount of light. -/
def light : ColorSpace → ℝ → ℝ
  | .Linear => id
  | .sRGB => toLinear

/-- An amount of light as a stored value. -/
def encoded : ColorSpace → ℝ → ℝ
  | .Linear => id
  | .sRGB => toSRGB

/-- The colour whose light is multiplied by its alpha. -/
def multiplied (cs : ColorSpace) (c : Color ℝ) : Color ℝ :=
  onColor (fun v => encoded cs (light cs v * c.a)) c

/-- The relative luminance of linear channels, as in ITU-R BT.709. -/
def luminance (r g b : ℝ) : ℝ := 0.2126 * r + 0.7152 * g + 0.0722 * b

/-- The grey with the luminance of a colour. -/
def greyed (cs : ColorSpace) (c : Color ℝ) : Color ℝ :=
  onColor (fun _ => encoded cs (luminance (light cs c.r) (light cs c.g) (light cs c.b))) c

/-- The formats with an alpha channel. -/
def WithAlpha (f : IFormat) : Prop := f = .RGBA8 ∨ f = .RGBA16 ∨ f = .RGBAF

end
end Cuttlefish.Spec
