import Verif.Spec.Tone
import Verif.Spec.Unit
/-
Colours of doubles compared with colours of real numbers.
-/
namespace Cuttlefish.Spec
noncomputable section

/-- The double is finite, and at most `e` away from the real number. -/
def NearReal (e : ℝ) (v : Dbl) (x : ℝ) : Prop := ∃ q : ℚ, v = .fin q ∧ |(q : ℝ) - x| ≤ e

/-- All channels are at most `e` away. -/
def NearChannels (e : ℝ) (d : Color Dbl) (c : Color ℝ) : Prop :=
  NearReal e d.r c.r ∧ NearReal e d.g c.g ∧ NearReal e d.b c.b ∧ NearReal e d.a c.a

/-- The colour of real numbers with the values of the doubles. -/
def RealColor (d : Color Dbl) (c : Color ℝ) : Prop := NearChannels 0 d c

/-- Half the distance of the values that a channel of the format can have; 0 for floats. -/
def halfStep : IFormat → ℝ
  | .Gray8 | .RGB8 | .RGBA8 => 1 / 510
  | .Gray16 | .RGB16 | .RGBA16 => 1 / 131070
  | .RGB5 | .RGB565 => 1 / 62
  | _ => 0

/-- The formats whose channels are meant to be from 0 to 1: all but the four of integers and the complex numbers. -/
def Tonal (f : IFormat) : Prop :=
  f ∈ [IFormat.Gray8, .Gray16, .RGB5, .RGB565, .RGB8, .RGB16, .RGBA8, .RGBA16, .RGBF, .RGBAF, .Float, .Double]

end
end Cuttlefish.Spec
