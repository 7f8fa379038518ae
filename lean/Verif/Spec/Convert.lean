import Verif.Spec.Tone
/-
Specification of the conversion between image formats.
-/
namespace Cuttlefish.Spec

/-- The formats whose only channel is a brightness. -/
def Brightness (f : IFormat) : Prop := f = .Gray8 ∨ f = .Gray16 ∨ f = .Float ∨ f = .Double

/-- The conversions the library performs itself: those FreeImage does not know, between floating point formats (so
that large values are not limited to 1), from and to unsigned 16-bit integers, to complex numbers, and from colours to a
brightness in the sRGB colour space or without weights. -/
def Own {N : Type} (FI : FreeImage N) (i : Image N) (dst : IFormat) (weighted : Bool) : Prop :=
  FI.convert i.format i.bmp dst = none ∨ i.format = .UInt16 ∨ dst = .UInt16 ∨ dst = .Complex ∨
  (i.format = .RGBF ∨ i.format = .RGBAF ∨ i.format = .Float) ∧
    (dst = .RGBF ∨ dst = .RGBAF ∨ dst = .Float ∨ dst = .Double) ∨
  ¬ Brightness i.format ∧ Brightness dst ∧ (i.colorSpace = .sRGB ∨ weighted = false)

noncomputable section

open Classical in
/-- The colour that is stored for `c`: its luminance if the result has only a brightness and weights are asked for,
except from complex numbers. -/
def recoloured (src dst : IFormat) (cs : ColorSpace) (weighted : Bool) (c : Color ℝ) : Color ℝ :=
  if weighted = true ∧ Brightness dst ∧ src ≠ .Complex then greyed cs c else c

open Classical in
/-- What a format can show of a colour, apart from the limited number of values: the red channel as a brightness, and an
alpha of 1 unless it has alpha. -/
def shown (dst : IFormat) (c : Color ℝ) : Color ℝ :=
  if Brightness dst then ⟨c.r, c.r, c.r, 1⟩ else if WithAlpha dst then c else { c with a := 1 }

end
end Cuttlefish.Spec
