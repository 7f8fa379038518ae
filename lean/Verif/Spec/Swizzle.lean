import Verif.Model.Image
/-
Specification of swizzling.
-/
namespace Cuttlefish.Spec
variable {N : Type}

/-- A choice of a source channel for each destination channel. -/
structure Selection where
  r : Channel
  g : Channel
  b : Channel
  a : Channel
  deriving DecidableEq, Repr

/-- The chosen channel of a colour, or the number it is filled with. -/
def choose (c : Color N) (fill : N) : Channel → N
  | .Red => c.r
  | .Green => c.g
  | .Blue => c.b
  | .Alpha => c.a
  | .None => fill

/-- The colour with the chosen channels; a channel without source is 0, alpha 1. -/
def Selection.apply (zero one : N) (s : Selection) (c : Color N) : Color N :=
  ⟨choose c zero s.r, choose c zero s.g, choose c zero s.b, choose c one s.a⟩

/-- The channels a format keeps of a colour. -/
def kept (zero one : N) : IFormat → Color N → Color N
  | .Gray8, c | .Gray16, c | .Int16, c | .UInt16, c | .Int32, c | .UInt32, c | .Float, c | .Double, c =>
    ⟨c.r, c.r, c.r, one⟩
  | .RGB5, c | .RGB565, c | .RGB8, c | .RGB16, c | .RGBF, c => ⟨c.r, c.g, c.b, one⟩
  | .Complex, c => ⟨c.r, c.g, zero, one⟩
  | .RGBA8, c | .RGBA16, c | .RGBAF, c | .Invalid, c => c

/-- The channel of the first selection that the second one refers to. -/
def Selection.through (s : Selection) : Channel → Channel
  | .Red => s.r
  | .Green => s.g
  | .Blue => s.b
  | .Alpha => s.a
  | .None => .None

/-- One selection with the effect of `s` followed by `t`. -/
def Selection.followedBy (s t : Selection) : Selection :=
  ⟨s.through t.r, s.through t.g, s.through t.b, s.through t.a⟩

/-- The second selection does not move a filled channel between alpha, which is filled with 1, and
the other channels, which are filled with 0. -/
def Selection.Composable (s t : Selection) : Prop :=
  (s.a = .None → t.r ≠ .Alpha ∧ t.g ≠ .Alpha ∧ t.b ≠ .Alpha) ∧
  (t.a = .Red → s.r ≠ .None) ∧ (t.a = .Green → s.g ≠ .None) ∧ (t.a = .Blue → s.b ≠ .None)

end Cuttlefish.Spec
