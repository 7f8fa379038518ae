import Verif.Spec.MipColors
import Verif.Spec.Process
import Verif.Model.ToolMain
/-
Which images and sizes the calls on a texture have as arguments.
-/
namespace Cuttlefish.Spec
variable {N : Type}

/-- The texture has a size whose pixels can be counted (and a 3D texture a depth below 2^31), images are valid, and
custom images have a format of floats and pixels that can be counted. -/
def ImageCall (A : Arith N) : Op (Image N) → Prop
  | .initialize dim w h d _ _ => Counts (w, h) ∧ (dim = .Dim3D → d < 2 ^ 31)
  | .setImage img _ _ _ _ => ∀ g, img = some g → RealImage A g
  | .generateMipmaps _ _ custom => ∀ e ∈ custom, ∀ g, e.2.image = some (some g) →
      RealImage A g ∧ IsFloat g.format ∧ Countable g
  | _ => True

/-- The same run with other image methods. -/
def withImages (W : World (Image N)) (L : ImageLib (Image N)) : World (Image N) := { W with lib := L }

/-- The surroundings of the tool with other image methods for its texture. -/
def toolWith {H σ : Type} (E : ToolEnv (Image N) H σ) (L : ImageLib (Image N)) : ToolEnv (Image N) H σ :=
  { E with world := withImages E.world L }

end Cuttlefish.Spec
