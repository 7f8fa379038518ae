import Verif.Spec.Quant
import Verif.Spec.Written
/-
When the conversion of an image is expected to be defined: the numbers in its pixels can be converted.
-/
namespace Cuttlefish.Spec
variable {Img H σ : Type}

/-- The pixel can be stored in the format: the channels of uncompressed formats are storable, and no channel is NaN in
the formats that are compressed. -/
def PixelFits (f : Format) (ty : TType) (p : Pixel) : Prop :=
  match layout f with
  | some cs => ∀ e ∈ cs, Storable ty e.2 (e.1.of p)
  | none => ∀ v ∈ [p.r, p.g, p.b, p.a], F32.ofBits v ≠ .nan

/-- Every pixel of the image can be stored, and the 32-bit index of the PVRTC encoder reaches them all. -/
def ImageFits (f : Format) (ty : TType) (i : FImg) : Prop :=
  (isPvrtc f = true → i.width * i.height ≤ 2 ^ 30) ∧ ∀ x y, x < i.width → y < i.height → PixelFits f ty (i.px x y)

/-- The calls of a job before the conversion. -/
def makeOps (L : ImageLib Img) (c : Cmd H) (images : List (Option Img)) (custom : CustomMips Img) :
    List (Op Img) := (jobOps L c images custom).dropLast

/-- The texture holds the image: it is in one of the faces of one of the slices of one of its levels. -/
def Stores (t : Tex Img) (g : Img) : Prop :=
  ∃ i, t = some i ∧ ∃ level ∈ i.images, ∃ slice ∈ level, some g ∈ slice

/-- Every image of the texture that the job makes can be stored in the format of the job. -/
def JobFits (W : World Img) (view : Img → FImg) (c : Cmd H) (images : List (Option Img)) (custom : CustomMips Img) :
    Prop :=
  ∀ outs t, run W none (makeOps W.lib c images custom) = .ok (outs, t) →
    ∀ g, Stores t g → ImageFits c.format c.type (view g)

end Cuttlefish.Spec
