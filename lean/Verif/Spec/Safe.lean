import Verif.Spec.Texture
/-
Assumptions under which properties of textures are stated: what the image class must provide, and
which calls keep the storage of a texture consistent.
-/
namespace Cuttlefish
open Spec
variable {Img : Type}

/-- What is assumed of the image class (lib/src/Image.cpp and FreeImage below it). -/
structure Lawful (L : ImageLib Img) : Prop where
  /-- a successful conversion to RGBAF keeps the size and gives an RGBAF image -/
  toRGBAF : ∀ g g', L.toRGBAF g = some g' →
    L.width g' = L.width g ∧ L.height g' = L.height g ∧ L.isRGBAF g' = true
  /-- changing the colour space keeps size and format and has the intended effect -/
  changeColorSpace : ∀ g cs, L.width (L.changeColorSpace g cs) = L.width g ∧
    L.height (L.changeColorSpace g cs) = L.height g ∧
    L.isRGBAF (L.changeColorSpace g cs) = L.isRGBAF g ∧
    L.colorSpace (L.changeColorSpace g cs) = cs
  /-- a successful resize has the requested size and keeps format -/
  resize : ∀ g w h filter g', L.resize g w h filter = some g' →
    L.width g' = w ∧ L.height g' = h ∧ L.isRGBAF g' = L.isRGBAF g
  /-- RGBAF images can be resized to any non-empty size -/
  resize_total : ∀ g w h filter, L.isRGBAF g = true → 0 < w → 0 < h →
    (L.resize g w h filter).isSome = true
  /-- the 3D reduction creates RGBAF images of the requested size -/
  mip3d : ∀ src w h d i cs filter, L.width (L.mip3d src w h d i cs filter) = w ∧
    L.height (L.mip3d src w h d i cs filter) = h ∧ L.isRGBAF (L.mip3d src w h d i cs filter) = true

/-- Every custom image can be brought to every size with this filter. -/
def GoodCustom (L : ImageLib Img) (filter : ResizeFilter) (custom : CustomMips Img) : Prop :=
  ∀ e ∈ custom, ∀ w h, 0 < w → 0 < h → (fit L filter e.2 w h).isSome = true

/-- Number of levels `generateMipmaps` ends up with. -/
def genLevels (i : TexImpl Img) (requested : Nat) : Nat :=
  min (max requested 1) (maxMipmapLevels i.dimension i.width i.height i.depth)

/-- A call of `generateMipmaps` that keeps the storage consistent. -/
def SafeGen (L : ImageLib Img) (t : Tex Img) (filter : ResizeFilter) (requested : Nat)
    (custom : CustomMips Img) : Prop :=
  match t with
  | none => True
  | some i =>
    let levels := genLevels i requested
    -- not converted, or not more levels than before
    (i.textures = [] ∨ levels ≤ i.mipLevels) ∧
    (i.dimension = .Dim3D → GoodCustom L filter custom ∧
      (levels ≤ i.mipLevels ∨ ∀ m, 1 ≤ m → m < levels →
        consistent3d (CustomMips.find custom) m (extent i.depth m)))

/-- The encoders do not run into undefined behaviour on the images of the texture. -/
def SafeConv (W : World Img) (t : Tex Img) (f : Format) (ty : TType) : Prop :=
  match t with
  | none => True
  | some i => ∀ k a, createConverter W.feat f ty = some k →
    ∀ ds ∈ i.images, ∀ fs ∈ ds, ∀ g, some g ∈ fs → W.enc k a g ≠ .ub

/-- Calls that keep the storage consistent. -/
def SafeCall (W : World Img) (t : Tex Img) : Op Img → Prop
  | .initialize _ w h d _ _ => w < 2 ^ 32 ∧ h < 2 ^ 32 ∧ d < 2 ^ 32
  | .generateMipmaps filter r custom => SafeGen W.lib t filter r custom
  | .convert f ty _ _ _ _ => SafeConv W t f ty
  | _ => True

/-- Every call of the history keeps the storage consistent, in the state in which it is made. -/
def SafeHist (W : World Img) : Tex Img → List (Op Img) → Prop
  | _, [] => True
  | t, o :: os => SafeCall W t o ∧ ∀ out t', call W t o = .ok (out, t') → SafeHist W t' os

/-- Every number passed to `initialize` fits an `unsigned int`. -/
def Op.WF : Op Img → Prop
  | .initialize _ w h d _ _ => w < 2 ^ 32 ∧ h < 2 ^ 32 ∧ d < 2 ^ 32
  | _ => True

/-- Images passed to `setImage` that reach the slot can be represented. -/
def SetOK (L : ImageLib Img) : Op Img → Prop
  | .setImage (some g) mv _ _ _ => ∀ cs, (represent L cs g mv).isSome = true
  | _ => True

/-- Calls that keep the kind and size of the texture. -/
def keepsShape : Op Img → Prop
  | .initialize .. | .reset => False
  | _ => True

/-- Every addressable image of the texture is valid: every level below `mipLevelCount()`, every
depth below `depth(level)`, and every face (the overload without a face for textures that are not
cube maps). -/
def AllPresent (t : Tex Img) : Prop :=
  t.isSome = true ∧ ∀ face m d k, t.depthAt m = .ok k → m < t.mipLevelCount → d < k →
    (addressed t.dimension face).isSome = true → ∃ g, t.getImage face m d = .ok (some g)

/-- Every level-0 image of the texture is valid. -/
def BasePresent (t : Tex Img) : Prop :=
  t.isSome = true ∧ ∀ face d k, t.depthAt 0 = .ok k → d < k →
    (addressed t.dimension face).isSome = true → ∃ g, t.getImage face 0 d = .ok (some g)

end Cuttlefish
