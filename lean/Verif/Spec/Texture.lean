import Verif.Model.TextureConvert
import Verif.Spec.MipChain
/-
Specification of a texture as a finite map from slots to images.
-/
namespace Cuttlefish.Spec
variable {Img : Type}

/-- The fixed part of a texture: kind, colour space, extents of level 0 and number of levels. -/
structure Shape where
  dim : Dimension
  cs : ColorSpace
  width : Nat
  height : Nat
  depth : Nat
  levels : Nat

/-- The face an overload addresses: without a face argument only textures that are not cube maps
can be addressed; with one, any face of a cube map and only `PosX` otherwise. -/
def addressed (dim : Dimension) : Option CubeFace → Option CubeFace
  | none => if dim = .Cube then none else some .PosX
  | some f => if dim = .Cube ∨ f = .PosX then some f else none

/-- The slot exists. -/
def Shape.has (s : Shape) (mip depth : Nat) : Prop :=
  mip < s.levels ∧ depth < depthExtent s.dim s.depth mip

instance (s : Shape) (m d : Nat) : Decidable (s.has m d) := by unfold Shape.has; infer_instance

/-- A texture as a map from (face, level, depth) to images. -/
structure ATex (Img : Type) where
  shape : Shape
  img : CubeFace → Nat → Nat → Option Img

/-- An image as a texture of colour space `cs` stores it: in RGBAF and in that colour space (an
rvalue argument that already is RGBAF is kept).  `none` if it cannot be represented. -/
def represent (L : ImageLib Img) (cs : ColorSpace) (img : Img) (move : Bool) : Option Img :=
  (if move ∧ L.isRGBAF img then some img else L.toRGBAF img).map (L.changeColorSpace · cs)

/-- The requested number of levels, limited to at least one and at most `max`. -/
def limitLevels (requested max : Nat) : Nat :=
  if requested = 0 then 1 else if requested ≤ max then requested else max

/-- What the map does on each of the four calls, with the result the caller sees. -/
def mapCall (L : ImageLib Img) (t : Option (ATex Img)) : Op Img → Out Img × Option (ATex Img)
  | .initialize dim w h d m cs =>
    if w = 0 ∨ h = 0 ∨ (dim = .Dim3D ∧ d = 0) then (.bool false, none)
    else (.bool true, some ⟨⟨dim, cs, w, h, d, limitLevels m (maxMipmapLevels dim w h d)⟩,
      fun _ _ _ => none⟩)
  | .setImage (some g) mv face m d =>
    match t with
    | none => (.bool false, none)
    | some a =>
      match addressed a.shape.dim face with
      | none => (.bool false, t)
      | some f =>
        if a.shape.has m d ∧ L.width g = extent a.shape.width m ∧
            L.height g = extent a.shape.height m then
          match represent L a.shape.cs g mv with
          | none => (.bool false, t)
          | some r => (.bool true, some { a with img := fun f' m' d' =>
              if f' = f ∧ m' = m ∧ d' = d then some r else a.img f' m' d' })
        else (.bool false, t)
  | .setImage none _ _ _ _ => (.bool false, t)
  | .getImage face m d =>
    match t with
    | none => (.image none, none)
    | some a =>
      match addressed a.shape.dim face with
      | none => (.image none, t)
      | some f => (.image (if a.shape.has m d then a.img f m d else none), t)
  | _ => (.unit, none)

/-- A history of calls on the map. -/
def mapRun (L : ImageLib Img) : Option (ATex Img) → List (Op Img) → List (Out Img) × Option (ATex Img)
  | t, [] => ([], t)
  | t, o :: os =>
    let r := mapCall L t o
    let rs := mapRun L r.2 os
    (r.1 :: rs.1, rs.2)

/-- The calls of C07. -/
def isMapOp : Op Img → Prop
  | .initialize .. | .reset | .setImage .. | .getImage .. => True
  | _ => False

end Cuttlefish.Spec
