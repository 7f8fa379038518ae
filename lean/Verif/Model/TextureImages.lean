import Verif.Model.Mips3d
import Verif.Model.Texture
/-
Class `Image` as the image library of class `Texture`.  The library of the texture model is made of total functions, so
where a method of the modelled class is undefined, or breaks what the texture relies on, a blank image stands for its
result.
-/
namespace Cuttlefish
variable {N : Type}

/-- A blank image (nothing in the code; see above). -/
def blankImage (A : Arith N) (f : IFormat) (cs : ColorSpace) (w h : Nat) : Image N :=
  ⟨f, cs, ⟨w, h, fun _ _ => .nums [A.lit 0, A.lit 0, A.lit 0, A.lit 0]⟩⟩

/-- An image of the given shape. -/
def Image.hasShape (i : Image N) (rgbaf : Bool) (w h : Nat) : Bool :=
  decide (i.format = .RGBAF) == rgbaf && decide (i.bmp.width = w ∧ i.bmp.height = h)

/-- The methods of class `Image` that class `Texture` calls: lib/src/Image.cpp:980-1018 (`format`, `colorSpace`, `width`,
`height`), 1130-1322 (`convert`), 1324-1511 (`resize`), 1667-1712 (`changeColorSpace`), and `generateMips3d`,
lib/src/Texture.cpp:103-227, for one slice.  Simplified: blank images, see above. -/
def imageLib (A : Arith N) (FI : FreeImage N) : ImageLib (Image N) where
  width i := i.bmp.width
  height i := i.bmp.height
  isRGBAF i := decide (i.format = .RGBAF)
  colorSpace i := i.colorSpace
  toRGBAF i := match i.convert A FI .RGBAF true with
    | .ok (some j) => if j.hasShape true i.bmp.width i.bmp.height then some j else none
    | _ => none
  changeColorSpace i cs := match i.changeColorSpace A cs with
    | .ok j => if j.hasShape (decide (i.format = .RGBAF)) i.bmp.width i.bmp.height && decide (j.colorSpace = cs) then j
        else { i with colorSpace := cs }
    | .ub => { i with colorSpace := cs }
  resize i w h filter := match i.resize A FI w h filter with
    | .ok (some j) => if j.hasShape (decide (i.format = .RGBAF)) w h then some j
        else some (blankImage A i.format i.colorSpace w h)
    | .ok none => if decide (i.format = .RGBAF ∧ 0 < w ∧ 0 < h) then some (blankImage A .RGBAF i.colorSpace w h) else none
    | .ub => some (blankImage A i.format i.colorSpace w h)
  mip3d prev w h depth d cs filter := match mipSlice3d A FI prev w h depth cs filter d with
    | .ok j => if j.hasShape true w h then j else blankImage A .RGBAF cs w h
    | .ub => blankImage A .RGBAF cs w h

end Cuttlefish
