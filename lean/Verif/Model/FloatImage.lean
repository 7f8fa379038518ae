import Verif.Model.Arith
import Verif.Model.Encode
/-
The image that a converter reads.
-/
namespace Cuttlefish

/-- The rows of an `RGBAF` image as the converters read them: `reinterpret_cast<const float*>(image().scanline(row))`
(lib/src/StandardConverter.h:87-103 and likewise in the other converters), where `Image::scanline`
(lib/src/Image.cpp:1092-1098) counts rows from the top and FreeImage from the bottom.  Simplifications: the
sign of zero and the payload of a NaN are lost (no statement about converted textures depends on them); other formats,
which `Texture::setImage` never stores, give zeros. -/
def asFloats (i : Image Dbl) : FImg where
  width := i.bmp.width
  height := i.bmp.height
  px x y := match i.bmp.px (i.bmp.height - y - 1) x with
    | .nums [r, g, b, a] => ⟨r.toBits, g.toBits, b.toBits, a.toBits⟩
    | _ => ⟨0, 0, 0, 0⟩

end Cuttlefish
