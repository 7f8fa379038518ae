import Verif.Spec.Surface
import Verif.Spec.Safe
import Verif.Spec.Toy
/-
Vocabulary for statements about converted textures: a conversion that happened at the end of some
history of calls, and the surfaces it produced.
-/
namespace Cuttlefish.Spec
variable {Img : Type}

/-- `t'` is the texture after a successful `convert()` to format `f` and type `ty`, called on the
texture `t` reached by some history; the images are those of `view` and the encoders are the real
ones, with external code `X`. -/
structure Conversion (X : Ext) (view : Img → FImg) (W : World Img) (t t' : Tex Img) (f : Format)
    (ty : TType) : Prop where
  lawful : Lawful W.lib
  enc : W.enc = fun k a g => encodeImage X k a (view g)
  size : ∀ g, (view g).width = W.lib.width g ∧ (view g).height = W.lib.height g
  hist : ∃ calls outs, SafeHist W none calls ∧ run W none calls = .ok (outs, t)
  conv : ∃ q al mask threads, t.convert W.feat W.hw W.enc f ty q al mask threads = .ok (true, t')

/-- The surface of `t'` at `(face, mip, depth)` holds `bytes` and was made from the image `img` that
`t` held there. -/
structure Surface (view : Img → FImg) (t t' : Tex Img) (face : Option CubeFace) (m d : Nat)
    (img : FImg) (bytes : List UInt8) : Prop where
  image : ∃ g, t.getImage face m d = .ok (some g) ∧ img = view g
  data : t'.data face m d = .ok (some bytes)
  size : t'.dataSize face m d = .ok bytes.length
  width : t'.widthAt m = .ok img.width
  height : t'.heightAt m = .ok img.height

/-- The surface `(face, mip, depth)` exists in the texture. -/
def Addressable (t : Tex Img) (face : Option CubeFace) (m d : Nat) : Prop :=
  m < t.mipLevelCount ∧ (∃ k, t.depthAt m = .ok k ∧ d < k) ∧
    (addressed t.dimension face).isSome = true

/-- The field of channel `ch` of texel `(x, y)` in a surface of an uncompressed format. -/
def FieldIs (f : Format) (bytes : List UInt8) (w x y : Nat) (ch : Chan) (v : Nat) : Prop :=
  ∃ cs, layout f = some cs ∧ (ch, v) ∈ texelFields cs (texelAt bytes (blockSize f) w x y)

end Cuttlefish.Spec

namespace Cuttlefish.Toy
open Spec

/-- Pixels of the small image library: every channel of pixel `(x, y)` is the word of the tag
selected by the position. -/
def view (g : Img) : FImg where
  width := g.w
  height := g.h
  px x y := let v := g.tags.getD ((y * g.w + x) % g.tags.length) 0; ⟨v, v, v, 0x3F800000⟩

/-- External code that returns zeros of the right size. -/
def ext : Ext where
  cpu := .sse 0xFFFAF38F
  glmHalf := fun n => n % 65536
  packF11 := fun _ _ _ => 0
  packE5 := fun _ _ _ => 0
  ispc := false
  consts := ⟨0, 18, 64, fun p => if p then (128, 64, 16, 32) else (1, 1, 1, 1), .fin 0, .fin 40, .fin 100⟩
  codec := fun c => List.replicate ((codecBytes c).getD 0) 0

theorem ext_sizes : CodecSizes ext := by
  intro call n h
  simp [ext, h]

/-- The small world with the real encoders. -/
def real : World Img := { world with enc := fun k a g => encodeImage ext k a (view g) }

end Cuttlefish.Toy
