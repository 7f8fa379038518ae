import Verif.Proofs.Blocks
import Verif.Proofs.Sample
/-
C19: block encoders see the right texels.
-/
namespace Cuttlefish
open Spec
variable {Img : Type}

/-- In every conversion to a block compressed format there is one way of encoding blocks such that
every surface consists of the encodings of its blocks in row-major order and nothing else, each made
from the texels `(bx * width + i, by * height + j)` of its image, clamped to the edge, or cropped
for the ETC formats.

Partial: the surface must fit the 32-bit arithmetic (`Fits`), otherwise the claim is false, see
`C19_fails_large`; PVRTC is encoded as a whole by its library. -/
theorem C19_blocks_partial (X : Ext) (hX : CodecSizes X) (view : Img → FImg) (W : World Img)
    (t t' : Tex Img) (f : Format) (ty : TType) (hC : Conversion X view W t t' f ty)
    (hl : layout f = none) (hp : isPvrtc f = false) :
    ∃ enc : Nat × Nat × List Pixel → Res (List UInt8),
      ∀ face m d img bytes, Surface view t t' face m d img bytes → Fits f img.width img.height →
        bytes.length = ceilDiv img.width (blockWidth f) * ceilDiv img.height (blockHeight f) *
          blockSize f ∧
        ∀ bx by_, bx < ceilDiv img.width (blockWidth f) → by_ < ceilDiv img.height (blockHeight f) →
          enc (blockTexels f img bx by_) =
            .ok (texelAt bytes (blockSize f) (ceilDiv img.width (blockWidth f)) bx by_) := by
  obtain ⟨⟨k, a, hk, ha1, ha2, h1⟩, -⟩ := hC.effect
  refine ⟨blockCompress X k a, ?_⟩
  intro face m d img bytes hS hf
  obtain ⟨⟨g, hg, rfl⟩, h2, -⟩ := hS
  obtain ⟨b, b1, b2, -⟩ := h1 face m d g hg
  rw [h2] at b2
  simp only [Res.ok.injEq, Option.some.injEq] at b2
  subst b2
  exact encode_block hX hk hl hp a ha1 hf b1

/-- The texels of a block really are those of the image: entry `j * width + i` of a clamped block is
texel `(bx * width + i, by * height + j)` when that is inside the image, and the nearest texel of
the edge otherwise. -/
theorem C19_block_texel (f : Format) (he : isEtc f = false) (img : FImg) (bx by_ i j : Nat)
    (hi : i < blockWidth f) (hj : j < blockHeight f) :
    (blockTexels f img bx by_).2.2[j * blockWidth f + i]? = some
      (img.px (min (bx * blockWidth f + i) (img.width - 1))
        (min (by_ * blockHeight f + j) (img.height - 1))) := by
  simp only [blockTexels, he, Bool.false_eq_true, if_false, clampedBlock]
  exact rowMajor_get hi hj

/-- Same for the cropped blocks of the ETC formats. -/
theorem C19_etc_texel (f : Format) (he : isEtc f = true) (img : FImg) (bx by_ i j : Nat)
    (hi : i < 4 ∧ bx * 4 + i < img.width) (hj : j < 4 ∧ by_ * 4 + j < img.height) :
    ∃ w h, blockTexels f img bx by_ = (w, h, croppedBlock img bx by_) ∧
      w = min 4 (img.width - bx * 4) ∧ h = min 4 (img.height - by_ * 4) ∧
      (croppedBlock img bx by_)[j * w + i]? = some (img.px (bx * 4 + i) (by_ * 4 + j)) := by
  refine ⟨insideExtent img.width bx, insideExtent img.height by_, by simp [blockTexels, he], rfl, rfl, ?_⟩
  exact rowMajor_get (f := fun i j => img.px (bx * 4 + i) (by_ * 4 + j))
    (by unfold insideExtent; omega) (by unfold insideExtent; omega)

/-- The full claim is false for large surfaces: a 65536x65536 BC3 surface needs 2^32 bytes, the size
wraps to zero and the first block is stored out of bounds. -/
theorem C19_fails_large : ∃ t outs,
    run Toy.real none (Toy.single 65536 65536 [0]) = .ok (outs, t) ∧
    t.convert Toy.real.feat Toy.real.hw Toy.real.enc .BC3 .UNorm .Normal .Standard {} 1 = .ub :=
  Toy.undef (by decide +kernel)

/-- Hypotheses met: a 5x3 image in BC1, and in 2x1 ETC blocks of which the second is one texel
wide. -/
example : (∃ t t', Conversion Toy.ext Toy.view Toy.real t t' .BC1_RGB .UNorm ∧
    Surface Toy.view t t' none 0 0 (Toy.view ⟨5, 3, true, .Linear, [0x3F800000, 0]⟩)
      (List.replicate 16 0)) ∧
    (∃ t t', Conversion Toy.ext Toy.view Toy.real t t' .ETC1 .UNorm ∧
    Surface Toy.view t t' none 0 0 (Toy.view ⟨5, 3, true, .Linear, [0x3F800000, 0]⟩)
      (List.replicate 16 0)) ∧
    Fits .BC1_RGB 5 3 ∧ Fits .ETC1 5 3 ∧
    (blockTexels .ETC1 (Toy.view ⟨5, 3, true, .Linear, [1, 2, 3, 4, 5, 6, 7, 8, 9, 10, 11, 12, 13, 14, 15]⟩)
      1 0).2.2.map Pixel.r = [5, 10, 15] ∧
    (blockTexels .BC1_RGB (Toy.view ⟨5, 3, true, .Linear, [1, 2, 3, 4, 5, 6, 7, 8, 9, 10, 11, 12, 13, 14, 15]⟩)
      0 0).2.2.map Pixel.r = [1, 2, 3, 4, 6, 7, 8, 9, 11, 12, 13, 14, 11, 12, 13, 14] := by
  refine ⟨?_, ?_, ?_, ?_, by decide +kernel, by decide +kernel⟩
  · exact Toy.sample
      (ops := Toy.single 5 3 [0x3F800000, 0]) (f := .BC1_RGB) (ty := .UNorm)
      (face := none) (m := 0) (d := 0) (expected := List.replicate 16 0)
      (g := ⟨5, 3, true, .Linear, [0x3F800000, 0]⟩)
      (Toy.single_safe _ _ _ (by norm_num) (by norm_num)) (by decide +kernel)
  · exact Toy.sample
      (ops := Toy.single 5 3 [0x3F800000, 0]) (f := .ETC1) (ty := .UNorm)
      (face := none) (m := 0) (d := 0) (expected := List.replicate 16 0)
      (g := ⟨5, 3, true, .Linear, [0x3F800000, 0]⟩)
      (Toy.single_safe _ _ _ (by norm_num) (by norm_num)) (by decide +kernel)
  · exact ⟨by norm_num, by norm_num, by simp only [layout]; decide +kernel⟩
  · exact ⟨by norm_num, by norm_num, by simp only [layout]; decide +kernel⟩

end Cuttlefish
