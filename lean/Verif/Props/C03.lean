import Verif.Proofs.Sample
import Verif.Proofs.Shaped
/-
C03: the size of every converted surface.
-/
namespace Cuttlefish
open Spec
variable {Img : Type}

/-- After a successful `convert()` every addressable surface has
`ceil(width / blockWidth) * ceil(height / blockHeight) * blockSize` bytes, with the extents of its
level and the block tables of the format.

Partial: PVRTC has its own theorem, `C03_pvrtc`; the sizes must fit the 32-bit arithmetic of the converters (`Fits`); without that the claim
is false, see `C03_fails_large`. -/
theorem C03_surface_size_partial (X : Ext) (hX : CodecSizes X) (view : Img → FImg) (W : World Img)
    (t t' : Tex Img) (f : Format) (ty : TType) (hC : Conversion X view W t t' f ty)
    (hp : isPvrtc f = false) (face : Option CubeFace) (m d : Nat) (ha : Addressable t' face m d)
    (w h : Nat) (hw : t'.widthAt m = .ok w) (hh : t'.heightAt m = .ok h) (hf : Fits f w h) :
    t'.dataSize face m d =
      .ok (ceilDiv w (blockWidth f) * ceilDiv h (blockHeight f) * blockSize f) := by
  obtain ⟨img, bytes, hS⟩ := hC.surface ha
  obtain ⟨-, -, k, a, hk, ha1, ha2, he⟩ := hS.encoded hC
  have e1 : img.width = w := by have := hS.width; rw [hw] at this; simpa using this.symm
  have e2 : img.height = h := by have := hS.height; rw [hh] at this; simpa using this.symm
  subst e1 e2
  rw [hS.size, surface_size X hX hk hp a ha1 img hf bytes he]

/-- The same for PVRTC, with a library that keeps to the definition of the formats: blocks of 8 bytes for 8x4 or
4x4 texels, in PVRTC1 (for which extents must be powers of two) at least two in each direction. -/
theorem C03_pvrtc (X : Ext) (hX : CodecSizes X) (view : Img → FImg) (W : World Img)
    (t t' : Tex Img) (f : Format) (ty : TType) (hC : Conversion X view W t t' f ty)
    (hp : isPvrtc f = true) (face : Option CubeFace) (m d : Nat) (ha : Addressable t' face m d)
    (w h : Nat) (hw : t'.widthAt m = .ok w) (hh : t'.heightAt m = .ok h) (h2 : Pow2For f w h) :
    t'.dataSize face m d = .ok (if isPvrtc1 f
      then max 2 (ceilDiv w (blockWidth f)) * max 2 (ceilDiv h (blockHeight f)) * blockSize f
      else ceilDiv w (blockWidth f) * ceilDiv h (blockHeight f) * blockSize f) := by
  obtain ⟨img, bytes, hS⟩ := hC.surface ha
  obtain ⟨-, -, k, a, hk, ha1, ha2, he⟩ := hS.encoded hC
  have e1 : img.width = w := by have := hS.width; rw [hw] at this; simpa using this.symm
  have e2 : img.height = h := by have := hS.height; rw [hh] at this; simpa using this.symm
  subst e1 e2
  rw [hS.size, surface_sized X hX hk a ha1 img h2 (fun e => by rw [hp] at e; cases e) bytes he]
  unfold surfaceSize leastBlocks
  split <;> simp

/-- The full claim is false for large surfaces: the byte count wraps.  A 65536x65536 texture
converted to R8 has no bytes at all. -/
theorem C03_fails_large : ∃ t t', Conversion Toy.ext Toy.view Toy.real t t' .R8 .UNorm ∧
    t'.widthAt 0 = .ok 65536 ∧ t'.heightAt 0 = .ok 65536 ∧ t'.dataSize none 0 0 = .ok 0 := by
  obtain ⟨t, t', h1, h2⟩ := Toy.sample (ops := Toy.single 65536 65536 [0]) (f := .R8) (ty := .UNorm)
    (face := none) (m := 0) (d := 0) (expected := []) (g := ⟨65536, 65536, true, .Linear, [0]⟩)
    (Toy.single_safe _ _ _ (by norm_num) (by norm_num)) (by decide +kernel)
  exact ⟨t, t', h1, h2.width, h2.height, h2.size⟩

/-- A 5x3 texture converted to BC3 (two blocks) and to R8G8B8. -/
example : (∃ t t', Conversion Toy.ext Toy.view Toy.real t t' .BC3 .UNorm ∧
      t'.dataSize none 0 0 = .ok 32) ∧
    (∃ t t', Conversion Toy.ext Toy.view Toy.real t t' .R8G8B8 .UNorm ∧
      t'.dataSize none 0 0 = .ok 45) ∧ Fits .BC3 5 3 ∧ Fits .R8G8B8 5 3 := by
  refine ⟨?_, ?_, ?_, ?_⟩
  · obtain ⟨t, t', h1, h2⟩ := Toy.sample (ops := Toy.single 5 3 [0]) (f := .BC3) (ty := .UNorm)
      (face := none) (m := 0) (d := 0) (expected := List.replicate 32 0)
      (g := ⟨5, 3, true, .Linear, [0]⟩)
      (Toy.single_safe _ _ _ (by norm_num) (by norm_num)) (by decide +kernel)
    exact ⟨t, t', h1, h2.size⟩
  · obtain ⟨t, t', h1, h2⟩ := Toy.sample (ops := Toy.single 5 3 [0]) (f := .R8G8B8) (ty := .UNorm)
      (face := none) (m := 0) (d := 0) (expected := List.replicate 45 0)
      (g := ⟨5, 3, true, .Linear, [0]⟩)
      (Toy.single_safe _ _ _ (by norm_num) (by norm_num)) (by decide +kernel)
    exact ⟨t, t', h1, h2.size⟩
  · refine ⟨by norm_num, by norm_num, ?_⟩; simp only [layout]; decide
  · refine ⟨by norm_num, by norm_num, ?_⟩; simp only [layout]; decide

/-- A 16x2 texture converted to PVRTC1 with 2 bits per texel has 2x2 blocks, a 9x3 texture converted to PVRTC2 with
4 bits per texel 3x1. -/
example : (∃ t t', Conversion Toy.ext Toy.view Toy.real t t' .PVRTC1_RGBA_2BPP .UNorm ∧
      t'.dataSize none 0 0 = .ok 32 ∧ Pow2For .PVRTC1_RGBA_2BPP 16 2) ∧
    (∃ t t', Conversion Toy.ext Toy.view Toy.real t t' .PVRTC2_RGBA_4BPP .UNorm ∧
      t'.dataSize none 0 0 = .ok 24 ∧ Pow2For .PVRTC2_RGBA_4BPP 9 3) := by
  refine ⟨?_, ?_⟩
  · obtain ⟨t, t', h1, h2⟩ := Toy.sample (ops := Toy.single 16 2 [0]) (f := .PVRTC1_RGBA_2BPP) (ty := .UNorm)
      (face := none) (m := 0) (d := 0) (expected := List.replicate 32 0)
      (g := ⟨16, 2, true, .Linear, [0]⟩)
      (Toy.single_safe _ _ _ (by norm_num) (by norm_num)) (by decide +kernel)
    exact ⟨t, t', h1, h2.size, by decide⟩
  · obtain ⟨t, t', h1, h2⟩ := Toy.sample (ops := Toy.single 9 3 [0]) (f := .PVRTC2_RGBA_4BPP) (ty := .UNorm)
      (face := none) (m := 0) (d := 0) (expected := List.replicate 24 0)
      (g := ⟨9, 3, true, .Linear, [0]⟩)
      (Toy.single_safe _ _ _ (by norm_num) (by norm_num)) (by decide +kernel)
    exact ⟨t, t', h1, h2.size, by decide⟩

end Cuttlefish
