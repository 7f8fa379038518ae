import Verif.Proofs.Sample
/-
C15: uncompressed surfaces are row-major and complete.
-/
namespace Cuttlefish
open Spec

/-- For every uncompressed format and type there is one encoding of pixels such that every surface
of every conversion is exactly the encodings of the pixels of its image, row by row from the top:
texel `(x, y)` occupies the bytes from `(y * width + x) * blockSize`, and there are no others.  The
encoding is defined for pixels whose channels can be stored.

Partial: the surface must fit the 32-bit arithmetic of the converter (`Fits`); without that the
claim is false, see `C15_fails_large`. -/
theorem C15_row_major_partial (X : Ext) (c : Features) (f : Format) (ty : TType)
    (cs : List (Chan × Nat)) (hl : layout f = some cs) (hv : isFormatValid c f ty = true) :
    ∃ enc : Pixel → Res (List UInt8),
      (∀ p, (∀ e ∈ cs, Storable ty e.2 (e.1.of p)) → enc p ≠ .ub) ∧
      (∀ p bs, enc p = .ok bs → bs.length = blockSize f) ∧
      ∀ {Img : Type} (view : Img → FImg) (W : World Img), W.feat = c → ∀ (t t' : Tex Img),
        Conversion X view W t t' f ty → ∀ face m d img bytes,
        Surface view t t' face m d img bytes → Fits f img.width img.height →
        bytes.length = img.width * img.height * blockSize f ∧
        ∀ x y, x < img.width → y < img.height →
          enc (img.px x y) = .ok (texelAt bytes (blockSize f) img.width x y) := by
  rw [valid_iff_converter] at hv
  obtain ⟨k, hk⟩ := Option.isSome_iff_exists.1 hv
  refine ⟨texelBytes X k, ?_, ?_, ?_⟩
  · intro p hp
    by_cases hfloat : ty = .UFloat ∨ (ty = .Float ∧ ¬ ∀ e ∈ cs, e.2 = 32)
    · -- half floats and the shared float formats are always defined
      cases f <;> simp only [layout, Option.some.injEq, reduceCtorEq] at hl <;> subst hl <;>
        cases ty <;> simp only [createConverter, ifUNorm, create8, create16, create32, reduceCtorEq,
          if_true, if_false, Option.some.injEq] at hk <;> subst hk <;>
        first
        | (simp at hfloat; done)
        | simp [texelBytes, packedBytes, chanBytes, Conv.channels, Pixel.chans, mapRes, Res.ok_bind,
            Res.pure_eq]
    · push Not at hfloat
      obtain ⟨bs, h, -⟩ := texel_fields X hk hl hfloat.1 hfloat.2 p hp
      rw [h]; simp
  · intro p bs h
    rw [← (conv_std hk hl).2.1]
    exact texel_len X hk hl p bs h
  · intro Img view W hW t t' hC face m d img bytes hS hf
    obtain ⟨k', hk', h1, h2⟩ := hS.texel hC hl hf
    rw [hW, hk] at hk'
    simp only [Option.some.injEq] at hk'
    subst hk'
    exact ⟨h1, h2⟩

/-- Conversely the conversion itself is defined: if every channel of every pixel can be stored, the
encoder runs to the end without undefined behaviour. -/
theorem C15_defined (X : Ext) (c : Features) (f : Format) (ty : TType) (cs : List (Chan × Nat))
    (hl : layout f = some cs) (k : Conv) (hk : createConverter c f ty = some k) (a : ConvArgs)
    (img : FImg) (hf : Fits f img.width img.height)
    (hp : ∀ x y, x < img.width → y < img.height →
      ∀ e ∈ cs, Storable ty e.2 (e.1.of (img.px x y))) :
    ∃ bytes, encodeImage X k a img = .ok bytes := by
  refine ⟨_, (std_surface X hk hl a img hf _).2 ⟨?_, rfl⟩⟩
  intro x y hx hy
  by_cases hfloat : ty = .UFloat ∨ (ty = .Float ∧ ¬ ∀ e ∈ cs, e.2 = 32)
  · clear hf hp
    cases f <;> simp only [layout, Option.some.injEq, reduceCtorEq] at hl <;> subst hl <;>
      cases ty <;> simp only [createConverter, ifUNorm, create8, create16, create32, reduceCtorEq,
        if_true, if_false, Option.some.injEq] at hk <;> subst hk <;>
      first
      | (simp at hfloat; done)
      | simp [texelBytes, packedBytes, chanBytes, Conv.channels, Pixel.chans, mapRes, Res.ok_bind,
          Res.pure_eq]
  · push Not at hfloat
    obtain ⟨bs, h, -⟩ := texel_fields X hk hl hfloat.1 hfloat.2 (img.px x y) (hp x y hx hy)
    rw [h]; simp

/-- The full claim is false for large surfaces: a 65536x65536 R8 surface holds no texel. -/
theorem C15_fails_large : ∃ t t', Conversion Toy.ext Toy.view Toy.real t t' .R8 .UNorm ∧
    t'.widthAt 0 = .ok 65536 ∧ t'.heightAt 0 = .ok 65536 ∧ t'.data none 0 0 = .ok (some []) := by
  obtain ⟨t, t', h1, h2⟩ := Toy.sample (ops := Toy.single 65536 65536 [0]) (f := .R8) (ty := .UNorm)
    (face := none) (m := 0) (d := 0) (expected := []) (g := ⟨65536, 65536, true, .Linear, [0]⟩)
    (Toy.single_safe _ _ _ (by norm_num) (by norm_num)) (by decide +kernel)
  exact ⟨t, t', h1, h2.width, h2.height, h2.data⟩

/-- Above 2^32 channel values the offsets wrap before the size does: in a 32769x32768 R8G8B8A8
surface, the job of texel number 2^30 writes the first bytes of the surface. -/
theorem C15_fails_offsets (X : Ext) (img : FImg) (hw : img.width = 32769) (hh : img.height = 32768)
    (hpx : ∀ x y, img.px x y = ⟨0, 0, 0, 0⟩) :
    (Conv.unorm 1 4).initSize ⟨.R8G8B8A8, .UNorm, .Standard, {}, .Linear, .Normal, 1⟩ img =
      32769 * 32768 * 4 ∧
    ∃ ws, stdProcess X (.unorm 1 4) img (2 ^ 25) = .ok ws ∧ (0, 0) ∈ ws := by
  refine ⟨?_, ?_⟩
  · simp only [Conv.initSize, Conv.isStandard, if_true, hw, hh, Conv.elem]; decide
  · have hq : toUNorm 255 255 0 = .ok 0 := by decide +kernel
    have hbytes : texelBytes X (.unorm 1 4) ⟨0, 0, 0, 0⟩ = .ok [0, 0, 0, 0] := by
      simp [texelBytes, mapRes, chanBytes, Conv.channels, Pixel.chans, hq, leBytes]
    unfold stdProcess
    have hb : u32 (u32 (2 ^ 25 * batchSize) * (Conv.unorm 1 4).elem.2) * (Conv.unorm 1 4).elem.1 = 0 := by
      decide
    rw [hb, show batchSize = 32 from rfl, stdLoop_eq X (.unorm 1 4) img (2 ^ 25) 0
      (fun p bs h => texel_len X (c := ⟨true, true, true, true⟩) (f := .R8G8B8A8) (t := .UNorm) rfl rfl p bs h)
      (by rw [hw, hh]; decide) (by rw [hw, hh]; decide) 32 0 _ rfl (by rw [hw, hh]; decide)
      (fun _ => by rw [hw]; rfl) (fun h => absurd h (by decide)),
      mapRes_all_ok (g := fun _ => [0, 0, 0, 0]) (fun i _ => by unfold texelNo; rw [hpx, hbytes]), hw, hh]
    exact ⟨_, rfl, by decide⟩

/-- A 3x2 image converted to R4G4: six texels, row by row. -/
example : ∃ t t', Conversion Toy.ext Toy.view Toy.real t t' .R4G4 .UNorm ∧
    Surface Toy.view t t' none 0 0
      (Toy.view ⟨3, 2, true, .Linear, [0, 0x3F800000, 0x3F000000, 0x3E800000, 0x7F800000, 0x3DCCCCCD]⟩)
      [0x00, 0xFF, 0x88, 0x44, 0xFF, 0x22] ∧ Fits .R4G4 3 2 := by
  obtain ⟨t, t', h1, h2⟩ := Toy.sample
    (ops := Toy.single 3 2 [0, 0x3F800000, 0x3F000000, 0x3E800000, 0x7F800000, 0x3DCCCCCD])
    (f := .R4G4) (ty := .UNorm)
    (face := none) (m := 0) (d := 0) (expected := [0x00, 0xFF, 0x88, 0x44, 0xFF, 0x22])
    (g := ⟨3, 2, true, .Linear, [0, 0x3F800000, 0x3F000000, 0x3E800000, 0x7F800000, 0x3DCCCCCD]⟩)
    (Toy.single_safe _ _ _ (by norm_num) (by norm_num)) (by decide +kernel)
  exact ⟨t, t', h1, h2, by norm_num, by norm_num, by simp only [layout]; decide⟩

end Cuttlefish
