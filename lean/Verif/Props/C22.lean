import Verif.Proofs.SavePvr
import Verif.Proofs.SaveSample
/-
C22: PVR files can be read back.
-/
namespace Cuttlefish
open Spec
variable {Img : Type}

theorem saved_pvr {t : Tex Img} {f : Format} {ty : TType} {w h d L : Nat}
    {px : Nat → Nat → Nat → List UInt8} (hS : Shaped t f ty w h d L px)
    (hv : isValidForPvr f ty = true) :
    ∃ pf, pvrPixelFormat f t.alphaType = some pf ∧ FullFile t .PVR (pvrBytes t f ty w h d L px pf) := by
  have h1 := pvr_valid f ty t.alphaType
  rw [hv] at h1
  obtain ⟨pf, hpf⟩ := Option.isSome_iff_exists.1 h1
  obtain ⟨as, ha, hw⟩ := pvr_written hS pf
  refine ⟨pf, hpf, ?_⟩
  have hs : saveActs t .PVR = some (.ok as) := by
    simp only [saveActs, hS.format, hpf]
    rw [Option.map_some, ha]
  unfold FullFile
  rw [save_run hS.converted hs, runActs_perfect, hw]
  simp

/-- A converted texture saved as PVR: a reader for the PVR format gets back the extents, the array
length, the numbers of faces and levels, the colour space, whether alpha is premultiplied, metadata
that tells arrays, 1D textures and the two variants of BC1 apart, and exactly the bytes of every
surface; there is nothing else in the file.

Partial: textures in PVRTC1 must have sizes that are powers of two, and the sizes must fit the 32-bit arithmetic of the converters (`Fits`, see `C03_fails_large`). -/
theorem C22_pvr_partial (X : Ext) (hX : CodecSizes X) (view : Img → FImg) (W : World Img)
    (t t' : Tex Img) (f : Format) (ty : TType) (hC : Conversion X view W t t' f ty)
    (hv : isFormatValidFile W.feat f ty .PVR = true) (w h d : Nat)
    (hw : t'.widthAt 0 = .ok w) (hh : t'.heightAt 0 = .ok h) (hd : t'.depthAt 0 = .ok d)
    (hp : Pow2For f w h) (hf : Fits f w h) :
    ∃ bytes file, FullFile t' .PVR bytes ∧ parsePvr bytes = some file ∧
      file.width = w ∧ file.height = h ∧
      file.depth = (if t'.dimension = .Dim3D then d else 1) ∧
      file.surfaces = (if t'.dimension = .Dim3D then 1 else d) ∧
      file.faces = t'.faceCount ∧ file.levels = t'.mipLevelCount ∧
      file.colourSpace = (if t'.colorSpace = .sRGB then 1 else 0) ∧
      file.flags = (if t'.alphaType = .PreMultiplied then 2 else 0) ∧
      file.entries =
        (if f = .BC1_RGBA then [⟨ascii "CTFS", ascii "BC1A", [0, 0, 0, 0]⟩] else []) ++
        (if f = .BC1_RGB then [⟨ascii "CTFS", ascii "BC1" ++ [0], [0, 0, 0, 0]⟩] else []) ++
        (if t'.isArray then [⟨ascii "CTFS", ascii "ARRY", [0, 0, 0, 0]⟩] else []) ++
        (if t'.dimension = .Dim1D then [⟨ascii "CTFS", ascii "DIM1", [0, 0, 0, 0]⟩] else []) ∧
      ∀ face m k, Addressable t' face m k → ∃ data, t'.data face m k = .ok (some data) ∧
        file.image m (if t'.dimension = .Dim3D then 0 else k) (faceNumber face)
          (if t'.dimension = .Dim3D then k else 0) = some data := by
  obtain ⟨w', h', d', L, hS⟩ := hC.shaped
  have hw' := hS.width 0 hS.levelsPos
  have hh' := hS.height 0 hS.levelsPos
  have hd' := hS.depth 0 hS.levelsPos
  rw [hw] at hw'; rw [hh] at hh'; rw [hd] at hd'
  simp only [Res.ok.injEq, extent] at hw' hh' hd'
  subst hw' hh' hd'
  have hvp : isValidForPvr f ty = true := by
    have h0 := hv
    simp only [isFormatValidFile, hC.valid] at h0
    simpa using h0
  obtain ⟨pf, hpf, hfull⟩ := saved_pvr hS hvp
  have hZ := hC.sized hX hp hS hf
  obtain ⟨hb, hq, hlt⟩ := pvr_codes hpf
  refine ⟨_, _, hfull, reads_all (pvr_reads hS hZ pf hlt hb hq), rfl, rfl, ?_, ?_, rfl, hS.levels.symm, rfl, rfl,
    ?_, ?_⟩
  · unfold depthExtent
    by_cases h3 : t'.dimension = .Dim3D <;> simp [h3, extent]
  · unfold depthExtent elementsOf
    by_cases h3 : t'.dimension = .Dim3D <;> simp [h3]
  · simp [pvrEntriesOf]
  · intro face m k ha
    obtain ⟨a1, a2, a3, a4⟩ := addressable_data hS ha
    refine ⟨_, a4, ?_⟩
    obtain ⟨b1, b2, b3⟩ := address_split t' a2
    have := image_get (v := fun m e fc s => pxOf t' m (depthIndex t' e s) fc) (S := slicesOf t' d') a1 b1 a3 b2
    simp only [b3] at this
    exact this

/-- An array of two 3x3 cube maps with two levels, converted to R8G8B8, meets the hypotheses. -/
example : ∃ t t', Conversion Toy.ext Toy.view Toy.real t t' .R8G8B8 .UNorm ∧
    t'.dimension = .Cube ∧ t'.isArray = true ∧ t'.mipLevelCount = 2 ∧
    t'.widthAt 0 = .ok 3 ∧ t'.heightAt 0 = .ok 3 ∧ t'.depthAt 0 = .ok 2 ∧ Fits .R8G8B8 3 3 ∧
    isFormatValidFile Toy.real.feat .R8G8B8 .UNorm .PVR = true := by
  obtain ⟨t, t', h1, h2⟩ := Toy.sampleTex (ops := Toy.fill .Cube 3 3 2 2 .Linear 7) (f := .R8G8B8)
    (ty := .UNorm) (p := fun t => t.dimension = .Cube ∧ t.isArray = true ∧ t.mipLevelCount = 2 ∧
      t.widthAt 0 = .ok 3 ∧ t.heightAt 0 = .ok 3 ∧ t.depthAt 0 = .ok 2)
    (Toy.fill_safe _ _ _ _ _ _ _ (by norm_num) (by norm_num) (by norm_num)) (by decide +kernel)
  simp only [decide_eq_true_eq] at h2
  obtain ⟨a, b, c, e, g, i⟩ := h2
  refine ⟨t, t', h1, a, b, c, e, g, i, ⟨by norm_num, by norm_num, ?_⟩, by decide⟩
  simp only [layout]; decide

/-- An array of two 8x4 textures with four levels, converted to PVRTC1, whose last levels are smaller than a block,
meets the hypotheses. -/
example : ∃ t t', Conversion Toy.ext Toy.view Toy.real t t' .PVRTC1_RGB_4BPP .UNorm ∧
    t'.dimension = .Dim2D ∧ t'.isArray = true ∧ t'.mipLevelCount = 4 ∧
    t'.widthAt 0 = .ok 8 ∧ t'.heightAt 0 = .ok 4 ∧ t'.depthAt 0 = .ok 2 ∧ Fits .PVRTC1_RGB_4BPP 8 4 ∧
    Pow2For .PVRTC1_RGB_4BPP 8 4 ∧ isFormatValidFile Toy.real.feat .PVRTC1_RGB_4BPP .UNorm .PVR = true := by
  obtain ⟨t, t', h1, h2⟩ := Toy.sampleTex (ops := Toy.fill .Dim2D 8 4 2 4 .Linear 7) (f := .PVRTC1_RGB_4BPP)
    (ty := .UNorm) (p := fun t => t.dimension = .Dim2D ∧ t.isArray = true ∧ t.mipLevelCount = 4 ∧
      t.widthAt 0 = .ok 8 ∧ t.heightAt 0 = .ok 4 ∧ t.depthAt 0 = .ok 2 ∧ t.faceCount = 1)
    (Toy.fill_safe _ _ _ _ _ _ _ (by norm_num) (by norm_num) (by norm_num)) (by decide +kernel)
  simp only [decide_eq_true_eq] at h2
  obtain ⟨a, b, c, e, g, i, j⟩ := h2
  refine ⟨t, t', h1, a, b, c, e, g, i, ⟨by norm_num, by norm_num, ?_⟩, by decide, by decide⟩
  simp only [layout]; decide

end Cuttlefish
