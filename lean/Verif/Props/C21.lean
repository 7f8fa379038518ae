import Verif.Proofs.SaveDds
import Verif.Proofs.SaveSample
/-
C21: DDS files can be read back.
-/
namespace Cuttlefish
open Spec
variable {Img : Type}

theorem saved_dds {t : Tex Img} {f : Format} {ty : TType} {w h d L : Nat}
    {px : Nat → Nat → Nat → List UInt8} (hS : Shaped t f ty w h d L px)
    (hv : isValidForDds f ty = true) :
    ∃ pitch, pitch < 2 ^ 32 ∧
      FullFile t .DDS (ddsBytes t f w h d L px (ddsFormat f ty t.colorSpace) pitch) := by
  have h1 := (dds_valid f ty t.colorSpace).2 hv
  obtain ⟨as, pitch, hp, ha, hw⟩ := dds_written hS (ddsFormat f ty t.colorSpace)
  refine ⟨pitch, hp, ?_⟩
  have hs : saveActs t .DDS = some (.ok as) := by
    simp only [saveActs, hS.format, hS.type]
    rw [if_neg h1, ha]
  unfold FullFile
  rw [save_run hS.converted hs, runActs_perfect, hw]
  simp

/-- A converted texture saved as DDS: a reader for the DDS format gets back the extents, the array
length, whether it is a 1D, 2D, 3D or cube texture, the number of levels, and exactly the bytes of
every surface; there is nothing else in the file.

Partial: a 1D texture must have height 1 (the code accepts other heights, see
`C21_fails_1d`), and the sizes must fit the 32-bit arithmetic of the converters (`Fits`, see
`C03_fails_large`). -/
theorem C21_dds_partial (X : Ext) (hX : CodecSizes X) (view : Img → FImg) (W : World Img)
    (t t' : Tex Img) (f : Format) (ty : TType) (hC : Conversion X view W t t' f ty)
    (hv : isFormatValidFile W.feat f ty .DDS = true) (w h d : Nat)
    (hw : t'.widthAt 0 = .ok w) (hh : t'.heightAt 0 = .ok h) (hd : t'.depthAt 0 = .ok d)
    (hf : Fits f w h) (h1d : t'.dimension = .Dim1D → h = 1) :
    ∃ bytes file, FullFile t' .DDS bytes ∧ parseDds bytes = some file ∧
      file.width = w ∧ file.height = h ∧
      file.depth = (if t'.dimension = .Dim3D then d else 1) ∧
      file.arraySize = (if t'.dimension = .Dim3D then 1 else d) ∧
      file.levels = t'.mipLevelCount ∧
      file.dimension = (match t'.dimension with
        | .Dim1D => 2
        | .Dim2D | .Cube => 3
        | .Dim3D => 4) ∧
      (file.cube = true ↔ t'.dimension = .Cube) ∧
      ∀ face m k, Addressable t' face m k → ∃ data, t'.data face m k = .ok (some data) ∧
        file.image (if t'.dimension = .Dim3D then 0 else k) (faceNumber face) m
          (if t'.dimension = .Dim3D then k else 0) = some data := by
  obtain ⟨w', h', d', L, hS⟩ := hC.shaped
  have hw' := hS.width 0 hS.levelsPos
  have hh' := hS.height 0 hS.levelsPos
  have hd' := hS.depth 0 hS.levelsPos
  rw [hw] at hw'; rw [hh] at hh'; rw [hd] at hd'
  simp only [Res.ok.injEq, extent] at hw' hh' hd'
  subst hw' hh' hd'
  have hvd : isValidForDds f ty = true := by
    have h0 := hv
    simp only [isFormatValidFile, hC.valid] at h0
    simpa using h0
  obtain ⟨pitch, hpitch, hfull⟩ := saved_dds hS hvd
  obtain ⟨hb, hlt, hp⟩ := dds_codes hC.valid ((dds_valid f ty t'.colorSpace).2 hvd)
  have hZ := hC.sized hX (pow2For_other (isPvrtc1_false hp) _ _) hS hf
  refine ⟨_, _, hfull, reads_all (dds_reads hS hZ _ pitch hlt hpitch hb (isPvrtc1_false hp) h1d), rfl, rfl, ?_, ?_,
    hS.levels.symm, ?_, by simp, ?_⟩
  · unfold depthExtent
    by_cases h3 : t'.dimension = .Dim3D <;> simp [h3, extent]
  · unfold depthExtent elementsOf
    by_cases h3 : t'.dimension = .Dim3D <;> simp [h3]
  · simp only; cases t'.dimension <;> rfl
  · intro face m k ha
    obtain ⟨a1, a2, a3, a4⟩ := addressable_data hS ha
    refine ⟨_, a4, ?_⟩
    obtain ⟨b1, b2, b3⟩ := address_split t' a2
    simp [DdsFile.image, List.getElem?_map, List.getElem?_range, a1, a3, b1, b2, b3]

/-- The full claim is false for 1D textures with more than one row: their files have resource
dimension 1D and a height, which readers must reject. -/
theorem C21_fails_1d : ∃ t t', Conversion Toy.ext Toy.view Toy.real t t' .R8 .UNorm ∧
    t'.dimension = .Dim1D ∧ t'.heightAt 0 = .ok 2 ∧
    ∃ bytes, FullFile t' .DDS bytes ∧ parseDds bytes = none := by
  obtain ⟨t, t', h1, h2⟩ := Toy.sampleTex (ops := Toy.fill .Dim1D 3 2 0 1 .Linear 7) (f := .R8)
    (ty := .UNorm) (p := fun t => t.dimension = .Dim1D ∧ t.heightAt 0 = .ok 2 ∧
      Toy.savedAs .DDS (fun b => (parseDds b).isNone) t)
    (Toy.fill_safe _ _ _ _ _ _ _ (by norm_num) (by norm_num) (by norm_num)) (by decide +kernel)
  simp only [decide_eq_true_eq] at h2
  obtain ⟨a, b, c⟩ := h2
  obtain ⟨bytes, b1, b2⟩ := Toy.savedAs_full c
  exact ⟨t, t', h1, a, b, bytes, b1, by simpa using b2⟩

/-- A 3D texture, converted to R8, meets the hypotheses. -/
example : ∃ t t', Conversion Toy.ext Toy.view Toy.real t t' .R8 .UNorm ∧
    t'.dimension = .Dim3D ∧ t'.mipLevelCount = 1 ∧
    t'.widthAt 0 = .ok 3 ∧ t'.heightAt 0 = .ok 2 ∧ t'.depthAt 0 = .ok 3 ∧ Fits .R8 3 2 ∧
    isFormatValidFile Toy.real.feat .R8 .UNorm .DDS = true := by
  obtain ⟨t, t', h1, h2⟩ := Toy.sampleTex (ops := Toy.fill .Dim3D 3 2 3 1 .Linear 7) (f := .R8)
    (ty := .UNorm) (p := fun t => t.dimension = .Dim3D ∧ t.mipLevelCount = 1 ∧
      t.widthAt 0 = .ok 3 ∧ t.heightAt 0 = .ok 2 ∧ t.depthAt 0 = .ok 3)
    (Toy.fill_safe _ _ _ _ _ _ _ (by norm_num) (by norm_num) (by norm_num)) (by decide +kernel)
  simp only [decide_eq_true_eq] at h2
  obtain ⟨a, b, c, e, g⟩ := h2
  refine ⟨t, t', h1, a, b, c, e, g, ⟨by norm_num, by norm_num, ?_⟩, by decide⟩
  simp only [layout]; decide

end Cuttlefish
