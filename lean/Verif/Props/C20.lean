import Verif.Proofs.SaveKtx
import Verif.Proofs.SaveSample
/-
C20: KTX files can be read back.
-/
namespace Cuttlefish
open Spec
variable {Img : Type}

theorem saved_ktx {c : Features} {t : Tex Img} {f : Format} {ty : TType} {w h d L : Nat}
    {px : Nat → Nat → Nat → List UInt8} (hS : Shaped t f ty w h d L px) (hZ : Sized t f w h d L px)
    (hk : KtxFits t f w h d) (hc : isFormatValid c f ty = true) (hv : isValidForKtx f ty = true) :
    ∃ info fm, ktxInfo f ty t.colorSpace = some info ∧ info.format = some fm ∧
      FullFile t .KTX (ktxBytes t f w h d L px info fm) := by
  have h1 := ktx_valid f ty t.colorSpace
  rw [hv] at h1
  obtain ⟨info, hi⟩ := Option.isSome_iff_exists.1 h1
  obtain ⟨fm, hfm⟩ := ktx_format hc hi
  obtain ⟨p1, p2, -, p3, -⟩ := block_pos hc
  obtain ⟨as, ha, hw⟩ := ktx_written hS hZ ⟨p1, p2, p3.1⟩ hk info fm hfm
  refine ⟨info, fm, hi, hfm, ?_⟩
  have hs : saveActs t .KTX = some (.ok as) := by
    simp only [saveActs, hS.format, hS.type]
    rw [hi, Option.map_some, ha]
  unfold FullFile
  rw [save_run hS.converted hs, runActs_perfect, hw, List.nil_append]

/-- A converted texture saved as KTX: a reader for the KTX format gets back the extents, the array
length, the number of faces and levels, and exactly the bytes of every surface. The reader also
checks that each level's size field is the number of bytes of that level, and that nothing follows
the last level.

Partial: textures in PVRTC1 must have sizes that are powers of two; a 1D texture must have height 1 (the code accepts other heights, see `C20_fails_1d`); the sizes must fit the 32-bit
arithmetic of the converters (`Fits`, see `C03_fails_large`) and the size of a level must fit the
32-bit field of the file (the code does not check it, see `C20_fails_large`). -/
theorem C20_ktx_partial (X : Ext) (hX : CodecSizes X) (view : Img → FImg) (W : World Img)
    (t t' : Tex Img) (f : Format) (ty : TType) (hC : Conversion X view W t t' f ty)
    (hv : isFormatValidFile W.feat f ty .KTX = true) (w h d : Nat)
    (hw : t'.widthAt 0 = .ok w) (hh : t'.heightAt 0 = .ok h) (hd : t'.depthAt 0 = .ok d)
    (hp : Pow2For f w h) (hf : Fits f w h) (h1d : t'.dimension = .Dim1D → h = 1)
    (hk : d * (if t'.isArray then t'.faceCount else 1) * ktxImageBytes f w h < 2 ^ 32) :
    ∃ bytes file, FullFile t' .KTX bytes ∧ parseKtx bytes = some file ∧
      file.width = w ∧ file.height = (if t'.dimension = .Dim1D then 0 else h) ∧
      file.depth = (if t'.dimension = .Dim3D then d else 0) ∧
      file.arrayElements = (if t'.isArray then d else 0) ∧
      file.faces = (if t'.dimension = .Cube then 6 else 1) ∧
      file.levels = t'.mipLevelCount ∧
      ∀ face m k, Addressable t' face m k → ∃ data, t'.data face m k = .ok (some data) ∧
        file.image m (if t'.dimension = .Dim3D then 0 else k) (faceNumber face)
          (if t'.dimension = .Dim3D then k else 0) = some data := by
  obtain ⟨w', h', d', L, hS⟩ := hC.shaped
  have hw' := hS.width 0 hS.levelsPos
  have hh' := hS.height 0 hS.levelsPos
  have hd' := hS.depth 0 hS.levelsPos
  rw [hw] at hw'; rw [hh] at hh'; rw [hd] at hd'
  simp only [Res.ok.injEq, extent] at hw' hh' hd'
  subst hw' hh' hd'
  have hvk : isValidForKtx f ty = true := by
    have h0 := hv
    simp only [isFormatValidFile, hC.valid] at h0
    simpa using h0
  have hZ := hC.sized hX hp hS hf
  obtain ⟨info, fm, hi, hfm, hfull⟩ := saved_ktx hS hZ hk hC.valid hvk
  obtain ⟨p1, p2, -, p3, -⟩ := block_pos hC.valid
  have hcodes := ktx_codes hC.valid hi
  refine ⟨_, _, hfull, reads_all (ktx_reads hS hZ ⟨p1, p2, p3.1⟩ hk info fm hfm hcodes h1d), rfl, rfl,
    ?_, rfl, hS.faces, hS.levels.symm, ?_⟩
  · unfold depthExtent
    by_cases h3 : t'.dimension = .Dim3D <;> simp [h3, extent]
  · intro face m k ha
    obtain ⟨a1, a2, a3, a4⟩ := addressable_data hS ha
    refine ⟨_, a4, ?_⟩
    obtain ⟨b1, b2, b3⟩ := address_split t' a2
    simp [KtxFile.image, List.getElem?_map, List.getElem?_range, a1, a3, b1, b2, b3]

/-- The full claim is false for 1D textures with more than one row: the file says height 0, so
readers expect a single row. -/
theorem C20_fails_1d : ∃ t t', Conversion Toy.ext Toy.view Toy.real t t' .R8 .UNorm ∧
    t'.dimension = .Dim1D ∧ t'.heightAt 0 = .ok 2 ∧
    ∃ bytes, FullFile t' .KTX bytes ∧ parseKtx bytes = none := by
  obtain ⟨t, t', h1, h2⟩ := Toy.sampleTex (ops := Toy.fill .Dim1D 3 2 0 1 .Linear 7) (f := .R8)
    (ty := .UNorm) (p := fun t => t.dimension = .Dim1D ∧ t.heightAt 0 = .ok 2 ∧
      Toy.savedAs .KTX (fun b => (parseKtx b).isNone) t)
    (Toy.fill_safe _ _ _ _ _ _ _ (by norm_num) (by norm_num) (by norm_num)) (by decide +kernel)
  simp only [decide_eq_true_eq] at h2
  obtain ⟨a, b, c⟩ := h2
  obtain ⟨bytes, b1, b2⟩ := Toy.savedAs_full c
  exact ⟨t, t', h1, a, b, bytes, b1, by simpa using b2⟩

theorem actsFor_ub {α : Type} {x : α} {xs : List α} {body : α → Res (List Act)}
    (h : body x = .ub) : actsFor (x :: xs) body = .ub := by
  simp [actsFor, mapRes, h]

theorem range_pos {n : Nat} (h : 0 < n) : ∃ xs, List.range n = 0 :: xs := by
  obtain ⟨m, rfl⟩ := Nat.exists_eq_succ_of_ne_zero (by omega : n ≠ 0)
  exact ⟨_, List.range_succ_eq_map⟩

/-- An uncompressed surface without bytes cannot be saved. -/
theorem ktx_empty {t : Tex Img} {f : Format} {ty : TType} {w h d L : Nat}
    {px : Nat → Nat → Nat → List UInt8} (hS : Shaped t f ty w h d L px)
    (hb : blockWidth f = 1) (hv : isValidForKtx f ty = true)
    (hw : 0 < u32 (w * blockSize f)) (he : px 0 0 0 = []) (D : Device) (s : OStream) :
    t.save D .KTX s = .ub := by
  have h1 := ktx_valid f ty t.colorSpace
  rw [hv] at h1
  obtain ⟨info, hi⟩ := Option.isSome_iff_exists.1 h1
  have hl : actsFor (List.range t.mipLevelCount)
      (ktxLevel t (1 < blockWidth f) (blockSize f)) = .ub := by
    obtain ⟨xs, hx⟩ := range_pos (n := t.mipLevelCount) (by rw [hS.levels]; exact hS.levelsPos)
    rw [hx]
    refine actsFor_ub ?_
    have hs : ktxSurface t (1 < blockWidth f) (blockSize f) 0 0 0 = .ub := by
      unfold ktxSurface
      rw [surfaceBytes_eq hS hS.levelsPos (depthExtent_pos' hS 0) (faces_pos hS), he, Res.ok_bind]
      have hd1 : decide (1 < blockWidth f) = false := by simp [hb]
      rw [hd1]
      simp only [Bool.false_eq_true, if_false]
      rw [hS.width 0 hS.levelsPos, hS.height 0 hS.levelsPos, Res.ok_bind, Res.ok_bind]
      unfold ktxRows
      obtain ⟨ys, hy⟩ := range_pos (extent_pos h 0 hS.hPos)
      rw [hy]
      refine actsFor_ub ?_
      rw [if_neg]
      simp only [extent, List.length_nil]
      omega
    unfold ktxLevel
    cases hsz : ktxImageSize t (1 < blockWidth f) (blockSize f) 0 with
    | ub => rfl
    | ok n =>
      rw [hS.depth 0 hS.levelsPos, Res.ok_bind, Res.ok_bind]
      obtain ⟨ys, hy⟩ := range_pos (depthExtent_pos' hS 0)
      obtain ⟨zs, hz⟩ := range_pos (faces_pos hS)
      have hz' : actsFor (0 :: ys) (fun d => actsFor (0 :: zs) (fun face =>
          ktxSurface t (1 < blockWidth f) (blockSize f) 0 d face)) = .ub :=
        actsFor_ub (actsFor_ub hs)
      rw [hy, hz, hz']
      rfl
  have ha : ktxActs info t = .ub := by
    unfold ktxActs
    rw [hS.format, hl]
    cases info.format <;> simp [assigned]
    rw [hS.width 0 hS.levelsPos, hS.height 0 hS.levelsPos, hS.depth 0 hS.levelsPos]
    rfl
  unfold Tex.save
  simp only [hS.converted]
  simp [saveKtx, hS.format, hS.type, hi, ha]

/-- The full claim is false for large surfaces: a 65536x65536 R8 surface has no bytes (see
`C03_fails_large`), and saving it reads past the end of its data. -/
theorem C20_fails_large : ∃ t t', Conversion Toy.ext Toy.view Toy.real t t' .R8 .UNorm ∧
    t'.widthAt 0 = .ok 65536 ∧ t'.heightAt 0 = .ok 65536 ∧
    ∀ D s, t'.save D .KTX s = .ub := by
  obtain ⟨t, t', h1, h2⟩ := Toy.sample (ops := Toy.single 65536 65536 [0]) (f := .R8) (ty := .UNorm)
    (face := some .PosX) (m := 0) (d := 0) (expected := []) (g := ⟨65536, 65536, true, .Linear, [0]⟩)
    (Toy.single_safe _ _ _ (by norm_num) (by norm_num)) (by decide +kernel)
  refine ⟨t, t', h1, h2.width, h2.height, ?_⟩
  obtain ⟨w, h, d, L, hS⟩ := h1.shaped
  have hw := hS.width 0 hS.levelsPos
  rw [h2.width] at hw
  simp only [Res.ok.injEq, extent] at hw
  have hpx : pxOf t' 0 0 0 = [] := by
    unfold pxOf
    rw [show CubeFace.ofIndex 0 = .PosX from rfl, h2.data]
  exact ktx_empty hS rfl (by decide) (by rw [← hw]; decide) hpx

/-- A cube array with two levels and odd extents, so rows are padded, meets the hypotheses. -/
example : ∃ t t', Conversion Toy.ext Toy.view Toy.real t t' .R8G8B8 .UNorm ∧
    t'.dimension = .Cube ∧ t'.isArray = true ∧ t'.mipLevelCount = 2 ∧
    t'.widthAt 0 = .ok 3 ∧ t'.heightAt 0 = .ok 3 ∧ t'.depthAt 0 = .ok 2 ∧ Fits .R8G8B8 3 3 ∧
    isFormatValidFile Toy.real.feat .R8G8B8 .UNorm .KTX = true ∧
    2 * (if t'.isArray then t'.faceCount else 1) * ktxImageBytes .R8G8B8 3 3 < 2 ^ 32 := by
  obtain ⟨t, t', h1, h2⟩ := Toy.sampleTex (ops := Toy.fill .Cube 3 3 2 2 .Linear 7) (f := .R8G8B8)
    (ty := .UNorm) (p := fun t => t.dimension = .Cube ∧ t.isArray = true ∧ t.mipLevelCount = 2 ∧
      t.widthAt 0 = .ok 3 ∧ t.heightAt 0 = .ok 3 ∧ t.depthAt 0 = .ok 2 ∧ t.faceCount = 6)
    (Toy.fill_safe _ _ _ _ _ _ _ (by norm_num) (by norm_num) (by norm_num)) (by decide +kernel)
  simp only [decide_eq_true_eq] at h2
  obtain ⟨a, b, c, e, g, i, j⟩ := h2
  refine ⟨t, t', h1, a, b, c, e, g, i, ⟨by norm_num, by norm_num, ?_⟩, by decide, ?_⟩
  · simp only [layout]; decide
  · rw [b, j]; decide

/-- An array of two 8x4 textures with four levels, converted to PVRTC1, whose last levels are smaller than a block,
meets the hypotheses. -/
example : ∃ t t', Conversion Toy.ext Toy.view Toy.real t t' .PVRTC1_RGB_4BPP .UNorm ∧
    t'.dimension = .Dim2D ∧ t'.isArray = true ∧ t'.mipLevelCount = 4 ∧
    t'.widthAt 0 = .ok 8 ∧ t'.heightAt 0 = .ok 4 ∧ t'.depthAt 0 = .ok 2 ∧ Fits .PVRTC1_RGB_4BPP 8 4 ∧
    Pow2For .PVRTC1_RGB_4BPP 8 4 ∧ isFormatValidFile Toy.real.feat .PVRTC1_RGB_4BPP .UNorm .KTX = true ∧
    2 * (if t'.isArray then t'.faceCount else 1) * ktxImageBytes .PVRTC1_RGB_4BPP 8 4 < 2 ^ 32 := by
  obtain ⟨t, t', h1, h2⟩ := Toy.sampleTex (ops := Toy.fill .Dim2D 8 4 2 4 .Linear 7) (f := .PVRTC1_RGB_4BPP)
    (ty := .UNorm) (p := fun t => t.dimension = .Dim2D ∧ t.isArray = true ∧ t.mipLevelCount = 4 ∧
      t.widthAt 0 = .ok 8 ∧ t.heightAt 0 = .ok 4 ∧ t.depthAt 0 = .ok 2 ∧ t.faceCount = 1)
    (Toy.fill_safe _ _ _ _ _ _ _ (by norm_num) (by norm_num) (by norm_num)) (by decide +kernel)
  simp only [decide_eq_true_eq] at h2
  obtain ⟨a, b, c, e, g, i, j⟩ := h2
  refine ⟨t, t', h1, a, b, c, e, g, i, ⟨by norm_num, by norm_num, ?_⟩, by decide, by decide, by rw [b, j]; decide⟩
  simp only [layout]; decide

end Cuttlefish
