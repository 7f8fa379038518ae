import Verif.Props.C20
import Verif.Props.C21
import Verif.Props.C22
/-
C02: the format query for file types predicts the result of `save()`.
-/
namespace Cuttlefish
open Spec
variable {Img : Type}

/-- The result the query promises. -/
def Spec.promised (c : Features) (f : Format) (ty : TType) (ft : FileType) : SaveResult :=
  if ft = .Auto then .UnknownFormat
  else if isFormatValidFile c f ty ft then .Success else .Unsupported

theorem mapRes_defined {α β : Type} {xs : List α} {g : α → Res β} (h : ∀ x ∈ xs, ∃ y, g x = .ok y) :
    ∃ ys, mapRes g xs = .ok ys := by
  induction xs with
  | nil => exact ⟨[], rfl⟩
  | cons x xs ih =>
    obtain ⟨y, hy⟩ := h x (by simp)
    obtain ⟨ys, hys⟩ := ih (fun z hz => h z (by simp [hz]))
    exact ⟨y :: ys, by simp [mapRes, hy, hys]⟩

theorem actsFor_defined {α : Type} {xs : List α} {body : α → Res (List Act)}
    (h : ∀ x ∈ xs, ∃ as, body x = .ok as) : ∃ as, actsFor xs body = .ok as := by
  obtain ⟨ys, hys⟩ := mapRes_defined h
  exact ⟨_, by simp only [actsFor, hys, Res.ok_bind]; rfl⟩

theorem ktx_defined {t : Tex Img} {f : Format} {ty : TType} {w h d L : Nat}
    {px : Nat → Nat → Nat → List UInt8} (hS : Shaped t f ty w h d L px)
    (hZ : blockWidth f = 1 → blockHeight f = 1 ∧ Sized t f w h d L px) (hb : 0 < blockWidth f)
    (info : KtxInfo) (fm : Nat) (hfm : info.format = some fm) : ∃ as, ktxActs info t = .ok as := by
  have hsurf : ∀ m k fc, m < L → k < depthExtent t.dimension d m → fc < t.faceCount →
      ∃ as, ktxSurface t (1 < blockWidth f) (blockSize f) m k fc = .ok as := by
    intro m k fc hm hk hf
    unfold ktxSurface
    rw [surfaceBytes_eq hS hm hk hf, Res.ok_bind]
    by_cases h1 : blockWidth f = 1
    · have hd1 : decide (1 < blockWidth f) = false := by simp [h1]
      rw [hd1]
      simp only [Bool.false_eq_true, if_false]
      rw [hS.width m hm, hS.height m hm, Res.ok_bind, Res.ok_bind]
      refine actsFor_defined (fun y hy => ?_)
      rw [List.mem_range] at hy
      rw [if_pos]
      · exact ⟨_, rfl⟩
      · have hz := (hZ h1).2 m k fc hm hk hf
        rw [surfaceSize_eq (pvrtc1_wide h1)] at hz
        have e : ceilDiv (extent w m) 1 * ceilDiv (extent h m) 1 * blockSize f =
            extent h m * (extent w m * blockSize f) := by
          simp only [ceilDiv, Nat.mod_one, Nat.div_one, if_true]; ring
        rw [h1, (hZ h1).1, e] at hz
        rw [hz]
        exact Nat.mul_le_mul hy (Nat.mod_le _ _)
    · have hd1 : decide (1 < blockWidth f) = true := by simp; omega
      rw [hd1]
      exact ⟨_, rfl⟩
  have hlev : ∃ as, actsFor (List.range t.mipLevelCount)
      (ktxLevel t (1 < blockWidth f) (blockSize f)) = .ok as := by
    rw [hS.levels]
    refine actsFor_defined (fun m hm => ?_)
    rw [List.mem_range] at hm
    obtain ⟨as, ha⟩ : ∃ as, actsFor (List.range (depthExtent t.dimension d m)) (fun k =>
        actsFor (List.range t.faceCount) (fun fc =>
          ktxSurface t (1 < blockWidth f) (blockSize f) m k fc)) = .ok as :=
      actsFor_defined (fun k hk => actsFor_defined (fun fc hf => by
        rw [List.mem_range] at hk hf
        exact hsurf m k fc hm hk hf))
    obtain ⟨n, hn⟩ : ∃ n, ktxImageSize t (1 < blockWidth f) (blockSize f) m = .ok n := by
      unfold ktxImageSize
      rw [hS.depth m hm, Res.ok_bind, hS.width m hm, hS.height m hm]
      obtain ⟨ys, hys⟩ : ∃ ys, mapRes (fun _ =>
          if decide (1 < blockWidth f) = true then t.dataSize (some .PosX) m 0
          else do
            let w ← Res.ok (extent w m)
            let h ← Res.ok (extent h m)
            pure (u32 (u32 (u32 (u32 (w * blockSize f) + 3) / 4 * 4) * h)))
          (List.range (depthExtent t.dimension d m)) = .ok ys := by
        refine mapRes_defined (fun _ _ => ?_)
        split
        · have hpx := hS.data m 0 0 hm (depthExtent_pos' hS m) (faces_pos hS)
          unfold Tex.dataSize
          rw [show CubeFace.PosX = CubeFace.ofIndex 0 from rfl, hpx]
          exact ⟨_, rfl⟩
        · exact ⟨_, rfl⟩
      rw [hys]
      exact ⟨_, rfl⟩
    unfold ktxLevel
    rw [hn, hS.depth m hm, Res.ok_bind, Res.ok_bind, ha]
    exact ⟨_, rfl⟩
  obtain ⟨as, ha⟩ := hlev
  unfold ktxActs
  rw [hfm, hS.width 0 hS.levelsPos, hS.height 0 hS.levelsPos, hS.depth 0 hS.levelsPos, hS.format, ha]
  exact ⟨_, rfl⟩

/-- The result from what `saveActs` gives. -/
theorem save_result {t : Tex Img} (hc : t.converted = true) {ft : FileType} {s : OStream}
    (hs : s.good = true) {valid : Bool} (hft : ft ≠ .Auto)
    (h1 : valid = true → ∃ as, saveActs t ft = some (.ok as))
    (h2 : valid = false → saveActs t ft = none) :
    ∃ s', t.save Device.perfect ft s = .ok (if valid then .Success else .Unsupported, s') := by
  obtain ⟨b, g⟩ := s
  simp only at hs
  subst hs
  cases hv : valid
  · rw [save_eq, hc, h2 hv]
    simp [hft]
  · obtain ⟨as, ha⟩ := h1 hv
    rw [save_run hc ha, runActs_perfect]
    exact ⟨_, rfl⟩

/-- For a converted texture and a stream that never fails, `save` as DDS or PVR succeeds exactly when
the query says so and returns `Unsupported` otherwise; for an unknown file type it returns
`UnknownFormat`. No limit on sizes. -/
theorem C02_dds_pvr (X : Ext) (view : Img → FImg) (W : World Img) (t t' : Tex Img) (f : Format)
    (ty : TType) (hC : Conversion X view W t t' f ty) (ft : FileType) (hft : ft ≠ .KTX)
    (s : OStream) (hs : s.good = true) :
    ∃ s', t'.save Device.perfect ft s = .ok (promised W.feat f ty ft, s') := by
  obtain ⟨w, h, d, L, hS⟩ := hC.shaped
  have hv0 := hC.valid
  unfold promised isFormatValidFile
  rw [hv0]
  cases ft with
  | Auto =>
    rw [save_eq, hS.converted]
    simp [saveActs]
  | KTX => exact absurd rfl hft
  | DDS =>
    simp only [reduceCtorEq, if_false, Bool.not_true, Bool.false_eq_true]
    refine save_result hS.converted hs (by simp) (fun hv => ?_) (fun hv => ?_)
    · obtain ⟨as, pitch, hp, ha, -⟩ := dds_written hS (ddsFormat f ty t'.colorSpace)
      refine ⟨as, ?_⟩
      simp only [saveActs, hS.format, hS.type]
      rw [if_neg ((dds_valid f ty t'.colorSpace).2 hv), ha]
    · simp only [saveActs, hS.format, hS.type]
      rw [if_pos]
      by_contra hn
      have := (dds_valid f ty t'.colorSpace).1 hn
      rw [this] at hv
      cases hv
  | PVR =>
    simp only [reduceCtorEq, if_false, Bool.not_true, Bool.false_eq_true]
    refine save_result hS.converted hs (by simp) (fun hv => ?_) (fun hv => ?_)
    · have h1 := pvr_valid f ty t'.alphaType
      rw [hv] at h1
      obtain ⟨pf, hpf⟩ := Option.isSome_iff_exists.1 h1
      obtain ⟨as, ha, -⟩ := pvr_written hS pf
      refine ⟨as, ?_⟩
      simp only [saveActs, hS.format]
      rw [hpf, Option.map_some, ha]
    · have h1 := pvr_valid f ty t'.alphaType
      rw [hv] at h1
      simp only [saveActs, hS.format]
      rw [Option.isSome_eq_false_iff, Option.isNone_iff_eq_none] at h1
      rw [h1, Option.map_none]

/-- For a converted texture and a stream that never fails, `save` returns `Success` exactly when the
query says the format can be stored in the file type, `Unsupported` exactly when it says it cannot,
and `UnknownFormat` exactly when the file type is unknown.

Partial: saving an uncompressed format as KTX needs sizes that fit the 32-bit arithmetic of the
converters (`Fits`); otherwise the claim is false, see `C02_fails_large`. -/
theorem C02_save_result_partial (X : Ext) (hX : CodecSizes X) (view : Img → FImg) (W : World Img)
    (t t' : Tex Img) (f : Format) (ty : TType) (hC : Conversion X view W t t' f ty) (ft : FileType)
    (hk : ft = .KTX → blockWidth f = 1 → ∀ w h, t'.widthAt 0 = .ok w → t'.heightAt 0 = .ok h →
      Fits f w h) (s : OStream) (hs : s.good = true) :
    ∃ s', t'.save Device.perfect ft s = .ok (promised W.feat f ty ft, s') := by
  by_cases hft : ft = .KTX
  swap
  · exact C02_dds_pvr X view W t t' f ty hC ft hft s hs
  subst hft
  obtain ⟨w, h, d, L, hS⟩ := hC.shaped
  have hv0 := hC.valid
  obtain ⟨p1, p2, -, p3, p4⟩ := block_pos hv0
  unfold promised isFormatValidFile
  rw [hv0]
  simp only [reduceCtorEq, if_false, Bool.not_true, Bool.false_eq_true]
  refine save_result hS.converted hs (by simp) (fun hv => ?_) (fun hv => ?_)
  · have h1 := ktx_valid f ty t'.colorSpace
    rw [hv] at h1
    obtain ⟨info, hi⟩ := Option.isSome_iff_exists.1 h1
    obtain ⟨fm, hfm⟩ := ktx_format hv0 hi
    obtain ⟨as, ha⟩ := ktx_defined hS (fun hb => by
      refine ⟨p3.1 hb, hC.sized hX (pow2For_other (pvrtc1_wide hb) _ _) hS (hk rfl hb w h ?_ ?_)⟩
      · rw [hS.width 0 hS.levelsPos]; rfl
      · rw [hS.height 0 hS.levelsPos]; rfl) p1 info fm hfm
    refine ⟨as, ?_⟩
    simp only [saveActs, hS.format, hS.type]
    rw [hi, Option.map_some, ha]
  · have h1 := ktx_valid f ty t'.colorSpace
    rw [hv] at h1
    simp only [saveActs, hS.format, hS.type]
    rw [Option.isSome_eq_false_iff, Option.isNone_iff_eq_none] at h1
    rw [h1, Option.map_none]

/-- The full claim is false for large surfaces: the query accepts R8 for KTX, but saving the converted
65536x65536 texture reads past the end of its data. -/
theorem C02_fails_large : ∃ t t', Conversion Toy.ext Toy.view Toy.real t t' .R8 .UNorm ∧
    isFormatValidFile Toy.real.feat .R8 .UNorm .KTX = true ∧
    ∀ D s, t'.save D .KTX s = .ub := by
  obtain ⟨t, t', h1, -, -, h2⟩ := C20_fails_large
  exact ⟨t, t', h1, by decide, h2⟩

/-- The promise takes every value: R8 is stored as DDS, R8G8B8 as KTX but not as DDS,
ASTC_4x4 not as DDS. -/
example : promised Features.full .R8 .UNorm .DDS = .Success ∧
    promised Features.full .R8G8B8 .UNorm .DDS = .Unsupported ∧
    promised Features.full .R8G8B8 .UNorm .KTX = .Success ∧
    promised Features.full .ASTC_4x4 .UNorm .DDS = .Unsupported ∧
    promised Features.full .ASTC_4x4 .UNorm .Auto = .UnknownFormat := by decide

/-- A converted texture that fits. -/
example : ∃ t t', Conversion Toy.ext Toy.view Toy.real t t' .R8 .UNorm ∧ Fits .R8 3 2 ∧
    t'.widthAt 0 = .ok 3 ∧ t'.heightAt 0 = .ok 2 := by
  obtain ⟨t, t', h1, h2⟩ := Toy.sampleTex (ops := Toy.fill .Dim3D 3 2 3 1 .Linear 7) (f := .R8)
    (ty := .UNorm) (p := fun t => t.widthAt 0 = .ok 3 ∧ t.heightAt 0 = .ok 2)
    (Toy.fill_safe _ _ _ _ _ _ _ (by norm_num) (by norm_num) (by norm_num)) (by decide +kernel)
  simp only [decide_eq_true_eq] at h2
  refine ⟨t, t', h1, ⟨by norm_num, by norm_num, ?_⟩, h2.1, h2.2⟩
  simp only [layout]; decide

end Cuttlefish
