import Verif.Proofs.EncodeSafe
import Verif.Proofs.ToolFile
import Verif.Props.C39
/-
The whole tool is defined: saving, and making the texture.
-/
namespace Cuttlefish
open Spec
variable {Img H σ : Type}

theorem actsFor_some {α : Type} {xs : List α} {body : α → Res (List Act)} (h : ∀ x ∈ xs, ∃ as, body x = .ok as) :
    ∃ as, actsFor xs body = .ok as := by
  obtain ⟨ys, e⟩ := mapRes_some h
  exact ⟨ys.flatten, by simp only [actsFor, e, Res.ok_bind, Res.pure_eq]⟩

/-- The KTX saver is defined, even if sizes do not fit the fields of the file. -/
theorem ktxActs_some {t : Tex Img} {f : Format} {ty : TType} {w h d L : ℕ} {px : ℕ → ℕ → ℕ → List UInt8}
    (hS : Shaped t f ty w h d L px) (hb : 0 < blockWidth f)
    (hZ : blockWidth f = 1 → blockHeight f = 1 ∧ Sized t f w h d L px) {info : KtxInfo} {fm : ℕ} (hfm : info.format = some fm) :
    ∃ as, ktxActs info t = .ok as := by
  have size (m : ℕ) (hm : m < L) : ∃ n, ktxImageSize t (1 < blockWidth f) (blockSize f) m = .ok n := by
    unfold ktxImageSize
    rw [hS.depth m hm, Res.ok_bind]
    obtain ⟨ns, e⟩ := mapRes_some (l := List.range (depthExtent t.dimension d m)) (g := fun _ =>
      if decide (1 < blockWidth f) = true then t.dataSize (some .PosX) m 0
      else do
        let w ← t.widthAt m
        let h ← t.heightAt m
        pure (u32 (u32 (u32 (u32 (w * blockSize f) + 3) / 4 * 4) * h))) (by
      intro k hk
      rw [List.mem_range] at hk
      split
      · have := hS.data m 0 0 hm (by omega) (by rw [hS.faces]; split <;> omega)
        unfold Tex.dataSize
        rw [show (CubeFace.PosX) = CubeFace.ofIndex 0 from rfl, this]
        exact ⟨_, rfl⟩
      · rw [hS.width m hm, hS.height m hm]
        exact ⟨_, rfl⟩)
    rw [e]
    exact ⟨_, rfl⟩
  have surface (m k fc : ℕ) (hm : m < L) (hk : k < depthExtent t.dimension d m) (hf : fc < t.faceCount) :
      ∃ as, ktxSurface t (1 < blockWidth f) (blockSize f) m k fc = .ok as := by
    unfold ktxSurface
    rw [surfaceBytes_eq hS hm hk hf, Res.ok_bind]
    split
    · exact ⟨_, rfl⟩
    · rename_i h1
      have h1 : blockWidth f = 1 := by
        simp only [decide_eq_true_eq] at h1
        omega
      rw [hS.width m hm, hS.height m hm]
      refine actsFor_some (fun y hy => ?_)
      rw [List.mem_range] at hy
      obtain ⟨h2, hZ⟩ := hZ h1
      have hz := hZ m k fc hm hk hf
      rw [surfaceSize_eq (pvrtc1_wide h1)] at hz
      have e : ceilDiv (extent w m) 1 * ceilDiv (extent h m) 1 * blockSize f =
          extent h m * (extent w m * blockSize f) := by
        simp only [ceilDiv, Nat.mod_one, Nat.div_one, if_true]; ring
      rw [h1, h2, e] at hz
      rw [if_pos]
      · exact ⟨_, rfl⟩
      · rw [hz]
        exact Nat.mul_le_mul hy (Nat.mod_le _ _)
  obtain ⟨as, e⟩ := actsFor_some (xs := List.range t.mipLevelCount)
    (body := ktxLevel t (1 < blockWidth t.format) (blockSize t.format)) (by
      intro m hm
      rw [List.mem_range, hS.levels] at hm
      rw [hS.format]
      unfold ktxLevel
      obtain ⟨n, e1⟩ := size m hm
      rw [e1, hS.depth m hm, Res.ok_bind, Res.ok_bind]
      obtain ⟨as, e2⟩ := actsFor_some (xs := List.range (depthExtent t.dimension d m)) (body := fun d' =>
          actsFor (List.range t.faceCount) (fun face => ktxSurface t (1 < blockWidth f) (blockSize f) m d' face))
        (fun k hk => actsFor_some (fun fc hf => surface m k fc hm (List.mem_range.1 hk) (List.mem_range.1 hf)))
      rw [e2]
      exact ⟨_, rfl⟩)
  unfold ktxActs
  rw [hfm, hS.width 0 hS.levelsPos, hS.height 0 hS.levelsPos, hS.depth 0 hS.levelsPos, e]
  exact ⟨_, rfl⟩

/-- Saving a converted texture is defined. -/
theorem save_some {X : Ext} (hX : CodecSizes X) {view : Img → FImg} {W : World Img} {t t' : Tex Img} {f : Format}
    {ty : TType} (hC : Conversion X view W t t' f ty) {ft : FileType}
    (hfit : ft = .KTX → ∀ w h, t'.widthAt 0 = .ok w → t'.heightAt 0 = .ok h → Fits f w h) (D : Device) (s : OStream) :
    ∃ r, t'.save D ft s = .ok r := by
  obtain ⟨w, h, d, L, hS⟩ := hC.shaped
  have key (as : List Act) (e : saveActs t' ft = some (.ok as)) : ∃ r, t'.save D ft s = .ok r :=
    ⟨_, save_run hS.converted e D s⟩
  rw [save_eq, hS.converted]
  simp only [Bool.true_eq_false, if_false]
  cases ft with
  | Auto => exact ⟨_, rfl⟩
  | DDS =>
    simp only [saveActs]
    split
    · exact ⟨_, rfl⟩
    · rename_i h1
      split at h1
      · simp at h1
      · rename_i h2
        simp only [Option.some.injEq] at h1
        obtain ⟨as, pitch, -, ha, -⟩ := dds_written hS (ddsFormat t'.format t'.type t'.colorSpace)
        rw [← h1, ha]
        exact ⟨_, rfl⟩
  | PVR =>
    simp only [saveActs]
    cases hp : pvrPixelFormat t'.format t'.alphaType with
    | none => exact ⟨_, rfl⟩
    | some pf =>
      obtain ⟨as, ha, -⟩ := pvr_written hS pf
      simp only [Option.map_some, ha]
      exact ⟨_, rfl⟩
  | KTX =>
    simp only [saveActs]
    cases hi : ktxInfo t'.format t'.type t'.colorSpace with
    | none => exact ⟨_, rfl⟩
    | some info =>
      rw [hS.format, hS.type] at hi
      obtain ⟨fm, hfm⟩ := ktx_format hC.valid hi
      obtain ⟨p1, p2, -, p3, -⟩ := block_pos hC.valid
      have hf := hfit rfl _ _ (hS.width 0 hS.levelsPos) (hS.height 0 hS.levelsPos)
      obtain ⟨as, ha⟩ := ktxActs_some hS p1 (fun h1 => ⟨p3.1 h1, hC.sized hX
        (pow2For_other (pvrtc1_wide h1) _ _) hS hf⟩) hfm
      simp only [Option.map_some, ha]
      exact ⟨_, rfl⟩

theorem createParentLoop_some (mkdir : σ → Str → σ × MkdirResult) (path : Str) :
    ∀ (fuel prev : ℕ) (s : σ), (separators path (prev + 1)).length < fuel →
    ∃ r, createParentLoop mkdir path fuel prev s = .ok r
  | 0, _, _, h => by omega
  | fuel + 1, prev, s, h => by
    unfold createParentLoop
    rw [separators_find]
    cases hs : separators path (prev + 1) with
    | nil => exact ⟨_, rfl⟩
    | cons k ks =>
      rw [hs] at h
      obtain ⟨e, hk, -, -⟩ := filter_range_step hs
      have e : ks = separators path (k + 1) := e
      subst e
      simp only [List.head?_cons]
      split
      · exact ⟨_, rfl⟩
      · exact createParentLoop_some mkdir path fuel k _ (by simpa using h)

theorem createParentDir_some (mkdir : σ → Str → σ × MkdirResult) (path : Str) (s : σ) :
    ∃ r, createParentDir mkdir path s = .ok r := by
  refine createParentLoop_some mkdir path _ _ _ ?_
  unfold separators
  have := List.length_filter_le (fun k => decide (0 + 1 ≤ k) && decide (path[k]? = some 47)) (List.range path.length)
  rw [List.length_range] at this
  omega

/-- If saving the texture is defined, so is the end of the tool. -/
theorem saveAll_some {E : ToolEnv Img H σ} {c : Cmd H} {t : Tex Img}
    (h : ∀ ft D, ∃ r, t.save D ft ⟨[], true⟩ = .ok r) (s : σ) : ∃ r, saveAll E c t s = .ok r := by
  have once (s : σ) : ∃ r, saveOnce E c t s = .ok r := by
    have file : ∃ r, t.saveFile ⟨E.disk.opens s, E.disk.dev s, E.disk.close s⟩ (some (c.output.getD [])) c.fileType =
        .ok r := by
      unfold Tex.saveFile
      simp only
      split
      · exact ⟨_, rfl⟩
      · split
        · exact ⟨_, rfl⟩
        · obtain ⟨r, e⟩ := h (if c.fileType = .Auto then fileType (c.output.getD []) else c.fileType) (E.disk.dev s)
          rw [e]
          exact ⟨_, rfl⟩
    obtain ⟨r, e⟩ := file
    unfold saveOnce
    simp only [e, Res.ok_bind]
    split <;> exact ⟨_, rfl⟩
  obtain ⟨r, e⟩ := once s
  unfold saveAll
  rw [e, Res.ok_bind]
  split
  · exact ⟨_, rfl⟩
  · unfold saveAgain
    split
    · obtain ⟨d, e2⟩ := createParentDir_some E.disk.mkdir (c.output.getD []) r.2
      rw [e2, Res.ok_bind]
      split
      · obtain ⟨r2, e3⟩ := once d.2
        rw [e3]
        exact ⟨_, rfl⟩
      · exact ⟨_, rfl⟩
    · exact ⟨_, rfl⟩
  · exact ⟨_, rfl⟩

theorem run_put {E : ToolEnv Img H σ} {k : ImageType} : ∀ (gs : List (Option Img)) (i : ℕ) (t t' : Tex Img)
    (outs : List (Out Img)), run E.world t ((gs.zipIdx i).map fun g =>
      .setImage g.1 true (toolPlace k g.2).1 (toolPlace k g.2).2.1 (toolPlace k g.2).2.2) = .ok (outs, t') →
    putImages E k i gs t = .ok t'
  | [], i, t, t', outs, h => by
    simp only [List.zipIdx_nil, List.map_nil, run, Res.ok.injEq, Prod.mk.injEq] at h
    rw [← h.2]
    rfl
  | g :: gs, i, t, t', outs, h => by
    simp only [List.zipIdx_cons, List.map_cons, run, call, Res.bind_eq_ok, Res.pure_eq] at h
    obtain ⟨⟨o1, t1⟩, ⟨⟨b, t2⟩, h1, h2⟩, ⟨o3, t3⟩, h3, h4⟩ := h
    simp only [Res.ok.injEq, Prod.mk.injEq] at h2 h4
    obtain ⟨-, rfl⟩ := h2
    obtain ⟨-, rfl⟩ := h4
    unfold putImages
    simp only [h1, Res.ok_bind]
    exact run_put gs (i + 1) t2 t3 o3 h3

theorem run_mips {E : ToolEnv Img H σ} {c : Cmd H} {custom : CustomMips Img} {t t' : Tex Img} {outs : List (Out Img)}
    (h : run E.world t (if 1 < c.mipLevels then [.generateMipmaps c.mipFilter c.mipLevels custom] else []) =
      .ok (outs, t')) : toolMips E c custom t = .ok t' := by
  unfold toolMips
  split
  · rename_i hm
    rw [if_pos hm] at h
    simp only [run, call, Res.bind_eq_ok, Res.pure_eq] at h
    obtain ⟨⟨o1, t1⟩, ⟨⟨b, t2⟩, h1, h2⟩, ⟨o3, t3⟩, h3, h4⟩ := h
    simp only [Res.ok.injEq, Prod.mk.injEq] at h2 h3 h4
    obtain ⟨-, rfl⟩ := h2
    obtain ⟨-, rfl⟩ := h3
    obtain ⟨-, rfl⟩ := h4
    rw [h1]
    rfl
  · rename_i hm
    rw [if_neg hm] at h
    simp only [run, Res.ok.injEq, Prod.mk.injEq] at h
    rw [h.2]

end Cuttlefish
