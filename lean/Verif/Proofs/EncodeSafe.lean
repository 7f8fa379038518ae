import Verif.Proofs.Pvrtc
import Verif.Spec.Defined
import Verif.Props.C15
/-
The converters run to the end on images whose pixels can be stored.
-/
namespace Cuttlefish
open Spec
variable {X : Ext} {f : Format} {ty : TType} {img : FImg}

theorem toUNorm_some {v : ℕ} (h : F32.ofBits v ≠ .nan) : ∃ n, toUNorm 255 255 v = .ok n := by
  cases hc : clampVal 0 1 (F32.ofBits v) with
  | none => exact absurd (clampVal_none.1 hc) h
  | some c => exact ⟨_, (toUNorm_eq hc (by norm_num) (le_refl _)).1⟩

theorem toSNorm_some {v : ℕ} (h : F32.ofBits v ≠ .nan) : ∃ n, toSNorm 8 v = .ok n := by
  cases hc : clampVal (-1) 1 (F32.ofBits v) with
  | none => exact absurd (clampVal_none.1 hc) h
  | some c => exact ⟨_, (toSNorm_eq hc (by norm_num) (by norm_num)).1⟩

theorem mapRes_some {α β : Type} {g : α → Res β} : ∀ {l : List α}, (∀ a ∈ l, ∃ b, g a = .ok b) →
    ∃ bs, mapRes g l = .ok bs
  | [], _ => ⟨[], rfl⟩
  | a :: l, h => by
    obtain ⟨b, hb⟩ := h a (by simp)
    obtain ⟨bs, hbs⟩ := mapRes_some (l := l) (fun a ha => h a (by simp [ha]))
    exact ⟨b :: bs, by simp only [mapRes, hb, hbs, Res.ok_bind, Res.pure_eq]⟩

theorem unormBytes_some {vs : List ℕ} (h : ∀ v ∈ vs, F32.ofBits v ≠ .nan) : ∃ bs, unormBytes vs = .ok bs := by
  refine mapRes_some (fun v hv => ?_)
  obtain ⟨n, hn⟩ := toUNorm_some (h v hv)
  exact ⟨_, by rw [hn]; rfl⟩

theorem snormBytes_some {vs : List ℕ} (h : ∀ v ∈ vs, F32.ofBits v ≠ .nan) : ∃ bs, snormBytes vs = .ok bs := by
  refine mapRes_some (fun v hv => ?_)
  obtain ⟨n, hn⟩ := toSNorm_some (h v hv)
  exact ⟨_, by rw [hn]; rfl⟩

/-- No channel of the pixels is NaN. -/
def NoNan (ps : List Pixel) : Prop := ∀ p ∈ ps, ∀ v ∈ [p.r, p.g, p.b, p.a], F32.ofBits v ≠ .nan

theorem toColorBlock_some {ps : List Pixel} (h : NoNan ps) : ∃ bs, toColorBlock ps = .ok bs := by
  obtain ⟨bs, e⟩ := unormBytes_some (vs := ps.flatMap Pixel.chans) (by
    intro v hv
    obtain ⟨p, hp, hv⟩ := List.mem_flatMap.1 hv
    exact h p hp v hv)
  refine ⟨bs, ?_⟩
  unfold toColorBlock
  unfold unormBytes at e
  rw [e]

theorem bc2Nibble_some (a : UInt8) : ∃ n, bc2Nibble a = .ok n := by
  have key : ∀ n < 256, (match bc2Nibble (UInt8.ofNat n) with | .ok _ => true | .ub => false) = true := by
    decide +kernel
  have := key a.toNat a.toNat_lt
  rw [UInt8.ofNat_toNat] at this
  split at this
  · exact ⟨_, by assumption⟩
  · simp at this

theorem packBc2_some : ∀ (as : List UInt8), ∃ bs, packBc2Alpha as = .ok bs
  | [] => ⟨[], rfl⟩
  | [_] => ⟨[], rfl⟩
  | a :: b :: as => by
    obtain ⟨n, hn⟩ := bc2Nibble_some a
    obtain ⟨m, hm⟩ := bc2Nibble_some b
    obtain ⟨bs, hbs⟩ := packBc2_some as
    exact ⟨_, by simp only [packBc2Alpha, hn, hm, hbs, Res.ok_bind, Res.pure_eq]; rfl⟩

theorem s3tc_some (X : Ext) (s : S3tcConv) (a : ConvArgs) {ps : List Pixel} (h : NoNan ps) :
    ∃ bs, compressS3tc X s a ps = .ok bs := by
  obtain ⟨px, hpx⟩ := toColorBlock_some h
  have hr : ∀ v ∈ ps.map Pixel.r, F32.ofBits v ≠ .nan := by
    intro v hv
    obtain ⟨p, hp, rfl⟩ := List.mem_map.1 hv
    exact h p hp _ (by simp)
  have hg : ∀ v ∈ ps.map Pixel.g, F32.ofBits v ≠ .nan := by
    intro v hv
    obtain ⟨p, hp, rfl⟩ := List.mem_map.1 hv
    exact h p hp _ (by simp)
  have hrg : ∀ v ∈ ps.flatMap (fun p => [p.r, p.g]), F32.ofBits v ≠ .nan := by
    intro v hv
    obtain ⟨p, hp, hv⟩ := List.mem_flatMap.1 hv
    refine h p hp _ ?_
    simp only [List.mem_cons, List.not_mem_nil, or_false] at hv ⊢
    tauto
  cases s with
  | Bc1 => exact ⟨_, by simp only [compressS3tc, hpx, Res.ok_bind, Res.pure_eq]; rfl⟩
  | Bc1A =>
    simp only [compressS3tc, hpx, Res.ok_bind, Res.pure_eq]
    split <;> exact ⟨_, rfl⟩
  | Bc2 =>
    obtain ⟨al, hal⟩ := packBc2_some (alphaBytes px)
    exact ⟨_, by simp only [compressS3tc, hpx, hal, Res.ok_bind, Res.pure_eq]; rfl⟩
  | Bc3 =>
    simp only [compressS3tc, hpx, Res.ok_bind, Res.pure_eq]
    split <;> exact ⟨_, rfl⟩
  | Bc4 sg =>
    cases sg
    · obtain ⟨u, hu⟩ := unormBytes_some hr
      simp only [compressS3tc, hu, Res.ok_bind, Res.pure_eq]
      split <;> exact ⟨_, rfl⟩
    · obtain ⟨u, hu⟩ := snormBytes_some hr
      exact ⟨_, by simp only [compressS3tc, hu, Res.ok_bind, Res.pure_eq]; rfl⟩
  | Bc5 sg =>
    cases sg
    · obtain ⟨u, hu⟩ := unormBytes_some hrg
      simp only [compressS3tc, hu, Res.ok_bind, Res.pure_eq]
      split <;> exact ⟨_, rfl⟩
    · obtain ⟨u, hu⟩ := snormBytes_some hr
      obtain ⟨v, hv⟩ := snormBytes_some hg
      exact ⟨_, by simp only [compressS3tc, hu, hv, Res.ok_bind, Res.pure_eq]; rfl⟩
  | Bc6H sg =>
    simp only [compressS3tc]
    split <;> exact ⟨_, rfl⟩
  | Bc7 =>
    simp only [compressS3tc, hpx, Res.ok_bind, Res.pure_eq]
    split <;> exact ⟨_, rfl⟩

/-- The texels of a block are pixels of the image. -/
theorem blockTexels_px (hw : 0 < img.width) (hh : 0 < img.height) {bx by_ : ℕ} {p : Pixel}
    (h : p ∈ (blockTexels f img bx by_).2.2) : ∃ x y, x < img.width ∧ y < img.height ∧ p = img.px x y := by
  unfold blockTexels at h
  split at h
  · simp only [croppedBlock, rowMajor, List.mem_flatMap, List.mem_range, List.mem_singleton] at h
    obtain ⟨j, hj, i, hi, rfl⟩ := h
    unfold insideExtent at hi hj
    exact ⟨_, _, by omega, by omega, rfl⟩
  · simp only [clampedBlock, rowMajor, clampedTexel, List.mem_flatMap, List.mem_range, List.mem_singleton] at h
    obtain ⟨j, hj, i, hi, rfl⟩ := h
    refine ⟨_, _, ?_, ?_, rfl⟩ <;> omega

/-- Every converter is defined on images whose pixels can be stored. -/
theorem encode_some (hX : CodecSizes X) {c : Features} {k : Conv} (hk : createConverter c f ty = some k)
    (a : ConvArgs) (ha : a.format = f) (hf : Fits f img.width img.height) (hp : ImageFits f ty img) :
    ∃ bytes, encodeImage X k a img = .ok bytes := by
  cases hl : layout f with
  | some cs =>
    refine C15_defined X c f ty cs hl k hk a img hf (fun x y hx hy => ?_)
    have := hp.2 x y hx hy
    unfold PixelFits at this
    rwa [hl] at this
  | none =>
    have hpx : ∀ x y, x < img.width → y < img.height → NoNan [img.px x y] := by
      intro x y hx hy p hm
      rw [List.mem_singleton] at hm
      subst hm
      have := hp.2 x y hx hy
      unfold PixelFits at this
      rwa [hl] at this
    cases hv : isPvrtc f with
    | true =>
      rw [pvrtc_conv hk hv]
      obtain ⟨rows, hr⟩ : ∃ rows, pvrtcPixels img = .ok rows := by
        obtain ⟨rows, hr⟩ := mapRes_some (g := fun y => do
            let ps ← mapRes (fun x => img.read x y) (List.range img.width)
            toColorBlock ps) (l := List.range img.height) (by
          intro y hy
          rw [List.mem_range] at hy
          have e : mapRes (fun x => img.read x y) (List.range img.width) =
              .ok ((List.range img.width).map (fun x => img.px x y)) :=
            mapRes_all_ok (fun x hx => read_px (List.mem_range.1 hx) hy)
          rw [e, Res.ok_bind]
          refine toColorBlock_some (fun p hm => ?_)
          obtain ⟨x, hx, rfl⟩ := List.mem_map.1 hm
          exact hpx x y (List.mem_range.1 hx) hy _ (by simp))
        unfold pvrtcPixels
        rw [if_neg (by have := hp.1 hv; unfold pow32; omega), hr]
        exact ⟨_, rfl⟩
      simp only [encodeImage, hr, Res.ok_bind]
      cases pvrtcPixelType a.format <;> exact ⟨_, rfl⟩
    | false =>
      refine ⟨_, (block_surface X hX hk hl hv a ha img hf _).2 ⟨?_, rfl⟩⟩
      intro x y hx hy
      rw [blockEnc_eq hk hl hv a hf hx hy]
      have hn : NoNan (blockTexels f img x y).2.2 := by
        intro p hm
        obtain ⟨x', y', h1, h2, rfl⟩ := blockTexels_px hf.1 hf.2.1 hm
        exact hpx x' y' h1 h2 _ (by simp)
      rcases conv_kind hk hl hv with ⟨-, rfl⟩ | ⟨-, ⟨s, rfl⟩, -⟩ | ⟨-, rfl⟩
      · simp [blockCompress]
      · obtain ⟨bs, hb⟩ := s3tc_some X s a hn
        simp only [blockCompress, hb]
        simp
      · simp [blockCompress]

end Cuttlefish
