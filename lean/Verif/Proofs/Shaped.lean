import Verif.Proofs.Converted
import Verif.Proofs.FileTables
import Verif.Proofs.Pvrtc
/-
The shape of a converted texture, as the savers see it.
-/
namespace Cuttlefish
open Spec
variable {Img : Type} {X : Ext} {view : Img → FImg} {W : World Img} {t t' : Tex Img} {f : Format}
  {ty : TType}

theorem halve_le {n : Nat} (h : 0 < n) : halve n ≤ n := by
  unfold halve; split <;> omega

theorem extent_le (n k : Nat) (h : 0 < n) : extent n k ≤ n := by
  induction k with
  | zero => exact le_rfl
  | succ k ih => exact (halve_le (extent_pos n k h)).trans ih

theorem ceilDiv_mono {a b n : Nat} (hn : 0 < n) (h : a ≤ b) : ceilDiv a n ≤ ceilDiv b n := by
  rw [← ceilDiv_eq hn, ← ceilDiv_eq hn]
  exact Nat.div_le_div_right (by omega)

theorem Fits.mono {w h w' h' : Nat} (hb : 0 < blockWidth f ∧ 0 < blockHeight f) (hf : Fits f w h) (hw : w' ≤ w) (hh : h' ≤ h)
    (hw0 : 0 < w') (hh0 : 0 < h') : Fits f w' h' := by
  refine ⟨hw0, hh0, ?_⟩
  obtain ⟨-, -, hf⟩ := hf
  have hm : w' * h' ≤ w * h := Nat.mul_le_mul hw hh
  cases hl : layout f with
  | some cs =>
    rw [hl] at hf
    simp only at hf ⊢
    exact ⟨by omega, (Nat.mul_le_mul_right _ hm).trans hf.2⟩
  | none =>
    rw [hl] at hf
    simp only at hf ⊢
    refine ⟨by omega, by omega, lt_of_le_of_lt ?_ hf.2.2⟩
    exact Nat.mul_le_mul_right _ (Nat.mul_le_mul (ceilDiv_mono hb.1 hw) (ceilDiv_mono hb.2 hh))

theorem surfaceSize_eq {f : Format} {w h : Nat} (hp : isPvrtc1 f = false) :
    surfaceSize f w h = ceilDiv w (blockWidth f) * ceilDiv h (blockHeight f) * blockSize f := by
  simp [surfaceSize, leastBlocks, hp]

theorem pvrtc1_wide {f : Format} (h : blockWidth f = 1) : isPvrtc1 f = false := by
  revert h; cases f <;> decide

theorem surfaceSize_mono {f : Format} {w h w' h' : Nat} (hb : 0 < blockWidth f ∧ 0 < blockHeight f) (hw : w' ≤ w)
    (hh : h' ≤ h) : surfaceSize f w' h' ≤ surfaceSize f w h :=
  Nat.mul_le_mul_right _ (Nat.mul_le_mul (max_le_max le_rfl (ceilDiv_mono hb.1 hw))
    (max_le_max le_rfl (ceilDiv_mono hb.2 hh)))

theorem halve_pow2 {n : Nat} (h : n.isPowerOfTwo) : (halve n).isPowerOfTwo := by
  obtain ⟨k, rfl⟩ := h
  cases k with
  | zero => exact ⟨0, rfl⟩
  | succ k =>
    refine ⟨k, ?_⟩
    have : 0 < 2 ^ k := Nat.pow_pos (by norm_num)
    unfold halve
    rw [Nat.pow_succ]
    split <;> omega

theorem extent_pow2 {n : Nat} (h : n.isPowerOfTwo) : ∀ m, (extent n m).isPowerOfTwo
  | 0 => h
  | m + 1 => halve_pow2 (extent_pow2 h m)

theorem Spec.Pow2For.extent {f : Format} {w h : Nat} (hp : Pow2For f w h) (m : Nat) :
    Pow2For f (extent w m) (extent h m) := fun e => ⟨extent_pow2 (hp e).1 m, extent_pow2 (hp e).2 m⟩

theorem isPvrtc1_false {f : Format} (hp : isPvrtc f = false) : isPvrtc1 f = false := by
  revert hp; cases f <;> decide

theorem pow2For_other {f : Format} (hp : isPvrtc1 f = false) (w h : Nat) : Pow2For f w h := by
  intro e; rw [hp] at e; cases e

/-- The size of every surface, also in PVRTC. -/
theorem surface_sized (X : Ext) (hX : CodecSizes X) {c : Features} {f : Format} {t : TType} {k : Conv}
    (hk : createConverter c f t = some k) (a : ConvArgs) (ha : a.format = f) (img : FImg)
    (hp : Pow2For f img.width img.height) (hf : isPvrtc f = false → Fits f img.width img.height)
    (bytes : List UInt8) (h : encodeImage X k a img = .ok bytes) :
    bytes.length = surfaceSize f img.width img.height := by
  cases hv : isPvrtc f with
  | false => rw [surface_size X hX hk hv a ha img (hf hv) bytes h, surfaceSize_eq (isPvrtc1_false hv)]
  | true =>
    rw [pvrtc_conv hk hv] at h
    obtain ⟨name, e1, e2⟩ : ∃ name, pvrtcPixelType f = some name ∧ ∀ q n pm px,
        codecBytes (.pvrtc name q n pm img.width img.height px) = some (surfaceSize f img.width img.height) := by
      revert hp
      cases f <;> simp only [isPvrtc, Bool.false_eq_true] at hv <;>
        · intro hp
          refine ⟨_, rfl, fun q n pm px => ?_⟩
          simp only [Pow2For, isPvrtc1, forall_const, Bool.false_eq_true, false_imp_iff] at hp
          simp [codecBytes, surfaceSize, leastBlocks, isPvrtc1, hp]
          try rfl
    simp only [encodeImage, Res.bind_eq_ok, ha, e1, Res.pure_eq, Res.ok.injEq] at h
    obtain ⟨px, -, rfl⟩ := h
    exact hX _ _ (e2 _ _ _ _)

/-- A converted texture with the given extents; `d` is the depth of 3D textures and the (possibly
zero) array length of others. -/
structure Shaped (t : Tex Img) (f : Format) (ty : TType) (w h d L : Nat)
    (px : Nat → Nat → Nat → List UInt8) : Prop where
  converted : t.converted = true
  format : t.format = f
  type : t.type = ty
  levels : t.mipLevelCount = L
  levelsPos : 0 < L
  levelsLt : L ≤ 32
  faces : t.faceCount = if t.dimension = .Cube then 6 else 1
  array : t.isArray = true ↔ t.dimension ≠ .Dim3D ∧ 0 < d
  wPos : 0 < w
  hPos : 0 < h
  dPos : t.dimension = .Dim3D → 0 < d
  wLt : w < 2 ^ 32
  hLt : h < 2 ^ 32
  dLt : d < 2 ^ 32
  width : ∀ m, m < L → t.widthAt m = .ok (extent w m)
  height : ∀ m, m < L → t.heightAt m = .ok (extent h m)
  depth : ∀ m, m < L → t.depthAt m = .ok (depthExtent t.dimension d m)
  data : ∀ m k face, m < L → k < depthExtent t.dimension d m → face < t.faceCount →
    t.data (some (CubeFace.ofIndex face)) m k = .ok (some (px m k face))

/-- The bytes of every surface have the expected size. -/
def Sized (t : Tex Img) (f : Format) (w h d L : Nat) (px : Nat → Nat → Nat → List UInt8) : Prop :=
  ∀ m k face, m < L → k < depthExtent t.dimension d m → face < t.faceCount →
    (px m k face).length = surfaceSize f (extent w m) (extent h m)

/-- The texture is not initialised or its bytes are as `data()` reports. -/
def pxOf (t : Tex Img) (m k face : Nat) : List UInt8 :=
  match t.data (some (CubeFace.ofIndex face)) m k with
  | .ok (some b) => b
  | _ => []

theorem Spec.Conversion.valid (hC : Conversion X view W t t' f ty) : isFormatValid W.feat f ty = true := by
  obtain ⟨q, al, mask, th, hc⟩ := hC.conv
  by_contra h
  have := convert_reject (W := W) (t := t) (f := f) (ty := ty) (q := q) (al := al) (m := mask)
    (th := th) (fun hcv => h hcv.2.1)
  rw [this] at hc; simp at hc

theorem Spec.Conversion.shaped (hC : Conversion X view W t t' f ty) :
    ∃ w h d L, Shaped t' f ty w h d L (pxOf t') := by
  obtain ⟨calls, outs, hs, hr⟩ := hC.hist
  obtain ⟨outs', t0, h1, hI⟩ := tinv_run hC.lawful calls (t := none) trivial hs
  rw [hr] at h1; simp only [Res.ok.injEq, Prod.mk.injEq] at h1
  obtain ⟨-, rfl⟩ := h1
  have hcomp := hC.complete
  obtain ⟨q, al, mask, th, hc⟩ := hC.conv
  obtain ⟨e1, e2, e3, e4, e5, e6, e7, e8, ⟨e9, e9'⟩, e10, -⟩ :=
    C09_success_effect W hC.lawful calls hs outs t hr f ty q al mask th t' hc
  cases t with
  | none => simp [Tex.imagesComplete] at hcomp
  | some i =>
    have hI : Inv W.lib i := hI
    have hL : i.mipLevels ≤ 32 := by
      rcases Nat.lt_or_ge 32 i.mipLevels with h | h
      · exact absurd (mip_lt_32 hI h) (lt_irrefl _)
      · exact h
    have hdim : t'.dimension = i.dimension := e6
    have hdep : ∀ m, m < i.mipLevels → t'.depthAt m = .ok (depthExtent t'.dimension i.depth m) := by
      intro m hm; rw [(e10 m).2.2, depthAt_eq hI, if_pos hm, hdim]
    refine ⟨i.width, i.height, i.depth, i.mipLevels, e1, e2, e3, e8, hI.mips.1, hL, ?_, ?_, hI.w.1, hI.h.1,
      ?_, hI.w.2, hI.h.2, hI.d.1, ?_, ?_, hdep, ?_⟩
    · rw [e9, hdim]; exact hI.faces
    · rw [e9', hdim]; simp [Tex.isArray]
    · rw [hdim]; exact hI.d.2
    · intro m hm; rw [(e10 m).1, widthAt_eq hI, if_pos hm]
    · intro m hm; rw [(e10 m).2.1, heightAt_eq hI, if_pos hm]
    · intro m k face hm hk hf
      have ha : Addressable t' (some (CubeFace.ofIndex face)) m k := by
        refine ⟨by rw [e8]; exact hm, ⟨_, hdep m hm, hk⟩, ?_⟩
        rw [e9] at hf
        have hf : face < i.faces := hf
        rw [hI.faces] at hf
        unfold addressed
        rw [hdim]
        by_cases hcube : i.dimension = .Cube
        · simp [hcube]
        · rw [if_neg hcube] at hf
          have : face = 0 := by omega
          subst this
          simp [CubeFace.ofIndex]
      obtain ⟨img, bytes, hS⟩ := hC.surface ha
      unfold pxOf
      rw [hS.data]

theorem Spec.Conversion.sized {w h d L : Nat} (hC : Conversion X view W t t' f ty) (hX : CodecSizes X)
    (hp : Pow2For f w h) (hS : Shaped t' f ty w h d L (pxOf t')) (hf : Fits f w h) :
    Sized t' f w h d L (pxOf t') := by
  intro m k face hm hk hfc
  have ha : Addressable t' (some (CubeFace.ofIndex face)) m k := by
    refine ⟨by rw [hS.levels]; exact hm, ⟨_, hS.depth m hm, hk⟩, ?_⟩
    rw [hS.faces] at hfc
    unfold addressed
    by_cases hcube : t'.dimension = .Cube
    · simp [hcube]
    · rw [if_neg hcube] at hfc
      have : face = 0 := by omega
      subst this
      simp [CubeFace.ofIndex]
  obtain ⟨img, bytes, hs⟩ := hC.surface ha
  have hd := hS.data m k face hm hk hfc
  rw [hs.data] at hd
  simp only [Res.ok.injEq, Option.some.injEq] at hd
  rw [← hd]
  obtain ⟨-, -, kk, a, hk', ha1, ha2, he⟩ := hs.encoded hC
  have e1 : img.width = extent w m := by
    have := hs.width; rw [hS.width m hm] at this; simpa using this.symm
  have e2 : img.height = extent h m := by
    have := hs.height; rw [hS.height m hm] at this; simpa using this.symm
  have hb := block_pos hC.valid
  rw [surface_sized X hX hk' a ha1 img ?_ ?_ bytes he, e1, e2]
  · rw [e1, e2]
    exact hp.extent m
  · intro _
    rw [e1, e2]
    exact Fits.mono ⟨hb.1, hb.2.1⟩ hf (extent_le _ _ hS.wPos) (extent_le _ _ hS.hPos) (extent_pos _ _ hS.wPos)
      (extent_pos _ _ hS.hPos)

end Cuttlefish
