import Verif.Props.C45
import Verif.Proofs.EncoderOptions
/-
C61: a higher quality never asks an encoder for less effort, and channels that are masked out have no weight.
-/
namespace Cuttlefish
open Spec
variable {Img : Type}

/-- Converting the same texture with a higher quality gives every library call the same input and at least the same
effort: every block (and for PVRTC every surface) of the two results is made by a pair of calls with equal pixels, of
which the second one is in no respect asked to try less. -/
theorem C61_quality (X : Ext) (hX : CodecSizes X) (hK : OrderedConsts X.consts) (view : Img → FImg) (W : World Img)
    (t t1 t2 : Tex Img) (f : Format) (ty : TType)
    (hC1 : Conversion X view W t t1 f ty) (hC2 : Conversion X view W t t2 f ty) (hl : layout f = none)
    (q q' : Quality) (hq : rank q ≤ rank q') (al : Alpha) (mask : ColorMask) (threads : Nat)
    (hc1 : t.convert W.feat W.hw W.enc f ty q al mask threads = .ok (true, t1))
    (hc2 : t.convert W.feat W.hw W.enc f ty q' al mask threads = .ok (true, t2))
    (face : Option CubeFace) (m d : Nat) (img : FImg) (bytes1 bytes2 : List UInt8)
    (hS1 : Surface view t t1 face m d img bytes1) (hS2 : Surface view t t2 face m d img bytes2)
    (hfit : Fits f img.width img.height) :
    (isPvrtc f = true → ∃ c c', bytes1 = X.codec c ∧ bytes2 = X.codec c' ∧ input c = input c' ∧
      NoLessEffort c c') ∧
    (isPvrtc f = false → ∀ bx by_, bx < ceilDiv img.width (blockWidth f) →
      by_ < ceilDiv img.height (blockHeight f) →
      ∃ pre c c', texelAt bytes1 (blockSize f) (ceilDiv img.width (blockWidth f)) bx by_ = pre ++ X.codec c ∧
        texelAt bytes2 (blockSize f) (ceilDiv img.width (blockWidth f)) bx by_ = pre ++ X.codec c' ∧
        input c = input c' ∧ NoLessEffort c c') := by
  refine ⟨fun hp => ?_, fun hp bx by_ hx hy => ?_⟩
  · obtain ⟨k, hk, h1⟩ := conversion_surface hC1 hc1 hS1
    obtain ⟨k', hk', h2⟩ := conversion_surface hC2 hc2 hS2
    rw [pvrtc_conv hk hp] at h1
    rw [pvrtc_conv hk' hp] at h2
    obtain ⟨name, e⟩ : ∃ name, pvrtcPixelType f = some name := by
      cases f <;> simp only [isPvrtc, Bool.false_eq_true] at hp <;> exact ⟨_, rfl⟩
    exact pvrtc_slower (convArgs W t f ty q al mask threads) hq e h1 h2
  · obtain ⟨k, hk, h1⟩ := conversion_blocks hX hC1 hl hp hc1 hS1 hfit
    obtain ⟨k', hk', h2⟩ := conversion_blocks hX hC2 hl hp hc2 hS2 hfit
    obtain rfl : k = k' := by rw [hk] at hk'; simpa using hk'
    exact block_slower hK k (convArgs W t f ty q al mask threads) hq (h1 bx by_ hx hy) (h2 bx by_ hx hy)

/-- Is the channel in the mask? -/
def Spec.used (mask : ColorMask) : Chan → Bool
  | .R => mask.r
  | .G => mask.g
  | .B => mask.b
  | .A => mask.a

/-- In ASTC surfaces a channel is left out of the compression exactly if it is not in the colour mask. -/
theorem C61_mask_astc (X : Ext) (hX : CodecSizes X) (view : Img → FImg) (W : World Img)
    (t t' : Tex Img) (f : Format) (ty : TType) (hC : Conversion X view W t t' f ty)
    (hf : f ∈ [Format.ASTC_4x4, .ASTC_5x4, .ASTC_5x5, .ASTC_6x5, .ASTC_6x6, .ASTC_8x5, .ASTC_8x6,
      .ASTC_8x8, .ASTC_10x5, .ASTC_10x6, .ASTC_10x8, .ASTC_10x10, .ASTC_12x10, .ASTC_12x12])
    (q : Quality) (al : Alpha) (mask : ColorMask) (threads : Nat)
    (hc : t.convert W.feat W.hw W.enc f ty q al mask threads = .ok (true, t'))
    (face : Option CubeFace) (m d : Nat) (img : FImg) (bytes : List UInt8)
    (hS : Surface view t t' face m d img bytes) (hfit : Fits f img.width img.height)
    (bx by_ : Nat) (hx : bx < ceilDiv img.width (blockWidth f))
    (hy : by_ < ceilDiv img.height (blockHeight f)) :
    ∃ c, texelAt bytes 16 (ceilDiv img.width (blockWidth f)) bx by_ = X.codec c ∧
      ∀ ch, Ignored ch c ↔ used mask ch = false := by
  obtain ⟨cfg, swz, ho, h⟩ :=
    C45_astc_partial X hX view W t t' f ty hC hf q al mask threads hc face m d img bytes hS hfit bx by_ hx hy
  refine ⟨_, h, ?_⟩
  obtain ⟨-, -, -, -, -, -, -, r, g, b, a1, a2, a3⟩ := ho
  intro ch
  cases ch <;> simp only [Ignored, used]
  · rw [r]; cases mask.r <;> simp
  · rw [g]; cases mask.g <;> simp
  · rw [b]; cases mask.b <;> simp
  · cases hm : mask.a with
    | false => simp [a1 hm]
    | true =>
      by_cases hn : al = .None
      · simp [a2 hm hn]
      · simp [a3 hm hn]

/-- In the blocks of BC1 with transparent texels, and in BC7 blocks if the encoder is not the ISPC one, the channels
outside the colour mask have no weight; in BC1 those in the mask do.  Missing: the other S3TC encoders, which have no
weights, and the ISPC encoder for BC7, which is not told about the mask (the mask is documented as one that "may"
be used). -/
theorem C61_mask_s3tc_partial (X : Ext) (hX : CodecSizes X) (view : Img → FImg) (W : World Img)
    (t t' : Tex Img) (f : Format) (ty : TType) (hC : Conversion X view W t t' f ty)
    (q : Quality) (al : Alpha) (mask : ColorMask) (threads : Nat)
    (hc : t.convert W.feat W.hw W.enc f ty q al mask threads = .ok (true, t'))
    (face : Option CubeFace) (m d : Nat) (img : FImg) (bytes : List UInt8)
    (hS : Surface view t t' face m d img bytes) (hfit : Fits f img.width img.height)
    (bx by_ : Nat) (hx : bx < ceilDiv img.width 4) (hy : by_ < ceilDiv img.height 4) :
    (f = .BC1_RGBA → (∃ p ∈ clampedBlock img 4 4 bx by_, transparent p) →
      ∃ c, texelAt bytes 8 (ceilDiv img.width 4) bx by_ = X.codec c ∧
        ∀ ch ∈ [Chan.R, .G, .B], Ignored ch c ↔ used mask ch = false) ∧
    (f = .BC7 → X.ispc = false →
      ∃ c, texelAt bytes 16 (ceilDiv img.width 4) bx by_ = X.codec c ∧
        ∀ ch, used mask ch = false → Ignored ch c) := by
  constructor
  · rintro rfl ht
    have h := C45_s3tc_partial X hX view W t t' .BC1_RGBA ty hC (by simp) q al mask threads hc face m d img bytes hS
      hfit bx by_ hx hy
    simp only [S3tcBlock, convArgs] at h
    obtain ⟨px, -, h, -⟩ := h
    obtain ⟨fit, w, ⟨w1, w2, w3, w4, w5⟩, -, -, e⟩ := h ht
    refine ⟨_, e, ?_⟩
    intro ch hch
    have n1 : F32.round 0.2126 ≠ .fin 0 := by decide +kernel
    have n2 : F32.round 0.7152 ≠ .fin 0 := by decide +kernel
    have n3 : F32.round 0.0722 ≠ .fin 0 := by decide +kernel
    cases hcs : t.colorSpace
    · obtain ⟨v1, v2, v3⟩ := w4 hcs
      cases ch <;> simp only [Ignored, used]
      · cases hm : mask.r <;> simp [w1, v1, hm]
      · cases hm : mask.g <;> simp [w2, v2, hm]
      · cases hm : mask.b <;> simp [w3, v3, hm]
      · simp at hch
    · obtain ⟨v1, v2, v3⟩ := w5 hcs
      cases ch <;> simp only [Ignored, used]
      · cases hm : mask.r <;> simp [w1, v1, hm, n1]
      · cases hm : mask.g <;> simp [w2, v2, hm, n2]
      · cases hm : mask.b <;> simp [w3, v3, hm, n3]
      · simp at hch
  · rintro rfl hi
    have h := C45_s3tc_partial X hX view W t t' .BC7 ty hC (by simp) q al mask threads hc face m d img bytes hS
      hfit bx by_ hx hy
    simp only [S3tcBlock, convArgs] at h
    obtain ⟨px, -, -, h⟩ := h
    obtain ⟨p, ⟨w1, w2, w3, w4⟩, e⟩ := h hi
    refine ⟨_, e, ?_⟩
    intro ch hu
    cases ch <;> simp only [Ignored, used] at hu ⊢
    · simpa [hu] using w1
    · simpa [hu] using w2
    · simpa [hu] using w3
    · simpa [hu] using w4

namespace Toy

/-- The texture of a 2x2 image converted to BC7, with a quality and a mask: does the surface have these bytes? -/
def bc7Check (q : Quality) (mask : ColorMask) : Bool :=
  match run real none (single 2 2 [0x3F800000, 0]) with
  | .ok (_, t) =>
    t.getImage none 0 0 == .ok (some ⟨2, 2, true, .Linear, [0x3F800000, 0]⟩) &&
    match t.convert real.feat real.hw real.enc .BC7 .UNorm q .Standard mask 1 with
    | .ok (b, t') => b && t'.data none 0 0 == .ok (some (List.replicate 16 0))
    | .ub => false
  | .ub => false

theorem bc7_sample {q : Quality} {mask : ColorMask} (h : bc7Check q mask = true) :
    ∃ outs t t', run real none (single 2 2 [0x3F800000, 0]) = .ok (outs, t) ∧
      Conversion ext view real t t' .BC7 .UNorm ∧
      t.convert real.feat real.hw real.enc .BC7 .UNorm q .Standard mask 1 = .ok (true, t') ∧
      Surface view t t' none 0 0 (view ⟨2, 2, true, .Linear, [0x3F800000, 0]⟩) (List.replicate 16 0) := by
  unfold bc7Check at h
  cases hr : run real none (single 2 2 [0x3F800000, 0]) with
  | ub => rw [hr] at h; simp at h
  | ok p =>
    obtain ⟨outs, t⟩ := p
    rw [hr] at h
    simp only [Bool.and_eq_true, beq_iff_eq] at h
    obtain ⟨h1, h2⟩ := h
    cases hc : t.convert real.feat real.hw real.enc .BC7 .UNorm q .Standard mask 1 with
    | ub => rw [hc] at h2; simp at h2
    | ok p =>
      obtain ⟨b, t'⟩ := p
      rw [hc] at h2
      simp only [Bool.and_eq_true, beq_iff_eq] at h2
      obtain ⟨rfl, h3⟩ := h2
      have hC : Conversion ext view real t t' .BC7 .UNorm :=
        ⟨lawful, rfl, fun g => ⟨rfl, rfl⟩,
          ⟨_, outs, single_safe 2 2 [0x3F800000, 0] (by norm_num) (by norm_num), hr⟩, ⟨_, _, _, _, hc⟩⟩
      refine ⟨outs, t, t', rfl, hC, hc, ⟨_, h1, rfl⟩, h3, ?_, (hC.extents h1).1, (hC.extents h1).2.1⟩
      unfold Tex.dataSize
      rw [h3]
      rfl

end Toy

/-- Hypotheses met: a 2x2 image converted to BC7 with the lowest and with the highest quality, without green. -/
example : ∃ t t1 t2, Conversion Toy.ext Toy.view Toy.real t t1 .BC7 .UNorm ∧
    Conversion Toy.ext Toy.view Toy.real t t2 .BC7 .UNorm ∧ rank .Lowest ≤ rank .Highest ∧
    t.convert Toy.real.feat Toy.real.hw Toy.real.enc .BC7 .UNorm .Lowest .Standard { g := false } 1 = .ok (true, t1) ∧
    t.convert Toy.real.feat Toy.real.hw Toy.real.enc .BC7 .UNorm .Highest .Standard { g := false } 1 =
      .ok (true, t2) ∧
    Surface Toy.view t t1 none 0 0 (Toy.view ⟨2, 2, true, .Linear, [0x3F800000, 0]⟩) (List.replicate 16 0) ∧
    Surface Toy.view t t2 none 0 0 (Toy.view ⟨2, 2, true, .Linear, [0x3F800000, 0]⟩) (List.replicate 16 0) ∧
    Fits .BC7 2 2 ∧ CodecSizes Toy.ext ∧ OrderedConsts Toy.ext.consts ∧ Toy.ext.ispc = false := by
  obtain ⟨o1, t, t1, r1, c1, e1, s1⟩ := Toy.bc7_sample (q := .Lowest) (mask := { g := false }) (by decide +kernel)
  obtain ⟨o2, t', t2, r2, c2, e2, s2⟩ := Toy.bc7_sample (q := .Highest) (mask := { g := false }) (by decide +kernel)
  obtain rfl : t = t' := by
    rw [r1] at r2
    simp only [Res.ok.injEq, Prod.mk.injEq] at r2
    exact r2.2
  refine ⟨t, t1, t2, c1, c2, by decide, e1, e2, s1, s2, ⟨by norm_num, by norm_num, by simp only [layout]; decide +kernel⟩,
    Toy.ext_sizes, ⟨by decide, by decide, 0, 40, 100, rfl, rfl, rfl, by norm_num, by norm_num, by norm_num⟩, rfl⟩

end Cuttlefish
