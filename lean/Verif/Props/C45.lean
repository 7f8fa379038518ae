import Verif.Proofs.Blocks
import Verif.Proofs.Pvrtc
import Verif.Proofs.Sample
/-
C45: the compression libraries get the channels of the texels, correctly quantised and in order.
-/
namespace Cuttlefish
open Spec
variable {Img : Type}

/-- The arguments a conversion passes to its encoders. -/
def convArgs (W : World Img) (t : Tex Img) (f : Format) (ty : TType) (q : Quality) (al : Alpha)
    (mask : ColorMask) (threads : Nat) : ConvArgs :=
  ⟨f, ty, al, mask, t.colorSpace, q, if threads = allCores then W.hw else threads⟩

/-- Every surface is the encoded image. -/
theorem conversion_surface {X : Ext} {view : Img → FImg} {W : World Img}
    {t t' : Tex Img} {f : Format} {ty : TType} (hC : Conversion X view W t t' f ty)
    {q : Quality} {al : Alpha} {mask : ColorMask} {threads : Nat}
    (hc : t.convert W.feat W.hw W.enc f ty q al mask threads = .ok (true, t'))
    {face : Option CubeFace} {m d : Nat} {img : FImg} {bytes : List UInt8}
    (hS : Surface view t t' face m d img bytes) :
    ∃ k, createConverter W.feat f ty = some k ∧
      encodeImage X k (convArgs W t f ty q al mask threads) img = .ok bytes := by
  obtain ⟨calls, outs, hs, hr⟩ := hC.hist
  obtain ⟨-, -, -, -, -, -, -, -, -, -, ⟨k, hk, h4⟩, -⟩ :=
    C09_success_effect W hC.lawful calls hs outs t hr f ty q al mask threads t' hc
  refine ⟨k, hk, ?_⟩
  obtain ⟨⟨g, hg, rfl⟩, h2, -⟩ := hS
  obtain ⟨b, b1, b2, -⟩ := h4 face m d g hg
  rw [h2] at b2
  simp only [Res.ok.injEq, Option.some.injEq] at b2
  subst b2
  rw [hC.enc] at b1
  exact b1

theorem conversion_blocks {X : Ext} (hX : CodecSizes X) {view : Img → FImg} {W : World Img}
    {t t' : Tex Img} {f : Format} {ty : TType} (hC : Conversion X view W t t' f ty)
    (hl : layout f = none) (hp : isPvrtc f = false) {q : Quality} {al : Alpha} {mask : ColorMask}
    {threads : Nat} (hc : t.convert W.feat W.hw W.enc f ty q al mask threads = .ok (true, t'))
    {face : Option CubeFace} {m d : Nat} {img : FImg} {bytes : List UInt8}
    (hS : Surface view t t' face m d img bytes) (hf : Fits f img.width img.height) :
    ∃ k, createConverter W.feat f ty = some k ∧
    ∀ bx by_, bx < ceilDiv img.width (blockWidth f) → by_ < ceilDiv img.height (blockHeight f) →
      blockCompress X k (convArgs W t f ty q al mask threads) (blockTexels f img bx by_) =
        .ok (texelAt bytes (blockSize f) (ceilDiv img.width (blockWidth f)) bx by_) := by
  obtain ⟨k, hk, b1⟩ := conversion_surface hC hc hS
  exact ⟨k, hk, (encode_block hX hk hl hp _ rfl hf b1).2⟩

/-- Every block of every S3TC surface is what the library makes of the nearest 8-bit values of the
texels' channels, in texel order (for BC2 preceded by the nearest 4-bit alpha values), called with
the options of the format and the quality, colour space and colour mask of the conversion. -/
theorem C45_s3tc_partial (X : Ext) (hX : CodecSizes X) (view : Img → FImg) (W : World Img)
    (t t' : Tex Img) (f : Format) (ty : TType) (hC : Conversion X view W t t' f ty)
    (hf : f ∈ [Format.BC1_RGB, .BC1_RGBA, .BC2, .BC3, .BC4, .BC5, .BC6H, .BC7])
    (q : Quality) (al : Alpha) (mask : ColorMask) (threads : Nat)
    (hc : t.convert W.feat W.hw W.enc f ty q al mask threads = .ok (true, t'))
    (face : Option CubeFace) (m d : Nat) (img : FImg) (bytes : List UInt8)
    (hS : Surface view t t' face m d img bytes) (hfit : Fits f img.width img.height)
    (bx by_ : Nat) (hx : bx < ceilDiv img.width 4) (hy : by_ < ceilDiv img.height 4) :
    S3tcBlock X (convArgs W t f ty q al mask threads) (clampedBlock img 4 4 bx by_)
      (texelAt bytes (blockSize f) (ceilDiv img.width 4) bx by_) := by
  have hcls : layout f = none ∧ isPvrtc f = false ∧ isEtc f = false ∧ blockWidth f = 4 ∧
      blockHeight f = 4 := by
    simp only [List.mem_cons, List.not_mem_nil, or_false] at hf
    rcases hf with rfl | rfl | rfl | rfl | rfl | rfl | rfl | rfl <;> decide
  obtain ⟨hl, hp, he, e1, e2⟩ := hcls
  obtain ⟨k, hk, h⟩ := conversion_blocks hX hC hl hp hc hS hfit
  have := h bx by_ (by rw [e1]; exact hx) (by rw [e2]; exact hy)
  simp only [blockTexels, he, Bool.false_eq_true, if_false, e1, e2] at this
  rcases conv_kind hk hl hp with ⟨he', -⟩ | ⟨-, ⟨s, rfl⟩, -⟩ | ⟨-, rfl⟩
  · rw [he] at he'; cases he'
  · exact compressS3tc_ok (c := W.feat) (a := convArgs W t f ty q al mask threads) hk
      (by rw [clampedBlock_len]) this
  · exfalso
    simp only [List.mem_cons, List.not_mem_nil, or_false] at hf
    rcases hf with rfl | rfl | rfl | rfl | rfl | rfl | rfl | rfl <;>
      cases ty <;> simp [createConverter, ifUNorm] at hk

/-- Every block of an ETC surface is what the library makes of the texels of the image in it, with the
options of the conversion; the red and green channels of signed EAC formats are moved to 0..1 first. -/
theorem C45_etc_partial (X : Ext) (hX : CodecSizes X) (view : Img → FImg) (W : World Img)
    (t t' : Tex Img) (f : Format) (ty : TType) (hC : Conversion X view W t t' f ty)
    (hf : isEtc f = true)
    (q : Quality) (al : Alpha) (mask : ColorMask) (threads : Nat)
    (hc : t.convert W.feat W.hw W.enc f ty q al mask threads = .ok (true, t'))
    (face : Option CubeFace) (m d : Nat) (img : FImg) (bytes : List UInt8)
    (hS : Surface view t t' face m d img bytes) (hfit : Fits f img.width img.height)
    (bx by_ : Nat) (hx : bx < ceilDiv img.width 4) (hy : by_ < ceilDiv img.height 4) :
    ∃ ps fmt metric eff, EtcOptions X.consts f ty t.colorSpace q fmt metric eff ∧
      texelAt bytes (blockSize f) (ceilDiv img.width 4) bx by_ =
        X.codec (.etc fmt metric eff (min 4 (img.width - bx * 4)) (min 4 (img.height - by_ * 4)) ps) ∧
      (ty = .UNorm → ps = croppedBlock img bx by_) ∧
      (ty = .SNorm → List.Forall₂ (fun p p' => Halved p.r p'.r ∧ Halved p.g p'.g ∧ p'.b = p.b ∧ p'.a = p.a)
        (croppedBlock img bx by_) ps) := by
  have hcls : layout f = none ∧ isPvrtc f = false ∧ blockWidth f = 4 ∧ blockHeight f = 4 := by
    cases f <;> simp only [isEtc, Bool.false_eq_true] at hf <;> decide
  obtain ⟨hl, hp, e1, e2⟩ := hcls
  obtain ⟨k, hk, h⟩ := conversion_blocks hX hC hl hp hc hS hfit
  have := h bx by_ (by rw [e1]; exact hx) (by rw [e2]; exact hy)
  rw [e1] at this
  rcases conv_kind hk hl hp with ⟨-, rfl⟩ | ⟨he', -⟩ | ⟨he', -⟩
  · simp only [blockCompress, blockTexels, hf, if_true, Res.ok.injEq, convArgs] at this
    refine ⟨_, _, _, _, ?_, this.symm, ?_, ?_⟩
    · refine ⟨?_, ?_, by rintro rfl; rfl, by rintro rfl; rfl, by rintro rfl; rfl, by rintro rfl; rfl,
        by rintro rfl; rfl⟩
      · cases f <;> simp only [isEtc, Bool.false_eq_true] at hf <;> cases ty <;>
          simp [createConverter, ifUNorm] at hk <;> decide
      · cases f <;> simp only [isEtc, Bool.false_eq_true] at hf <;> cases t.colorSpace <;> decide
    · intro ht
      rw [if_neg]
      subst ht
      cases f <;> decide
    · intro ht
      subst ht
      have : f = .EAC_R11 ∨ f = .EAC_R11G11 := by
        cases f <;> simp [isEtc] at hf <;> simp [createConverter, ifUNorm] at hk <;> simp
      rw [if_pos (by rcases this with rfl | rfl <;> decide), List.forall₂_map_right_iff]
      exact List.forall₂_same.2 (fun p _ => ⟨halfPlusHalf_ok _, halfPlusHalf_ok _, rfl, rfl⟩)
  · rw [hf] at he'; cases he'
  · rw [hf] at he'; cases he'

/-- Every block of an ASTC surface is what the library makes of its texels, with the options of the
conversion. -/
theorem C45_astc_partial (X : Ext) (hX : CodecSizes X) (view : Img → FImg) (W : World Img)
    (t t' : Tex Img) (f : Format) (ty : TType) (hC : Conversion X view W t t' f ty)
    (hf : f ∈ [Format.ASTC_4x4, .ASTC_5x4, .ASTC_5x5, .ASTC_6x5, .ASTC_6x6, .ASTC_8x5, .ASTC_8x6,
      .ASTC_8x8, .ASTC_10x5, .ASTC_10x6, .ASTC_10x8, .ASTC_10x10, .ASTC_12x10, .ASTC_12x12])
    (q : Quality) (al : Alpha) (mask : ColorMask) (threads : Nat)
    (hc : t.convert W.feat W.hw W.enc f ty q al mask threads = .ok (true, t'))
    (face : Option CubeFace) (m d : Nat) (img : FImg) (bytes : List UInt8)
    (hS : Surface view t t' face m d img bytes) (hfit : Fits f img.width img.height)
    (bx by_ : Nat) (hx : bx < ceilDiv img.width (blockWidth f))
    (hy : by_ < ceilDiv img.height (blockHeight f)) :
    ∃ cfg swz, AstcOptions f ty al mask t.colorSpace q cfg swz ∧
      texelAt bytes 16 (ceilDiv img.width (blockWidth f)) bx by_ =
        X.codec (.astc cfg swz (clampedBlock img (blockWidth f) (blockHeight f) bx by_)) := by
  have hcls : layout f = none ∧ isPvrtc f = false ∧ isEtc f = false ∧ blockSize f = 16 := by
    simp only [List.mem_cons, List.not_mem_nil, or_false] at hf
    rcases hf with rfl | rfl | rfl | rfl | rfl | rfl | rfl | rfl | rfl | rfl | rfl | rfl | rfl | rfl <;>
      decide
  obtain ⟨hl, hp, he, e1⟩ := hcls
  obtain ⟨k, hk, h⟩ := conversion_blocks hX hC hl hp hc hS hfit
  have := h bx by_ hx hy
  rw [e1] at this
  simp only [blockTexels, he, Bool.false_eq_true, if_false] at this
  rcases conv_kind hk hl hp with ⟨he', -⟩ | ⟨-, ⟨s, rfl⟩, -⟩ | ⟨-, rfl⟩
  · rw [he] at he'; cases he'
  · exfalso
    simp only [List.mem_cons, List.not_mem_nil, or_false] at hf
    rcases hf with rfl | rfl | rfl | rfl | rfl | rfl | rfl | rfl | rfl | rfl | rfl | rfl | rfl | rfl <;>
      cases ty <;> simp [createConverter, createAstc] at hk
  · simp only [blockCompress, Res.ok.injEq, convArgs] at this
    refine ⟨_, _, ?_, this.symm⟩
    refine ⟨rfl, rfl, ?_, ?_, ?_, ?_, ?_, rfl, rfl, rfl, ?_, ?_, ?_⟩
    · rintro rfl; rfl
    · rintro rfl; cases al <;> rfl
    · cases q <;> rfl
    · exact decide_eq_true_iff
    · exact decide_eq_true_iff
    · intro h; simp [astcSwizzle, h]
    · intro h h2; simp [astcSwizzle, h, h2]
    · intro h h2; simp [astcSwizzle, h, h2]

/-- Every PVRTC surface is what the library makes of the whole image: the nearest 8-bit values of the
channels of all pixels, row by row from the top, with the size of the image, the name of the format, the
quality, the number of threads and whether alpha is premultiplied. -/
theorem C45_pvrtc (X : Ext) (view : Img → FImg) (W : World Img)
    (t t' : Tex Img) (f : Format) (ty : TType) (hC : Conversion X view W t t' f ty)
    (hf : isPvrtc f = true)
    (q : Quality) (al : Alpha) (mask : ColorMask) (threads : Nat)
    (hc : t.convert W.feat W.hw W.enc f ty q al mask threads = .ok (true, t'))
    (face : Option CubeFace) (m d : Nat) (img : FImg) (bytes : List UInt8)
    (hS : Surface view t t' face m d img bytes) :
    ∃ name quality px, PvrtcName f name ∧ pvrtcRank quality = rank q ∧
      UNormBytes (allChannels (rowMajor img.width img.height (fun x y => [img.px x y]))) px ∧
      bytes = X.codec (.pvrtc name quality (if threads = allCores then W.hw else threads) (al = .PreMultiplied)
        img.width img.height px) := by
  obtain ⟨k, hk, b1⟩ := conversion_surface hC hc hS
  rw [pvrtc_conv hk hf] at b1
  obtain ⟨name, e1, e2⟩ : ∃ name, pvrtcPixelType f = some name ∧ PvrtcName f name := by
    cases f <;> simp only [isPvrtc, Bool.false_eq_true] at hf <;> exact ⟨_, rfl, by unfold PvrtcName; decide⟩
  simp only [encodeImage, convArgs, Res.bind_eq_ok, e1, Res.pure_eq, Res.ok.injEq] at b1
  obtain ⟨px, p1, p2⟩ := b1
  exact ⟨name, pvrtcQuality q, px, e2, by cases q <;> rfl, pvrtcPixels_ok p1, p2.symm⟩

/-- Hypotheses met: BC2 of a 2x2 image; the alpha half holds the sixteen 4-bit values of 1.0. -/
example : ∃ t t', Conversion Toy.ext Toy.view Toy.real t t' .BC2 .UNorm ∧
    t.convert Toy.real.feat Toy.real.hw Toy.real.enc .BC2 .UNorm .Normal .Standard {} 1 = .ok (true, t') ∧
    Surface Toy.view t t' none 0 0 (Toy.view ⟨2, 2, true, .Linear, [0x3F800000, 0]⟩)
      (List.replicate 8 255 ++ List.replicate 8 0) ∧ Fits .BC2 2 2 ∧ CodecSizes Toy.ext := by
  obtain ⟨t, t', h1, h2, h3⟩ := Toy.sampleConv
      (ops := Toy.single 2 2 [0x3F800000, 0]) (f := .BC2) (ty := .UNorm)
      (face := none) (m := 0) (d := 0) (expected := List.replicate 8 255 ++ List.replicate 8 0)
      (g := ⟨2, 2, true, .Linear, [0x3F800000, 0]⟩)
      (Toy.single_safe _ _ _ (by norm_num) (by norm_num)) (by decide +kernel)
  exact ⟨t, t', h1, h3, h2, ⟨by norm_num, by norm_num, by simp only [layout]; decide +kernel⟩,
    Toy.ext_sizes⟩

/-- Hypotheses met for PVRTC: an 8x8 image, four blocks. -/
example : ∃ t t', Conversion Toy.ext Toy.view Toy.real t t' .PVRTC1_RGBA_4BPP .UNorm ∧
    t.convert Toy.real.feat Toy.real.hw Toy.real.enc .PVRTC1_RGBA_4BPP .UNorm .Normal .Standard {} 1 = .ok (true, t') ∧
    Surface Toy.view t t' none 0 0 (Toy.view ⟨8, 8, true, .Linear, [0x3F800000, 0]⟩) (List.replicate 32 0) := by
  obtain ⟨t, t', h1, h2, h3⟩ := Toy.sampleConv
      (ops := Toy.single 8 8 [0x3F800000, 0]) (f := .PVRTC1_RGBA_4BPP) (ty := .UNorm)
      (face := none) (m := 0) (d := 0) (expected := List.replicate 32 0) (g := ⟨8, 8, true, .Linear, [0x3F800000, 0]⟩)
      (Toy.single_safe _ _ _ (by norm_num) (by norm_num)) (by decide +kernel)
  exact ⟨t, t', h1, h3, h2⟩

end Cuttlefish
