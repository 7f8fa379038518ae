import Verif.Model.Encode
import Verif.Spec.Formats
/-
Specification of the options of the block encoders.
-/
namespace Cuttlefish.Spec

/-- The qualities in order. -/
def rank : Quality → Nat
  | .Lowest => 0
  | .Low => 1
  | .Normal => 2
  | .High => 3
  | .Highest => 4

/-- The search radius of the slower encoders for BC3, BC4 and BC5; the fast ones are used for the two lowest
qualities. -/
def hqRadius : Quality → Option Nat
  | .Lowest | .Low => none
  | .Normal => some 5
  | .High => some 16
  | .Highest => some 32

/-- The level of rgbcx: the range of the library divided evenly. -/
def levelOf (K : EncoderConsts) (q : Quality) : Nat := K.rgbcxMin + (K.rgbcxMax - K.rgbcxMin) * rank q / 4

/-- Profiles of the ISPC encoders, slower ones last. -/
def speed : IspcProfile → Nat
  | .fastest => 0
  | .fast => 1
  | .basic => 2
  | .slow => 3
  | .slowest => 4

/-- The weights of squish: 0 for the channels that are not used, the luminance of the others in sRGB and 1
otherwise. -/
def SquishWeights (cs : ColorSpace) (mask : ColorMask) (w : F32 × F32 × F32) : Prop :=
  (mask.r = false → w.1 = .fin 0) ∧ (mask.g = false → w.2.1 = .fin 0) ∧ (mask.b = false → w.2.2 = .fin 0) ∧
  (cs = .Linear → (mask.r → w.1 = .fin 1) ∧ (mask.g → w.2.1 = .fin 1) ∧ (mask.b → w.2.2 = .fin 1)) ∧
  (cs = .sRGB → (mask.r → w.1 = F32.round 0.2126) ∧ (mask.g → w.2.1 = F32.round 0.7152) ∧
    (mask.b → w.2.2 = F32.round 0.0722))

/-- The weights of bc7enc: 0 for the channels that are not used; the others are those of the library, the
perceptual ones for sRGB images from normal quality on. -/
def Bc7Weights (K : EncoderConsts) (q : Quality) (cs : ColorSpace) (mask : ColorMask) (w : Nat × Nat × Nat × Nat) :
    Prop :=
  let lib := K.bc7Weights (decide (cs = .sRGB ∧ 2 ≤ rank q))
  (w.1 = if mask.r then lib.1 else 0) ∧ (w.2.1 = if mask.g then lib.2.1 else 0) ∧
  (w.2.2.1 = if mask.b then lib.2.2.1 else 0) ∧ (w.2.2.2 = if mask.a then lib.2.2.2 else 0)

/-- The options of an ETC encoder: the variant of the format and type, a perceptual metric for sRGB and one of the
used channels for linear colours (EAC formats hold plain numbers), and the effort. -/
def EtcOptions (K : EncoderConsts) (f : Format) (ty : TType) (cs : ColorSpace) (q : Quality) (fmt : EtcFormat)
    (metric : EtcMetric) (effort : F32) : Prop :=
  (f, ty, fmt) ∈ [(Format.ETC1, TType.UNorm, EtcFormat.ETC1), (.ETC2_R8G8B8, .UNorm, .RGB8),
    (.ETC2_R8G8B8A1, .UNorm, .RGB8A1), (.ETC2_R8G8B8A8, .UNorm, .RGBA8), (.EAC_R11, .UNorm, .R11),
    (.EAC_R11, .SNorm, .SIGNED_R11), (.EAC_R11G11, .UNorm, .RG11), (.EAC_R11G11, .SNorm, .SIGNED_RG11)] ∧
  (f, cs, metric) ∈ [(Format.ETC1, ColorSpace.Linear, EtcMetric.RGBX), (.ETC1, .sRGB, .REC709),
    (.ETC2_R8G8B8, .Linear, .RGBX), (.ETC2_R8G8B8, .sRGB, .REC709),
    (.ETC2_R8G8B8A1, .Linear, .RGBA), (.ETC2_R8G8B8A1, .sRGB, .REC709),
    (.ETC2_R8G8B8A8, .Linear, .RGBA), (.ETC2_R8G8B8A8, .sRGB, .REC709),
    (.EAC_R11, .Linear, .NUMERIC), (.EAC_R11, .sRGB, .NUMERIC),
    (.EAC_R11G11, .Linear, .NUMERIC), (.EAC_R11G11, .sRGB, .NUMERIC)] ∧
  (q = .Lowest → effort = K.etcMin) ∧ (q = .Normal → effort = K.etcDefault) ∧ (q = .Highest → effort = K.etcMax) ∧
  (q = .Low → effort = (K.etcMin.add K.etcDefault).mul (.fin (1 / 2))) ∧
  (q = .High → effort = (K.etcDefault.add K.etcMax).mul (.fin (1 / 2)))

/-- Presets of the ASTC encoder, slower ones last. -/
def thoroughness : AstcPreset → Nat
  | .fastest => 0
  | .fast => 1
  | .medium => 2
  | .thorough => 3
  | .exhaustive => 4

/-- The options of the ASTC encoder: channels that are not used are 0, alpha is 1 if there is none, floats use the
profiles with a high dynamic range (for alpha only if it is not between 0 and 1 by its type), alpha weighs the colours if it is an
opacity, and sRGB images are compared perceptually. -/
def AstcOptions (f : Format) (ty : TType) (al : Alpha) (mask : ColorMask) (cs : ColorSpace) (q : Quality)
    (c : AstcConfig) (swz : AstcSwz × AstcSwz × AstcSwz × AstcSwz) : Prop :=
  c.blockX = blockWidth f ∧ c.blockY = blockHeight f ∧
  (ty = .UNorm → c.profile = .LDR) ∧
  (ty = .UFloat → c.profile = if al = .Standard ∨ al = .Encoded then .HDR else .HDR_RGB_LDR_A) ∧
  thoroughness c.preset = rank q ∧
  (c.alphaWeight = true ↔ al = .Standard ∨ al = .PreMultiplied) ∧
  (c.perceptual = true ↔ cs = .sRGB) ∧
  (swz.1 = if mask.r then .R else .zero) ∧ (swz.2.1 = if mask.g then .G else .zero) ∧
  (swz.2.2.1 = if mask.b then .B else .zero) ∧
  (mask.a = false → swz.2.2.2 = .zero) ∧ (mask.a = true → al = .None → swz.2.2.2 = .one) ∧
  (mask.a = true → al ≠ .None → swz.2.2.2 = .A)

/-- Qualities of the PVRTC encoder, slower ones last. -/
def pvrtcRank : PvrQuality → Nat
  | .fastest => 0
  | .low => 1
  | .normal => 2
  | .high => 3
  | .best => 4

/-- The PVRTC formats and the names the library has for them. -/
def PvrtcName (f : Format) (p : PvrPixel) : Prop :=
  (f, p) ∈ [(Format.PVRTC1_RGB_2BPP, PvrPixel.PVRTCI_2bpp_RGB), (.PVRTC1_RGBA_2BPP, .PVRTCI_2bpp_RGBA),
    (.PVRTC1_RGB_4BPP, .PVRTCI_4bpp_RGB), (.PVRTC1_RGBA_4BPP, .PVRTCI_4bpp_RGBA),
    (.PVRTC2_RGBA_2BPP, .PVRTCII_2bpp), (.PVRTC2_RGBA_4BPP, .PVRTCII_4bpp)]

/-- How hard a library is asked to try: numbers that are larger for slower and better settings. -/
def effort : CodecCall → List F32
  | .rgbcxBc1 level .. => [.fin level]
  | .squishBc1 fit .. => [.fin (match fit with | .range => 0 | .cluster => 1 | .iterative => 2)]
  | .rgbcxBc3 level .. => [.fin level, .fin 0]
  | .rgbcxBc3hq level _ radius => [.fin level, .fin radius]
  | .rgbcxBc4 .. => [.fin 0]
  | .rgbcxBc4hq _ radius => [.fin radius]
  | .rgbcxBc5 .. => [.fin 0]
  | .rgbcxBc5hq _ radius => [.fin radius]
  | .cmpBc4s q .. => [q]
  | .cmpBc5s q .. => [q]
  | .cmpBc6 q .. => [q]
  | .ispcBc6 p .. => [.fin (speed p)]
  | .bc7e p .. => [.fin (speed p)]
  | .bc7enc p .. => [.fin p.maxPartitions, .fin p.uberLevel, .fin (if p.leastSquares then 1 else 0),
      .fin (if p.filterbank then 0 else 1)]
  | .etc _ _ e .. => [e]
  | .astc c .. => [.fin (thoroughness c.preset)]
  | .pvrtc _ q .. => [.fin (pvrtcRank q)]

/-- What a library is given to compress. -/
def input : CodecCall → List UInt8 × List Nat × List Pixel
  | .rgbcxBc1 _ px .. | .squishBc1 _ px .. | .rgbcxBc3 _ px | .rgbcxBc3hq _ px _ | .rgbcxBc4 px | .rgbcxBc4hq px _
  | .rgbcxBc5 px | .rgbcxBc5hq px _ | .cmpBc4s _ px | .bc7e _ _ px | .bc7enc _ px | .pvrtc _ _ _ _ _ _ px =>
    (px, [], [])
  | .cmpBc5s _ red green => (red ++ green, [], [])
  | .cmpBc6 _ _ hs | .ispcBc6 _ hs => ([], hs, [])
  | .etc _ _ _ _ _ px | .astc _ _ px => ([], [], px)

/-- The second call asks for at least as much effort as the first, in every respect. -/
def NoLessEffort (c c' : CodecCall) : Prop :=
  List.Forall₂ (fun x y => ∃ a b : ℚ, x = .fin a ∧ y = .fin b ∧ a ≤ b) (effort c) (effort c')

/-- Assumption on the constants of the libraries: the ranges are in order, and the effort levels of the ETC
encoder are small whole numbers. -/
structure OrderedConsts (K : EncoderConsts) : Prop where
  rgbcx : K.rgbcxMin ≤ K.rgbcxMax
  bc7 : 16 ≤ K.bc7Partitions
  etc : ∃ a b c : ℕ, K.etcMin = .fin a ∧ K.etcDefault = .fin b ∧ K.etcMax = .fin c ∧ a ≤ b ∧ b ≤ c ∧ c ≤ 2 ^ 22

/-- The channel has no weight in the comparison of the compressed and the given colours, or is replaced. -/
def Ignored (c : Chan) : CodecCall → Prop
  | .squishBc1 _ _ w => match c with
    | .R => w.1 = .fin 0
    | .G => w.2.1 = .fin 0
    | .B => w.2.2 = .fin 0
    | .A => False
  | .bc7enc p _ => match c with
    | .R => p.weights.1 = 0
    | .G => p.weights.2.1 = 0
    | .B => p.weights.2.2.1 = 0
    | .A => p.weights.2.2.2 = 0
  | .astc _ swz _ => match c with
    | .R => swz.1 = .zero
    | .G => swz.2.1 = .zero
    | .B => swz.2.2.1 = .zero
    | .A => swz.2.2.2 = .zero
  | _ => False

end Cuttlefish.Spec
