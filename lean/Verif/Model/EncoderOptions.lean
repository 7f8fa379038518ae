import Verif.Model.Num
import Verif.Model.TextureConvert
/-
The options the block encoders pass to their libraries: how they are computed from the quality, colour space, alpha
type and colour mask of a conversion.  The constants and the opaque option structures of the libraries are not in
the repository: constants are parameters (`EncoderConsts`), opaque settings are represented by the name of the
library function or flag that makes them.
-/
namespace Cuttlefish

/-- `a + b` on floats. -/
def F32.add : F32 → F32 → F32
  | .fin a, .fin b => F32.round (a + b)
  | .nan, _ => .nan
  | _, .nan => .nan
  | .inf s, .inf t => if s = t then .inf s else .nan
  | .inf s, .fin _ => .inf s
  | .fin _, .inf t => .inf t

/-- `static_cast<uint32_t>(quality)`, lib/include/cuttlefish/Texture.h:181-188. -/
def Quality.value : Quality → Nat
  | .Lowest => 0
  | .Low => 1
  | .Normal => 2
  | .High => 3
  | .Highest => 4

/-- Constants of the libraries: `rgbcx::MIN_LEVEL`, `rgbcx::MAX_LEVEL`, `BC7ENC_MAX_PARTITIONS`, the channel weights
that `bc7enc_compress_block_params_init_perceptual_weights` (true) and `..._linear_weights` (false) set, and
`ETCCOMP_MIN_EFFORT_LEVEL`, `ETCCOMP_DEFAULT_EFFORT_LEVEL`, `ETCCOMP_MAX_EFFORT_LEVEL`. -/
structure EncoderConsts where
  rgbcxMin : Nat
  rgbcxMax : Nat
  bc7Partitions : Nat
  bc7Weights : Bool → Nat × Nat × Nat × Nat
  etcMin : F32
  etcDefault : F32
  etcMax : F32

/-- `getRgbcxQualityLevel`, lib/src/S3tcConverter.cpp:66-71.  Simplification: the levels are small, so the 32-bit
arithmetic is exact. -/
def rgbcxLevel (K : EncoderConsts) (q : Quality) : Nat :=
  K.rgbcxMin + (K.rgbcxMax - K.rgbcxMin) * q.value / Quality.Highest.value

/-- `getCompressonatorQualityLevel`, lib/src/S3tcConverter.cpp:73-78: a `float` division. -/
def compressonatorLevel (q : Quality) : F32 := F32.round ((q.value : ℚ) / (Quality.Highest.value : ℚ))

/-- `getSearchRadius`, lib/src/S3tcConverter.cpp:80-95. -/
def searchRadius : Quality → Nat
  | .Lowest | .Low => 3
  | .Normal => 5
  | .High => 16
  | .Highest => 32

/-- `quality() <= Texture::Quality::Low`. -/
def lowQuality (q : Quality) : Bool := q.value ≤ Quality.Low.value

/-- How squish fits colours: `kColourRangeFit`, no flag (cluster fit), `kColourIterativeClusterFit`. -/
inductive SquishFit where
  | range | cluster | iterative
  deriving DecidableEq, Repr

/-- `Bc1AConverter::Bc1AConverter`, lib/src/S3tcConverter.cpp:272-281. -/
def squishFit (q : Quality) : SquishFit :=
  if q.value ≤ Quality.Low.value then .range
  else if q = .Highest then .iterative
  else .cluster

/-- The weights of `squish::Compress`, lib/src/S3tcConverter.cpp:296-329. -/
def squishWeights (cs : ColorSpace) (mask : ColorMask) : F32 × F32 × F32 :=
  let srgb : Bool := cs = .sRGB
  (if mask.r then if srgb then F32.round 0.2126 else .fin 1 else .fin 0,
   if mask.g then if srgb then F32.round 0.7152 else .fin 1 else .fin 0,
   if mask.b then if srgb then F32.round 0.0722 else .fin 1 else .fin 0)

/-- The speed profiles of ispc_texcomp (`GetProfile_bc6h_veryfast`, `_fast`, `_basic`, `_slow`, `_veryslow`) and of
bc7e (`..._init_ultrafast`, `_fast`, `_basic`, `_slow`, `_slowest`). -/
inductive IspcProfile where
  | fastest | fast | basic | slow | slowest
  deriving DecidableEq, Repr

/-- The profile of BC6H, lib/src/S3tcConverter.cpp:504-524. -/
def bc6Profile : Quality → IspcProfile
  | .Lowest => .fastest
  | .Low => .fast
  | .Normal => .basic
  | .High => .slow
  | .Highest => .slowest

/-- The profile of BC7, lib/src/S3tcConverter.cpp:600-620. -/
def bc7eProfile : Quality → IspcProfile
  | .Lowest => .fastest
  | .Low => .fast
  | .Normal => .basic
  | .High => .slow
  | .Highest => .slowest

/-- The members of `bc7enc_compress_block_params` that are set. -/
structure Bc7Params where
  maxPartitions : Nat
  uberLevel : Nat
  leastSquares : Bool
  filterbank : Bool
  weights : Nat × Nat × Nat × Nat
  deriving DecidableEq, Repr

/-- Weights of unused channels are set to 0, lib/src/S3tcConverter.cpp:215-222. -/
def maskWeights (mask : ColorMask) (w : Nat × Nat × Nat × Nat) : Nat × Nat × Nat × Nat :=
  (if mask.r then w.1 else 0, if mask.g then w.2.1 else 0, if mask.b then w.2.2.1 else 0,
    if mask.a then w.2.2.2 else 0)

/-- `createBc7BlockParams`, lib/src/S3tcConverter.cpp:170-225. -/
def bc7Params (K : EncoderConsts) (q : Quality) (cs : ColorSpace) (mask : ColorMask) : Bc7Params :=
  let weights (perceptual : Bool) := maskWeights mask (K.bc7Weights perceptual)
  match q with
  | .Lowest => ⟨0, 0, false, true, weights false⟩
  | .Low => ⟨16, 0, true, true, weights false⟩
  | .Normal => ⟨K.bc7Partitions, 1, true, false, weights (cs = .sRGB)⟩
  | .High | .Highest => ⟨K.bc7Partitions, 4, true, false, weights (cs = .sRGB)⟩

/-- `Etc::Image::Format`. -/
inductive EtcFormat where
  | ETC1 | RGB8 | RGB8A1 | RGBA8 | R11 | SIGNED_R11 | RG11 | SIGNED_RG11
  deriving DecidableEq, Repr

/-- `Etc::ErrorMetric`. -/
inductive EtcMetric where
  | RGBX | RGBA | REC709 | NUMERIC
  deriving DecidableEq, Repr

/-- `m_format`, lib/src/EtcConverter.cpp:56-108.  The default case of the switch is not reachable (the converter is
only made for these formats); it leaves the member unset and is arbitrary here. -/
def etcFormat (f : Format) (t : TType) : EtcFormat :=
  match f with
  | .ETC1 => .ETC1
  | .ETC2_R8G8B8 => .RGB8
  | .ETC2_R8G8B8A1 => .RGB8A1
  | .ETC2_R8G8B8A8 => .RGBA8
  | .EAC_R11 => if t = .UNorm then .R11 else .SIGNED_R11
  | .EAC_R11G11 => if t = .UNorm then .RG11 else .SIGNED_RG11
  | _ => .ETC1

/-- `m_metric`, lib/src/EtcConverter.cpp:56-108. -/
def etcMetric (f : Format) (cs : ColorSpace) : EtcMetric :=
  match f with
  | .ETC1 | .ETC2_R8G8B8 => if cs = .Linear then .RGBX else .REC709
  | .ETC2_R8G8B8A1 | .ETC2_R8G8B8A8 => if cs = .Linear then .RGBA else .REC709
  | .EAC_R11 | .EAC_R11G11 => .NUMERIC
  | _ => .RGBX

/-- `m_effort`, lib/src/EtcConverter.cpp:34-54. -/
def etcEffort (K : EncoderConsts) : Quality → F32
  | .Lowest => K.etcMin
  | .Low => (K.etcMin.add K.etcDefault).mul (.fin (1 / 2))
  | .Normal => K.etcDefault
  | .High => (K.etcDefault.add K.etcMax).mul (.fin (1 / 2))
  | .Highest => K.etcMax

/-- `astcenc_profile`, the members used. -/
inductive AstcProfile where
  | LDR | HDR_RGB_LDR_A | HDR
  deriving DecidableEq, Repr

/-- `astcenc_swz`, the members used. -/
inductive AstcSwz where
  | R | G | B | A | zero | one
  deriving DecidableEq, Repr

/-- The presets, `ASTCENC_PRE_FASTEST` to `ASTCENC_PRE_EXHAUSTIVE`. -/
inductive AstcPreset where
  | fastest | fast | medium | thorough | exhaustive
  deriving DecidableEq, Repr

/-- The arguments of `astcenc_config_init`; the flags are `ASTCENC_FLG_USE_ALPHA_WEIGHT` and
`ASTCENC_FLG_USE_PERCEPTUAL`. -/
structure AstcConfig where
  profile : AstcProfile
  blockX : Nat
  blockY : Nat
  preset : AstcPreset
  alphaWeight : Bool
  perceptual : Bool
  deriving DecidableEq, Repr

/-- The profile, lib/src/AstcConverter.cpp:151-163. -/
def astcProfile (t : TType) (al : Alpha) : AstcProfile :=
  if t = .UFloat then if al = .None ∨ al = .PreMultiplied then .HDR_RGB_LDR_A else .HDR
  else .LDR

/-- The preset, lib/src/AstcConverter.cpp:174-195. -/
def astcPreset : Quality → AstcPreset
  | .Lowest => .fastest
  | .Low => .fast
  | .Normal => .medium
  | .High => .thorough
  | .Highest => .exhaustive

/-- The configuration, lib/src/AstcConverter.cpp:151-197. -/
def astcConfig (bx by_ : Nat) (a : ConvArgs) : AstcConfig :=
  ⟨astcProfile a.type a.alphaType, bx, by_, astcPreset a.quality,
    a.alphaType = .Standard ∨ a.alphaType = .PreMultiplied, a.colorSpace = .sRGB⟩

/-- The swizzle, lib/src/AstcConverter.cpp:140-149: red, green, blue, alpha. -/
def astcSwizzle (al : Alpha) (mask : ColorMask) : AstcSwz × AstcSwz × AstcSwz × AstcSwz :=
  (if mask.r then .R else .zero, if mask.g then .G else .zero, if mask.b then .B else .zero,
    if mask.a then if al = .None then .one else .A else .zero)

/-- The pixel types of PVRTexLib used. -/
inductive PvrPixel where
  | PVRTCI_2bpp_RGB | PVRTCI_2bpp_RGBA | PVRTCI_4bpp_RGB | PVRTCI_4bpp_RGBA | PVRTCII_2bpp | PVRTCII_4bpp
  deriving DecidableEq, Repr

/-- `pixelType`, lib/src/PvrtcConverter.cpp:78-102; other formats return at once. -/
def pvrtcPixelType : Format → Option PvrPixel
  | .PVRTC1_RGB_2BPP => some .PVRTCI_2bpp_RGB
  | .PVRTC1_RGBA_2BPP => some .PVRTCI_2bpp_RGBA
  | .PVRTC1_RGB_4BPP => some .PVRTCI_4bpp_RGB
  | .PVRTC1_RGBA_4BPP => some .PVRTCI_4bpp_RGBA
  | .PVRTC2_RGBA_2BPP => some .PVRTCII_2bpp
  | .PVRTC2_RGBA_4BPP => some .PVRTCII_4bpp
  | _ => none

/-- `PVRTexLibCompressorQuality`, the members used. -/
inductive PvrQuality where
  | fastest | low | normal | high | best
  deriving DecidableEq, Repr

/-- `quality`, lib/src/PvrtcConverter.cpp:104-125. -/
def pvrtcQuality : Quality → PvrQuality
  | .Lowest => .fastest
  | .Low => .low
  | .Normal => .normal
  | .High => .high
  | .Highest => .best

end Cuttlefish
