import Verif.Model.Num
import Verif.Model.Converter
import Verif.Model.EncoderOptions
import Verif.Model.HalfFloat
/-
Encoding one texel (uncompressed formats) and one block (compressed formats), and the job that
fills a part of the surface.

Pixels are RGBA float quadruples in memory (`ColorRGBAf`, `Image::Format::RGBAF`), each channel a
32-bit word.  External code is collected in `Ext`.
-/
namespace Cuttlefish

/-- A `ColorRGBAf` in memory: four 32-bit words. -/
structure Pixel where
  r : Nat
  g : Nat
  b : Nat
  a : Nat
  deriving DecidableEq, Repr

/-- The image a converter reads (always `RGBAF`): extents and the pixel at column `x`, row `y`
counted from the top. -/
structure FImg where
  width : Nat
  height : Nat
  px : Nat → Nat → Pixel

/-- `reinterpret_cast<const ColorRGBAf*>(image().scanline(y))[x]`.  `Image::scanline` returns null
for rows outside the image (lib/src/Image.cpp), columns outside the row are out of bounds: both
undefined. -/
def FImg.read (i : FImg) (x y : Nat) : Res Pixel :=
  if y < i.height ∧ x < i.width then .ok (i.px x y) else .ub

/-- Arguments of the calls into the block compression libraries. -/
inductive CodecCall where
  /-- `rgbcx::encode_bc1`, allow 3 colour mode, use black for transparent -/
  | rgbcxBc1 (level : Nat) (px : List UInt8) (allow3 black3 : Bool)
  /-- `squish::Compress` with `kDxt1` -/
  | squishBc1 (fit : SquishFit) (px : List UInt8) (weights : F32 × F32 × F32)
  | rgbcxBc3 (level : Nat) (px : List UInt8)
  | rgbcxBc3hq (level : Nat) (px : List UInt8) (radius : Nat)
  | rgbcxBc4 (px : List UInt8)
  | rgbcxBc4hq (px : List UInt8) (radius : Nat)
  | cmpBc4s (quality : F32) (px : List UInt8)
  | rgbcxBc5 (px : List UInt8)
  | rgbcxBc5hq (px : List UInt8) (radius : Nat)
  | cmpBc5s (quality : F32) (red green : List UInt8)
  /-- `CompressBlocksBC6H` of ispc_texcomp (16 RGBA half floats) -/
  | ispcBc6 (profile : IspcProfile) (halves : List Nat)
  /-- `CompressBlockBC6` of Compressonator (16 RGB half floats) -/
  | cmpBc6 (quality : F32) (signed : Bool) (halves : List Nat)
  /-- `ispc::bc7e_compress_blocks` -/
  | bc7e (profile : IspcProfile) (perceptual : Bool) (px : List UInt8)
  /-- `bc7enc_compress_block` -/
  | bc7enc (params : Bc7Params) (px : List UInt8)
  /-- `Etc::Image(pixels, w, h, metric).Encode(format, metric, effort)` -/
  | etc (f : EtcFormat) (metric : EtcMetric) (effort : F32) (w h : Nat) (px : List Pixel)
  /-- `astcenc_compress_image` on one block, with a context of the configuration -/
  | astc (config : AstcConfig) (swizzle : AstcSwz × AstcSwz × AstcSwz × AstcSwz) (px : List Pixel)
  /-- PVRTexLib `Transcode` of an RGBA8 image -/
  | pvrtc (f : PvrPixel) (q : PvrQuality) (threads : Nat) (premultiplied : Bool) (w h : Nat)
      (px : List UInt8)

/-- What the encoders use from outside: the processor, `glm::packHalf`, the glm packers of the two
packed float formats, the block compression libraries and their constants, and whether the build uses
ISPC.
Assumed to be functions of their arguments. -/
structure Ext where
  cpu : Cpu
  glmHalf : Nat → Nat
  packF11 : Nat → Nat → Nat → Nat
  packE5 : Nat → Nat → Nat → Nat
  ispc : Bool
  consts : EncoderConsts
  codec : CodecCall → List UInt8

/-- The half float of one channel: the branches on `hasHardwareHalfFloat` in
lib/src/StandardConverter.h:250-269 and lib/src/S3tcConverter.cpp:552-565, 575-587.  The hardware
functions convert the four channels of a pixel at once and store the first ones
(lib/src/HalfFloat.h:60-135); every lane is converted on its own. -/
def Ext.half (X : Ext) (w : Nat) : Nat :=
  if X.cpu.hasHardwareHalfFloat then hardwareHalf w else X.glmHalf w

/-- `static_cast<T>(std::round(clamp(v, 0.0f, 1.0f)*m))` for an unsigned `T` with largest value
`top`, lib/src/StandardConverter.h:100-104 and throughout lib/src/StandardConverter.cpp. -/
def toUNorm (top m v : Nat) : Res Nat := do
  let i ← (((clampF (F32.ofBits v) (.fin 0) (.fin 1)).mul (.fin m)).roundAway).cast 0 top
  pure i.toNat

/-- `static_cast<uint16_t>(std::round(clamp(v, 0.0f, 1.0f)))`: the one bit alpha channels,
lib/src/StandardConverter.cpp:184, 210, 236. -/
def toA1 (v : Nat) : Res Nat := do
  let i ← ((clampF (F32.ofBits v) (.fin 0) (.fin 1)).roundAway).cast 0 65535
  pure i.toNat

/-- `static_cast<T>(std::round(clamp(v, -1.0f, 1.0f)*max))` for a signed `T` of `n` bits (as two's
complement bits), lib/src/StandardConverter.h:142-146. -/
def toSNorm (n v : Nat) : Res Nat := do
  let i ← (((clampF (F32.ofBits v) (.fin (-1)) (.fin 1)).mul (.fin (2 ^ (n - 1) - 1))).roundAway).cast
    (-2 ^ (n - 1)) (2 ^ (n - 1) - 1)
  pure (bits n i)

/-- `static_cast<T>(std::round(clamp(v, minVal, maxVal)))` where the limits of `T` are first
converted to `float`, lib/src/StandardConverter.h:170-195. -/
def toInt (lo hi : Int) (v : Nat) : Res Int :=
  ((clampF (F32.ofBits v) (F32.round lo) (F32.round hi)).roundAway).cast lo hi

/-- `static_cast<uint32_t>(std::round(clamp(v, 0, m)))`, lib/src/StandardConverter.cpp:360-363. -/
def toField (m v : Nat) : Res Nat := do
  let i ← ((clampF (F32.ofBits v) (.fin 0) (.fin m)).roundAway).cast 0 (2 ^ 32 - 1)
  pure i.toNat

/-- The channels of a pixel in memory order. -/
def Pixel.chans (p : Pixel) : List Nat := [p.r, p.g, p.b, p.a]

/-- Smallest value of the integer type of an `IntConverter`. -/
def intLo (signed : Bool) (n : Nat) : Int := if signed then -2 ^ (n - 1) else 0

/-- Largest value of the integer type of an `IntConverter`. -/
def intHi (signed : Bool) (n : Nat) : Int := if signed then 2 ^ (n - 1) - 1 else 2 ^ n - 1

/-- One channel of the template converters, as bytes in memory: the loop bodies in
lib/src/StandardConverter.h:98-104 (UNorm), 140-146 (SNorm), 190-195 (Int), 230-231 (Float) and
267-268, 296-312 (Half). -/
def chanBytes (X : Ext) : Conv → Nat → Res (List UInt8)
  | .unorm s _, v => do
    let n ← toUNorm (2 ^ (8 * s) - 1) (2 ^ (8 * s) - 1) v
    pure (leBytes s n)
  | .snorm s _, v => do
    let n ← toSNorm (8 * s) v
    pure (leBytes s n)
  | .int signed s _, v => do
    let i ← toInt (intLo signed (8 * s)) (intHi signed (8 * s)) v
    pure (leBytes s (bits (8 * s) i))
  | .half _, v => .ok (leBytes 2 (X.half v))
  | .float _, v => .ok (leBytes 4 v)
  | _, _ => .ok []

/-- `static_cast<uintN_t>(std::round(clamp(v, 0, 1)*m)) & m`. -/
def maskU (top m v : Nat) : Res Nat := do
  let n ← toUNorm top m v
  pure (n &&& m)

/-- The bytes of one texel of the packed converters, lib/src/StandardConverter.cpp:22-465: the
values computed in the loop bodies, stored as a little endian word or as single bytes. -/
def packedBytes (X : Ext) (k : PackedConv) (p : Pixel) : Res (List UInt8) :=
  match k with
  | .R4G4 => do
    let r ← maskU 255 0xF p.r
    let g ← maskU 255 0xF p.g
    pure (leBytes 1 (g ||| (r <<< 4)))
  | .R4G4B4A4 => do
    let r ← maskU 65535 0xF p.r
    let g ← maskU 65535 0xF p.g
    let b ← maskU 65535 0xF p.b
    let a ← maskU 65535 0xF p.a
    pure (leBytes 2 (a ||| (b <<< 4) ||| (g <<< 8) ||| (r <<< 12)))
  | .B4G4R4A4 => do
    let r ← maskU 65535 0xF p.r
    let g ← maskU 65535 0xF p.g
    let b ← maskU 65535 0xF p.b
    let a ← maskU 65535 0xF p.a
    pure (leBytes 2 (a ||| (r <<< 4) ||| (g <<< 8) ||| (b <<< 12)))
  | .A4R4G4B4 => do
    let r ← maskU 65535 0xF p.r
    let g ← maskU 65535 0xF p.g
    let b ← maskU 65535 0xF p.b
    let a ← maskU 65535 0xF p.a
    pure (leBytes 2 (b ||| (g <<< 4) ||| (r <<< 8) ||| (a <<< 12)))
  | .R5G6B5 => do
    let r ← maskU 65535 0x1F p.r
    let g ← maskU 65535 0x3F p.g
    let b ← maskU 65535 0x1F p.b
    pure (leBytes 2 (b ||| (g <<< 5) ||| (r <<< 11)))
  | .B5G6R5 => do
    let r ← maskU 65535 0x1F p.r
    let g ← maskU 65535 0x3F p.g
    let b ← maskU 65535 0x1F p.b
    pure (leBytes 2 (r ||| (g <<< 5) ||| (b <<< 11)))
  | .R5G5B5A1 => do
    let r ← maskU 65535 0x1F p.r
    let g ← maskU 65535 0x1F p.g
    let b ← maskU 65535 0x1F p.b
    let a ← toA1 p.a
    pure (leBytes 2 (a ||| (b <<< 1) ||| (g <<< 6) ||| (r <<< 11)))
  | .B5G5R5A1 => do
    let r ← maskU 65535 0x1F p.r
    let g ← maskU 65535 0x1F p.g
    let b ← maskU 65535 0x1F p.b
    let a ← toA1 p.a
    pure (leBytes 2 (a ||| (r <<< 1) ||| (g <<< 6) ||| (b <<< 11)))
  | .A1R5G5B5 => do
    let r ← maskU 65535 0x1F p.r
    let g ← maskU 65535 0x1F p.g
    let b ← maskU 65535 0x1F p.b
    let a ← toA1 p.a
    pure (leBytes 2 (b ||| (g <<< 5) ||| (r <<< 10) ||| (a <<< 15)))
  | .B8G8R8 => do
    let b ← toUNorm 255 0xFF p.b
    let g ← toUNorm 255 0xFF p.g
    let r ← toUNorm 255 0xFF p.r
    pure (leBytes 1 b ++ leBytes 1 g ++ leBytes 1 r)
  | .B8G8R8A8 => do
    let b ← toUNorm 255 0xFF p.b
    let g ← toUNorm 255 0xFF p.g
    let r ← toUNorm 255 0xFF p.r
    let a ← toUNorm 255 0xFF p.a
    pure (leBytes 1 b ++ leBytes 1 g ++ leBytes 1 r ++ leBytes 1 a)
  | .A8B8G8R8 => do
    let a ← toUNorm 255 0xFF p.a
    let b ← toUNorm 255 0xFF p.b
    let g ← toUNorm 255 0xFF p.g
    let r ← toUNorm 255 0xFF p.r
    pure (leBytes 1 a ++ leBytes 1 b ++ leBytes 1 g ++ leBytes 1 r)
  | .A2R10G10B10UNorm => do
    let r ← maskU (2 ^ 32 - 1) 0x3FF p.r
    let g ← maskU (2 ^ 32 - 1) 0x3FF p.g
    let b ← maskU (2 ^ 32 - 1) 0x3FF p.b
    let a ← maskU (2 ^ 32 - 1) 0x3 p.a
    pure (leBytes 4 (b ||| (g <<< 10) ||| (r <<< 20) ||| (a <<< 30)))
  | .A2R10G10B10UInt => do
    let r ← toField 0x3FF p.r
    let g ← toField 0x3FF p.g
    let b ← toField 0x3FF p.b
    let a ← toField 0x3 p.a
    pure (leBytes 4 (b ||| (g <<< 10) ||| (r <<< 20) ||| (a <<< 30)))
  | .A2B10G10R10UNorm => do
    let r ← maskU (2 ^ 32 - 1) 0x3FF p.r
    let g ← maskU (2 ^ 32 - 1) 0x3FF p.g
    let b ← maskU (2 ^ 32 - 1) 0x3FF p.b
    let a ← maskU (2 ^ 32 - 1) 0x3 p.a
    pure (leBytes 4 (r ||| (g <<< 10) ||| (b <<< 20) ||| (a <<< 30)))
  | .A2B10G10R10UInt => do
    let r ← toField 0x3FF p.r
    let g ← toField 0x3FF p.g
    let b ← toField 0x3FF p.b
    let a ← toField 0x3 p.a
    pure (leBytes 4 (r ||| (g <<< 10) ||| (b <<< 20) ||| (a <<< 30)))
  | .B10G11R11UFloat => .ok (leBytes 4 (X.packF11 p.r p.g p.b))
  | .E5B9G9R9UFloat => .ok (leBytes 4 (X.packE5 p.r p.g p.b))

/-- Number of channels of a template converter. -/
def Conv.channels : Conv → Nat
  | .unorm _ c | .snorm _ c | .int _ _ c | .half c | .float c => c
  | _ => 0

/-- The bytes of one texel of an uncompressed format: the inner channel loop
(lib/src/StandardConverter.h:99-104) or the packed body. -/
def texelBytes (X : Ext) (k : Conv) (p : Pixel) : Res (List UInt8) :=
  match k with
  | .packed q => packedBytes X q p
  | k => do
    let bs ← mapRes (chanBytes X k) (p.chans.take k.channels)
    pure bs.flatten

/-- `sizeof(T)` and the number of elements `C` per texel: the template arguments of
`StandardConverter`, lib/src/Converter.cpp:93-336 and lib/src/StandardConverter.h:317-514. -/
def Conv.elem : Conv → Nat × Nat
  | .unorm s c | .snorm s c | .int _ s c => (s, c)
  | .half c => (2, c)
  | .float c => (4, c)
  | .packed .B8G8R8 => (1, 3)
  | .packed .B8G8R8A8 | .packed .A8B8G8R8 => (1, 4)
  | .packed p => (p.texelSize, 1)
  | _ => (0, 0)

/-! ### Jobs -/

/-- One byte stored at an offset of the converter's `data()`. -/
abbrev Write := Nat × UInt8

/-- Consecutive bytes stored from an offset. -/
def writesAt (off : Nat) : List UInt8 → List Write
  | [] => []
  | b :: bs => (off, b) :: writesAt (off + 1) bs

/-- `StandardConverter::batchSize`, lib/src/StandardConverter.h:48. -/
def batchSize : Nat := 32

/-- The loop of a standard converter's `process`, `for (i = ...; i < batchSize; ++i)`, with `n`
iterations left: lib/src/StandardConverter.h:84-106 (the other converters have the same loop).
`base` is the byte offset of `curData`. -/
def stdLoop (X : Ext) (k : Conv) (img : FImg) (x base : Nat) : (n i row : Nat) → Res (List Write)
  | 0, _, _ => .ok []
  | n + 1, i, row =>
    let curRow := u32 (u32 (x * batchSize) + i) / img.width
    if curRow ≠ row ∧ img.height ≤ curRow then .ok []
    else do
      let col := u32 (u32 (x * batchSize) + i) % img.width
      let p ← img.read col curRow
      let bs ← texelBytes X k p
      let rest ← stdLoop X k img x base n (i + 1) curRow
      pure (writesAt (base + i * k.elem.2 * k.elem.1) bs ++ rest)

/-- `process(x, 0)` of a standard converter: lib/src/StandardConverter.h:78-107.  The pointer
offset `x*batchSize*C` is computed in 32 bits and counts elements of type `T`. -/
def stdProcess (X : Ext) (k : Conv) (img : FImg) (x : Nat) : Res (List Write) :=
  stdLoop X k img x (u32 (u32 (x * batchSize) * k.elem.2) * k.elem.1) batchSize 0
    (u32 (x * batchSize) / img.width)

/-- The bytes of `toColorBlock`, lib/src/S3tcConverter.cpp:97-111. -/
def toColorBlock (ps : List Pixel) : Res (List UInt8) := do
  let bs ← mapRes (fun v => do
    let n ← toUNorm 255 255 v
    pure (UInt8.ofNat n)) (ps.flatMap Pixel.chans)
  pure bs

/-- One channel of all pixels as unsigned bytes, lib/src/S3tcConverter.cpp:398-402 and 463-469. -/
def unormBytes (vs : List Nat) : Res (List UInt8) :=
  mapRes (fun v => do
    let n ← toUNorm 255 255 v
    pure (UInt8.ofNat n)) vs

/-- One channel of all pixels as signed bytes, lib/src/S3tcConverter.cpp:384-388 and 446-452. -/
def snormBytes (vs : List Nat) : Res (List UInt8) :=
  mapRes (fun v => do
    let n ← toSNorm 8 v
    pure (UInt8.ofNat n)) vs

/-- `15.0f/255.0f`. -/
def alphaScale : F32 := F32.round (15 / 255)

/-- `static_cast<uint8_t>(std::round(alpha*alphaScale))`, lib/src/S3tcConverter.cpp:139-140. -/
def bc2Nibble (alpha : UInt8) : Res Nat := do
  let i ← (((F32.fin alpha.toNat).mul alphaScale).roundAway).cast 0 255
  pure i.toNat

/-- `packBc2Alpha`, lib/src/S3tcConverter.cpp:131-143, on the sixteen alpha bytes. -/
def packBc2Alpha : List UInt8 → Res (List UInt8)
  | a0 :: a1 :: as => do
    let c0 ← bc2Nibble a0
    let c1 ← bc2Nibble a1
    let rest ← packBc2Alpha as
    pure (UInt8.ofNat (c0 ||| (c1 <<< 4)) :: rest)
  | _ => .ok []

/-- `colorBlock[i][3]` for all pixels. -/
def alphaBytes : List UInt8 → List UInt8
  | _ :: _ :: _ :: a :: rest => a :: alphaBytes rest
  | _ => []

/-- `compressBlock` of the S3TC converters, lib/src/S3tcConverter.cpp:263-646. -/
def compressS3tc (X : Ext) (k : S3tcConv) (a : ConvArgs) (ps : List Pixel) : Res (List UInt8) :=
  match k with
  | .Bc1 => do
    let px ← toColorBlock ps
    pure (X.codec (.rgbcxBc1 (rgbcxLevel X.consts a.quality) px true true))
  | .Bc1A => do
    let hasAlpha := ps.any (fun p => (F32.ofBits p.a).lt (.fin (1 / 2)))
    let px ← toColorBlock ps
    if hasAlpha then
      pure (X.codec (.squishBc1 (squishFit a.quality) px (squishWeights a.colorSpace a.colorMask)))
    else pure (X.codec (.rgbcxBc1 (rgbcxLevel X.consts a.quality) px true false))
  | .Bc2 => do
    let px ← toColorBlock ps
    let alpha ← packBc2Alpha (alphaBytes px)
    pure (alpha ++ X.codec (.rgbcxBc1 (rgbcxLevel X.consts a.quality) px false false))
  | .Bc3 => do
    let px ← toColorBlock ps
    if lowQuality a.quality then pure (X.codec (.rgbcxBc3 (rgbcxLevel X.consts a.quality) px))
    else pure (X.codec (.rgbcxBc3hq (rgbcxLevel X.consts a.quality) px (searchRadius a.quality)))
  | .Bc4 true => do
    let px ← snormBytes (ps.map Pixel.r)
    pure (X.codec (.cmpBc4s (compressonatorLevel a.quality) px))
  | .Bc4 false => do
    let px ← unormBytes (ps.map Pixel.r)
    if lowQuality a.quality then pure (X.codec (.rgbcxBc4 px))
    else pure (X.codec (.rgbcxBc4hq px (searchRadius a.quality)))
  | .Bc5 true => do
    let red ← snormBytes (ps.map Pixel.r)
    let green ← snormBytes (ps.map Pixel.g)
    pure (X.codec (.cmpBc5s (compressonatorLevel a.quality) red green))
  | .Bc5 false => do
    let px ← unormBytes (ps.flatMap (fun p => [p.r, p.g]))
    if lowQuality a.quality then pure (X.codec (.rgbcxBc5 px))
    else pure (X.codec (.rgbcxBc5hq px (searchRadius a.quality)))
  | .Bc6H signed =>
    if X.ispc ∧ signed = false then
      .ok (X.codec (.ispcBc6 (bc6Profile a.quality) ((ps.flatMap Pixel.chans).map X.half)))
    else
      .ok (X.codec (.cmpBc6 (compressonatorLevel a.quality) signed ((ps.flatMap (fun p => [p.r, p.g, p.b])).map X.half)))
  | .Bc7 => do
    let px ← toColorBlock ps
    if X.ispc then pure (X.codec (.bc7e (bc7eProfile a.quality) (a.colorSpace = .sRGB) px))
    else pure (X.codec (.bc7enc (bc7Params X.consts a.quality a.colorSpace a.colorMask) px))

/-- `min(c, extent - 1)` in 32-bit arithmetic. -/
def clampCoord (c extent : Nat) : Nat := min (u32 c) (u32 (extent + pow32 - 1))

/-- Gathering the texels of block `(x, y)` with coordinates clamped to the image:
lib/src/S3tcConverter.cpp:244-252 and lib/src/AstcConverter.cpp:210-222. -/
def gatherClamped (img : FImg) (bw bh x y : Nat) : Res (List Pixel) := do
  let rows ← mapRes (fun j =>
    mapRes (fun i => img.read (clampCoord (u32 (x * bw) + i) img.width)
      (clampCoord (u32 (y * bh) + j) img.height)) (List.range bw)) (List.range bh)
  pure rows.flatten

/-- Gathering the texels of block `(x, y)` cropped to the image, lib/src/EtcConverter.cpp:116-125. -/
def gatherCropped (img : FImg) (limitX limitY x y : Nat) : Res (List Pixel) := do
  let rows ← mapRes (fun j =>
    mapRes (fun i => img.read (u32 (x * 4) + i) (u32 (y * 4) + j))
      (List.range (limitX - u32 (x * 4)))) (List.range (limitY - u32 (y * 4)))
  pure rows.flatten

/-- A word denoting the number: the inverse of `F32.ofBits` on representable numbers, positive zero
and one quiet NaN. -/
def F32.toBits : F32 → Nat
  | .nan => 0x7FC00000
  | .inf neg => (if neg then 2 ^ 31 else 0) + 0x7F800000
  | .fin q =>
    let s := if q < 0 then 2 ^ 31 else 0
    if |q| < pow2 (-126) then s + (|q| * 2 ^ 149).num.toNat
    else
      let e := binade |q|
      let m := (|q| / pow2 (e - 23)).num.toNat
      s + (e + 127).toNat * 2 ^ 23 + (m - 2 ^ 23)

/-- `v*0.5f + 0.5f`, lib/src/EtcConverter.cpp:134-135 (two roundings). -/
def halfPlusHalf (v : Nat) : Nat :=
  (((F32.ofBits v).mul (.fin (1 / 2))).add (.fin (1 / 2))).toBits

/-- `EtcConverter::process`, lib/src/EtcConverter.cpp:114-148.  Simplification: for signed formats
the code also transforms the unused entries of the pixel array, which hold indeterminate values;
they are not passed on and are left out here. -/
def etcProcess (X : Ext) (a : ConvArgs) (img : FImg) (x y : Nat) : Res (List UInt8) := do
  let limitX := min (u32 (u32 (x + 1) * 4)) img.width
  let limitY := min (u32 (u32 (y + 1) * 4)) img.height
  let ps ← gatherCropped img limitX limitY x y
  let ps := if etcFormat a.format a.type = .SIGNED_R11 ∨ etcFormat a.format a.type = .SIGNED_RG11 then
      ps.map (fun p => { p with r := halfPlusHalf p.r, g := halfPlusHalf p.g })
    else ps
  pure (X.codec (.etc (etcFormat a.format a.type) (etcMetric a.format a.colorSpace)
    (etcEffort X.consts a.quality)
    (limitX - u32 (x * 4)) (limitY - u32 (y * 4)) ps))

/-- `AstcConverter::process`, lib/src/AstcConverter.cpp:208-230. -/
def astcProcess (X : Ext) (bx by_ : Nat) (a : ConvArgs) (img : FImg) (x y : Nat) :
    Res (List UInt8) := do
  let ps ← gatherClamped img bx by_ x y
  pure (X.codec (.astc (astcConfig bx by_ a) (astcSwizzle a.alphaType a.colorMask) ps))

/-- The pixels `PvrtcConverter::process` passes to the library,
lib/src/PvrtcConverter.cpp:57-76.  The index `(y*width + x)*4` is computed in 32 bits: in larger
images it wraps, and a part of the library's pixels stays unset, which is `ub` here. -/
def pvrtcPixels (img : FImg) : Res (List UInt8) :=
  if pow32 < img.width * img.height * 4 then .ub
  else do
    let rows ← mapRes (fun y => do
      let ps ← mapRes (fun x => img.read x y) (List.range img.width)
      toColorBlock ps) (List.range img.height)
    pure rows.flatten

/-- Block width and height of the job grid of a converter: `blockDim` or the ASTC arguments. -/
def Conv.blockDims : Conv → Nat × Nat
  | .astc bx by_ => (bx, by_)
  | _ => (4, 4)

/-- Bytes per block as the converters define them: `m_blockSize`, and `AstcConverter::blockSize`
(lib/src/AstcConverter.h:28). -/
def Conv.blockBytes (f : Format) : Conv → Nat
  | .s3tc k => k.blockSize
  | .etc => etcBlockSize f
  | .astc _ _ => 16
  | _ => 0

/-- `(extent + blockDim - 1)/blockDim` in 32 bits, lib/src/S3tcConverter.cpp:233-234,
lib/src/EtcConverter.cpp:31-32, lib/src/AstcConverter.cpp:137. -/
def blockJobs (extent b : Nat) : Nat := u32 (extent + b - 1) / b

/-- Is this one of the `StandardConverter`s? -/
def Conv.isStandard : Conv → Bool
  | .s3tc _ | .etc | .astc _ _ | .pvrtc => false
  | _ => true

/-- `jobsX()`: lib/src/StandardConverter.h:56-60 and the members of the block converters. -/
def Conv.jobsX (k : Conv) (img : FImg) : Nat :=
  match k with
  | .pvrtc => 1
  | k => if k.isStandard then u32 (u32 (img.width * img.height) + (batchSize - 1)) / batchSize
         else blockJobs img.width k.blockDims.1

/-- `jobsY()`. -/
def Conv.jobsY (k : Conv) (img : FImg) : Nat :=
  match k with
  | .pvrtc => 1
  | k => if k.isStandard then 1 else blockJobs img.height k.blockDims.2

/-- Size of `data()` after construction: lib/src/StandardConverter.h:53 (`sizeof` makes the last
products 64-bit), lib/src/S3tcConverter.cpp:239, lib/src/EtcConverter.cpp:111,
lib/src/AstcConverter.cpp:200. -/
def Conv.initSize (k : Conv) (a : ConvArgs) (img : FImg) : Nat :=
  match k with
  | .pvrtc => 0
  | k => if k.isStandard then u32 (img.width * img.height) * k.elem.1 * k.elem.2
         else u32 (u32 (k.jobsX img * k.jobsY img) * k.blockBytes a.format)

/-- The byte offset of block `(x, y)`: `(y*m_jobsX + x)*m_blockSize`. -/
def blockOffset (jobsX x y size : Nat) : Nat := u32 (u32 (y * jobsX + x) * size)

/-- The stores of `process(x, y)` of any converter except PVRTC (which replaces `data()`). -/
def Conv.process (X : Ext) (k : Conv) (a : ConvArgs) (img : FImg) (x y : Nat) : Res (List Write) :=
  match k with
  | .s3tc s => do
    let ps ← gatherClamped img 4 4 x y
    let bs ← compressS3tc X s a ps
    pure (writesAt (blockOffset (k.jobsX img) x y (k.blockBytes a.format)) bs)
  | .etc => do
    let bs ← etcProcess X a img x y
    pure (writesAt (blockOffset (k.jobsX img) x y (k.blockBytes a.format)) bs)
  | .astc bx by_ => do
    let bs ← astcProcess X bx by_ a img x y
    pure (writesAt (blockOffset (k.jobsX img) x y (k.blockBytes a.format)) bs)
  | .pvrtc => .ok []
  | k => stdProcess X k img x

/-- Storing bytes; a store outside the buffer is undefined. -/
def applyWrites (data : List UInt8) : List Write → Res (List UInt8)
  | [] => .ok data
  | (o, b) :: ws => if o < data.length then applyWrites (data.set o b) ws else .ub

/-- The job list, lib/src/Converter.cpp:540-546: `jobs[y*jobsX + x] = (x, y)`. -/
def jobList (jobsX jobsY : Nat) : List (Nat × Nat) :=
  (List.range jobsY).flatMap (fun y => (List.range jobsX).map (fun x => (x, y)))

/-- Filling `jobs`: it is resized to the 32-bit product, and the loop stores all pairs; if the
product wrapped, the stores are out of bounds (lib/src/Converter.cpp:540-546). -/
def makeJobs (jobsX jobsY : Nat) : Res (List (Nat × Nat)) :=
  if jobsX * jobsY < pow32 then .ok (jobList jobsX jobsY) else .ub

/-- Running the jobs one after the other, lib/src/Converter.cpp:549-554. -/
def runJobs (proc : Nat → Nat → Res (List Write)) : List (Nat × Nat) → List UInt8 → Res (List UInt8)
  | [], data => .ok data
  | (x, y) :: js, data => do
    let ws ← proc x y
    let data' ← applyWrites data ws
    runJobs proc js data'

/-- Constructing a converter for one image, running all its jobs on one thread and taking
`data()`: lib/src/Converter.cpp:528-554, 584-585.  The multi-threaded run is in
`Model/Threads.lean`. -/
def encodeImage (X : Ext) (k : Conv) (a : ConvArgs) (img : FImg) : Res (List UInt8) :=
  match k with
  | .pvrtc => do
    let px ← pvrtcPixels img
    match pvrtcPixelType a.format with
    | none => pure []
    | some f => pure (X.codec (.pvrtc f (pvrtcQuality a.quality) a.threads
        (a.alphaType = .PreMultiplied) img.width img.height px))
  | k => do
    let jobs ← makeJobs (k.jobsX img) (k.jobsY img)
    runJobs (k.process X a img) jobs (List.replicate (k.initSize a img) 0)

end Cuttlefish
