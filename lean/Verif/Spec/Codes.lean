import Verif.Spec.Quant
/-
What the format codes of the file formats mean: where the bits of each channel are, how they are
interpreted, and which compressed format a code names.  Written from the OpenGL registry and the
DXGI and PVR documentation, not from the code.
-/
namespace Cuttlefish.Spec

/-- Channel, lowest bit and number of bits, in the texel read as a little-endian number. -/
abbrev Position := Chan × Nat × Nat

/-- Channels from the lowest bit upwards. -/
def lowFirst : List (Chan × Nat) → Nat → List Position
  | [], _ => []
  | (c, n) :: cs, lo => (c, lo, n) :: lowFirst cs (lo + n)

/-- Channels from the highest bit downwards. -/
def highFirst (cs : List (Chan × Nat)) : List Position := lowFirst cs.reverse 0

/-- The fields at the given positions of a texel. -/
def extract (ps : List Position) (bs : List UInt8) : List (Chan × Nat) :=
  ps.map (fun p => (p.1, leVal bs / 2 ^ p.2.1 % 2 ^ p.2.2))

/-! ### OpenGL -/

/-- The components of an OpenGL pixel format. -/
def glChannels (format : Nat) : Option (List Chan) :=
  if format ∈ [0x1903, 0x8D94] then some [.R]                     -- RED, RED_INTEGER
  else if format ∈ [0x8227, 0x8228] then some [.R, .G]            -- RG, RG_INTEGER
  else if format ∈ [0x1907, 0x8D98] then some [.R, .G, .B]        -- RGB, RGB_INTEGER
  else if format ∈ [0x80E0, 0x8D9A] then some [.B, .G, .R]        -- BGR, BGR_INTEGER
  else if format ∈ [0x1908, 0x8D99] then some [.R, .G, .B, .A]    -- RGBA, RGBA_INTEGER
  else if format ∈ [0x80E1, 0x8D9B] then some [.B, .G, .R, .A]    -- BGRA, BGRA_INTEGER
  else none

/-- The bits of each component for a packed type, first component first, and whether the first
component is in the highest bits (it is in the lowest for the `_REV` types). -/
def glPacked (type : Nat) : Option (List Nat × Bool) :=
  if type = 0x8033 then some ([4, 4, 4, 4], true)         -- UNSIGNED_SHORT_4_4_4_4
  else if type = 0x8034 then some ([5, 5, 5, 1], true)    -- UNSIGNED_SHORT_5_5_5_1
  else if type = 0x8035 then some ([8, 8, 8, 8], true)    -- UNSIGNED_INT_8_8_8_8
  else if type = 0x8036 then some ([10, 10, 10, 2], true) -- UNSIGNED_INT_10_10_10_2
  else if type = 0x8363 then some ([5, 6, 5], true)       -- UNSIGNED_SHORT_5_6_5
  else if type = 0x8364 then some ([5, 6, 5], false)      -- UNSIGNED_SHORT_5_6_5_REV
  else if type = 0x8365 then some ([4, 4, 4, 4], false)   -- UNSIGNED_SHORT_4_4_4_4_REV
  else if type = 0x8366 then some ([5, 5, 5, 1], false)   -- UNSIGNED_SHORT_1_5_5_5_REV
  else if type = 0x8367 then some ([8, 8, 8, 8], false)   -- UNSIGNED_INT_8_8_8_8_REV
  else if type = 0x8368 then some ([10, 10, 10, 2], false) -- UNSIGNED_INT_2_10_10_10_REV
  else if type = 0x8C3B then some ([11, 11, 10], false)   -- UNSIGNED_INT_10F_11F_11F_REV
  else if type = 0x8C3E then some ([9, 9, 9], false)      -- UNSIGNED_INT_5_9_9_9_REV, without the exponent
  else none

/-- The bits of the elements of an array type. -/
def glElement (type : Nat) : Option Nat :=
  if type ∈ [0x1400, 0x1401] then some 8                  -- BYTE, UNSIGNED_BYTE
  else if type ∈ [0x1402, 0x1403, 0x140B] then some 16    -- SHORT, UNSIGNED_SHORT, HALF_FLOAT
  else if type ∈ [0x1404, 0x1405, 0x1406] then some 32    -- INT, UNSIGNED_INT, FLOAT
  else none

/-- The types whose values an OpenGL data type can hold: signed or unsigned integers or floats. -/
def glTypes (type : Nat) : List TType :=
  if type ∈ [0x1400, 0x1402, 0x1404] then [.SNorm, .Int]            -- BYTE, SHORT, INT
  else if type ∈ [0x140B, 0x1406] then [.Float]                     -- HALF_FLOAT, FLOAT
  else if type ∈ [0x8C3B, 0x8C3E] then [.UFloat]
  else [.UNorm, .UInt]

/-- Where OpenGL finds the channels of a texel. -/
def glPositions (type format : Nat) : Option (List Position) :=
  match glChannels format with
  | none => none
  | some cs =>
    match glPacked type with
    | some (ns, high) =>
      if cs.length = ns.length then
        some (if high then highFirst (cs.zip ns) else lowFirst (cs.zip ns) 0)
      else none
    | none => (glElement type).map (fun n => lowFirst (cs.map (fun c => (c, n))) 0)

/-- How the values of an uncompressed internal format are interpreted, and whether they are sRGB. -/
def glInternal (n : Nat) : Option (TType × ColorSpace) :=
  -- R8, RG8, RGB8, RGBA8, R16, RG16, RGB16, RGBA16, RGB565, RGBA4, RGB5_A1, RGB10_A2
  if n ∈ [0x8229, 0x822B, 0x8051, 0x8058, 0x822A, 0x822C, 0x8054, 0x805B, 0x8D62, 0x8056, 0x8057,
    0x8059] then some (.UNorm, .Linear)
  -- SRGB8, SRGB8_ALPHA8
  else if n ∈ [0x8C41, 0x8C43] then some (.UNorm, .sRGB)
  -- R, RG, RGB, RGBA 8_SNORM and 16_SNORM
  else if n ∈ [0x8F94, 0x8F95, 0x8F96, 0x8F97, 0x8F98, 0x8F99, 0x8F9A, 0x8F9B] then
    some (.SNorm, .Linear)
  -- R, RG, RGB, RGBA 8UI, 16UI, 32UI, RGB10_A2UI
  else if n ∈ [0x8232, 0x8238, 0x8D7D, 0x8D7C, 0x8234, 0x823A, 0x8D77, 0x8D76, 0x8236, 0x823C, 0x8D71,
    0x8D70, 0x906F] then some (.UInt, .Linear)
  -- R, RG, RGB, RGBA 8I, 16I, 32I
  else if n ∈ [0x8231, 0x8237, 0x8D8F, 0x8D8E, 0x8233, 0x8239, 0x8D89, 0x8D88, 0x8235, 0x823B, 0x8D83,
    0x8D82] then some (.Int, .Linear)
  -- R, RG, RGB, RGBA 16F, 32F
  else if n ∈ [0x822D, 0x822F, 0x881B, 0x881A, 0x822E, 0x8230, 0x8815, 0x8814] then
    some (.Float, .Linear)
  -- R11F_G11F_B10F, RGB9_E5
  else if n ∈ [0x8C3A, 0x8C3D] then some (.UFloat, .Linear)
  else none

/-- Which compressed format an internal format names (ASTC and PVRTC codes do not say more about the
type: it is a property of the blocks). -/
def glCompressed (n : Nat) : Option (Format × List TType × ColorSpace) :=
  let astc : List Format := [.ASTC_4x4, .ASTC_5x4, .ASTC_5x5, .ASTC_6x5, .ASTC_6x6, .ASTC_8x5, .ASTC_8x6,
    .ASTC_8x8, .ASTC_10x5, .ASTC_10x6, .ASTC_10x8, .ASTC_10x10, .ASTC_12x10, .ASTC_12x12]
  if n = 0x83F0 then some (.BC1_RGB, [.UNorm], .Linear)
  else if n = 0x83F1 then some (.BC1_RGBA, [.UNorm], .Linear)
  else if n = 0x83F2 then some (.BC2, [.UNorm], .Linear)
  else if n = 0x83F3 then some (.BC3, [.UNorm], .Linear)
  else if n = 0x8C4C then some (.BC1_RGB, [.UNorm], .sRGB)
  else if n = 0x8C4D then some (.BC1_RGBA, [.UNorm], .sRGB)
  else if n = 0x8C4E then some (.BC2, [.UNorm], .sRGB)
  else if n = 0x8C4F then some (.BC3, [.UNorm], .sRGB)
  else if n = 0x8DBB then some (.BC4, [.UNorm], .Linear)
  else if n = 0x8DBC then some (.BC4, [.SNorm], .Linear)
  else if n = 0x8DBD then some (.BC5, [.UNorm], .Linear)
  else if n = 0x8DBE then some (.BC5, [.SNorm], .Linear)
  else if n = 0x8E8C then some (.BC7, [.UNorm], .Linear)
  else if n = 0x8E8D then some (.BC7, [.UNorm], .sRGB)
  else if n = 0x8E8E then some (.BC6H, [.Float], .Linear)
  else if n = 0x8E8F then some (.BC6H, [.UFloat], .Linear)
  else if n = 0x8D64 then some (.ETC1, [.UNorm], .Linear)
  else if n = 0x9270 then some (.EAC_R11, [.UNorm], .Linear)
  else if n = 0x9271 then some (.EAC_R11, [.SNorm], .Linear)
  else if n = 0x9272 then some (.EAC_R11G11, [.UNorm], .Linear)
  else if n = 0x9273 then some (.EAC_R11G11, [.SNorm], .Linear)
  else if n = 0x9274 then some (.ETC2_R8G8B8, [.UNorm], .Linear)
  else if n = 0x9275 then some (.ETC2_R8G8B8, [.UNorm], .sRGB)
  else if n = 0x9276 then some (.ETC2_R8G8B8A1, [.UNorm], .Linear)
  else if n = 0x9277 then some (.ETC2_R8G8B8A1, [.UNorm], .sRGB)
  else if n = 0x9278 then some (.ETC2_R8G8B8A8, [.UNorm], .Linear)
  else if n = 0x9279 then some (.ETC2_R8G8B8A8, [.UNorm], .sRGB)
  else if 0x93B0 ≤ n ∧ n ≤ 0x93BD then (astc[n - 0x93B0]?).map (fun f => (f, [.UNorm, .UFloat], .Linear))
  else if 0x93D0 ≤ n ∧ n ≤ 0x93DD then (astc[n - 0x93D0]?).map (fun f => (f, [.UNorm, .UFloat], .sRGB))
  -- IMG_texture_compression_pvrtc, _pvrtc2, EXT_pvrtc_sRGB
  else if n = 0x8C00 then some (.PVRTC1_RGB_4BPP, [.UNorm], .Linear)
  else if n = 0x8C01 then some (.PVRTC1_RGB_2BPP, [.UNorm], .Linear)
  else if n = 0x8C02 then some (.PVRTC1_RGBA_4BPP, [.UNorm], .Linear)
  else if n = 0x8C03 then some (.PVRTC1_RGBA_2BPP, [.UNorm], .Linear)
  else if n = 0x9137 then some (.PVRTC2_RGBA_2BPP, [.UNorm], .Linear)
  else if n = 0x9138 then some (.PVRTC2_RGBA_4BPP, [.UNorm], .Linear)
  else if n = 0x8A54 then some (.PVRTC1_RGB_2BPP, [.UNorm], .sRGB)
  else if n = 0x8A55 then some (.PVRTC1_RGB_4BPP, [.UNorm], .sRGB)
  else if n = 0x8A56 then some (.PVRTC1_RGBA_2BPP, [.UNorm], .sRGB)
  else if n = 0x8A57 then some (.PVRTC1_RGBA_4BPP, [.UNorm], .sRGB)
  else if n = 0x93F0 then some (.PVRTC2_RGBA_2BPP, [.UNorm], .sRGB)
  else if n = 0x93F1 then some (.PVRTC2_RGBA_4BPP, [.UNorm], .sRGB)
  else none

/-! ### DXGI -/

/-- `n` channels of `b` bits. -/
def channels (cs : List Chan) (b : Nat) : List (Chan × Nat) := cs.map (fun c => (c, b))

/-- The channels of an uncompressed DXGI format, lowest bits first, and how they are interpreted. -/
def dxgiTexel (n : Nat) : Option (List (Chan × Nat) × TType × ColorSpace) :=
  let rgba : List Chan := [.R, .G, .B, .A]
  let rgb : List Chan := [.R, .G, .B]
  let rg : List Chan := [.R, .G]
  let r : List Chan := [.R]
  let pick (cs : List Chan) (b first : Nat) (ts : List TType) : Option (List (Chan × Nat) × TType × ColorSpace) :=
    (ts[n - first]?).map (fun t => (channels cs b, t, .Linear))
  if 2 ≤ n ∧ n ≤ 4 then pick rgba 32 2 [.Float, .UInt, .Int]
  else if 6 ≤ n ∧ n ≤ 8 then pick rgb 32 6 [.Float, .UInt, .Int]
  else if 10 ≤ n ∧ n ≤ 14 then pick rgba 16 10 [.Float, .UNorm, .UInt, .SNorm, .Int]
  else if 16 ≤ n ∧ n ≤ 18 then pick rg 32 16 [.Float, .UInt, .Int]
  else if n = 24 then some ([(.R, 10), (.G, 10), (.B, 10), (.A, 2)], .UNorm, .Linear)
  else if n = 25 then some ([(.R, 10), (.G, 10), (.B, 10), (.A, 2)], .UInt, .Linear)
  else if n = 26 then some ([(.R, 11), (.G, 11), (.B, 10)], .UFloat, .Linear)
  else if n = 28 then some (channels rgba 8, .UNorm, .Linear)
  else if n = 29 then some (channels rgba 8, .UNorm, .sRGB)
  else if 30 ≤ n ∧ n ≤ 32 then pick rgba 8 30 [.UInt, .SNorm, .Int]
  else if 34 ≤ n ∧ n ≤ 38 then pick rg 16 34 [.Float, .UNorm, .UInt, .SNorm, .Int]
  else if 41 ≤ n ∧ n ≤ 43 then pick r 32 41 [.Float, .UInt, .Int]
  else if 49 ≤ n ∧ n ≤ 52 then pick rg 8 49 [.UNorm, .UInt, .SNorm, .Int]
  else if n = 54 then some (channels r 16, .Float, .Linear)
  else if 56 ≤ n ∧ n ≤ 59 then pick r 16 56 [.UNorm, .UInt, .SNorm, .Int]
  else if 61 ≤ n ∧ n ≤ 64 then pick r 8 61 [.UNorm, .UInt, .SNorm, .Int]
  else if n = 67 then some (channels rgb 9, .UFloat, .Linear)     -- R9G9B9E5, without the exponent
  else if n = 85 then some ([(.B, 5), (.G, 6), (.R, 5)], .UNorm, .Linear)
  else if n = 86 then some ([(.B, 5), (.G, 5), (.R, 5), (.A, 1)], .UNorm, .Linear)
  else if n = 87 then some (channels [.B, .G, .R, .A] 8, .UNorm, .Linear)
  else if n = 91 then some (channels [.B, .G, .R, .A] 8, .UNorm, .sRGB)
  else if n = 115 then some (channels [.B, .G, .R, .A] 4, .UNorm, .Linear)
  else none

/-- Which compressed formats a DXGI format names; BC1 does not tell whether the alpha is used. -/
def dxgiCompressed (n : Nat) : Option (List Format × TType × ColorSpace) :=
  if n = 71 then some ([.BC1_RGB, .BC1_RGBA], .UNorm, .Linear)
  else if n = 72 then some ([.BC1_RGB, .BC1_RGBA], .UNorm, .sRGB)
  else if n = 74 then some ([.BC2], .UNorm, .Linear)
  else if n = 75 then some ([.BC2], .UNorm, .sRGB)
  else if n = 77 then some ([.BC3], .UNorm, .Linear)
  else if n = 78 then some ([.BC3], .UNorm, .sRGB)
  else if n = 80 then some ([.BC4], .UNorm, .Linear)
  else if n = 81 then some ([.BC4], .SNorm, .Linear)
  else if n = 83 then some ([.BC5], .UNorm, .Linear)
  else if n = 84 then some ([.BC5], .SNorm, .Linear)
  else if n = 95 then some ([.BC6H], .UFloat, .Linear)
  else if n = 96 then some ([.BC6H], .Float, .Linear)
  else if n = 98 then some ([.BC7], .UNorm, .Linear)
  else if n = 99 then some ([.BC7], .UNorm, .sRGB)
  else none

/-! ### PVR -/

/-- The channel of a letter in the lower half of a pixel format. -/
def pvrLetter (n : Nat) : Option Chan :=
  if n = 0x72 then some .R else if n = 0x67 then some .G
  else if n = 0x62 then some .B else if n = 0x61 then some .A else none

/-- The channels named by the letters and bits of a pixel format, in order: byte `i` of the lower half
is the letter and byte `i` of the upper half the number of bits of channel `i`. -/
def pvrChannels (format : Nat) : List (Chan × Nat) :=
  (List.range 4).filterMap (fun i =>
    (pvrLetter (format / 2 ^ (8 * i) % 256)).map (fun c => (c, format / 2 ^ (32 + 8 * i) % 256)))

/-- How a channel type is interpreted. -/
def pvrType (n : Nat) : Option TType :=
  [TType.UNorm, .SNorm, .UInt, .Int, .UNorm, .SNorm, .UInt, .Int, .UNorm, .SNorm, .UInt, .Int, .Float,
    .UFloat][n]?

/-- Which compressed formats a pixel format number names; DXT2 and DXT4 are BC2 and BC3 with
premultiplied alpha. -/
def pvrCompressed (n : Nat) : List Format :=
  ([[.PVRTC1_RGB_2BPP], [.PVRTC1_RGBA_2BPP], [.PVRTC1_RGB_4BPP], [.PVRTC1_RGBA_4BPP],
    [.PVRTC2_RGBA_2BPP], [.PVRTC2_RGBA_4BPP], [.ETC1], [.BC1_RGB, .BC1_RGBA], [.BC2], [.BC2], [.BC3],
    [.BC3], [.BC4], [.BC5], [.BC6H], [.BC7], [], [], [], [.E5B9G9R9_UFloat], [], [], [.ETC2_R8G8B8],
    [.ETC2_R8G8B8A8], [.ETC2_R8G8B8A1], [.EAC_R11], [.EAC_R11G11], [.ASTC_4x4], [.ASTC_5x4],
    [.ASTC_5x5], [.ASTC_6x5], [.ASTC_6x6], [.ASTC_8x5], [.ASTC_8x6], [.ASTC_8x8], [.ASTC_10x5],
    [.ASTC_10x6], [.ASTC_10x8], [.ASTC_10x10], [.ASTC_12x10], [.ASTC_12x12]] : List (List Format)).getD n []

end Cuttlefish.Spec
