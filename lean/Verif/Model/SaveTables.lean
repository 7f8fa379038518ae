import Verif.Model.Geometry
/-
The format codes the savers write, transcribed case by case.
-/
namespace Cuttlefish

/-! ### KTX

OpenGL constants, lib/src/SaveKtx.cpp:23-185. -/

abbrev GL_BYTE : Nat := 0x1400
abbrev GL_UNSIGNED_BYTE : Nat := 0x1401
abbrev GL_SHORT : Nat := 0x1402
abbrev GL_UNSIGNED_SHORT : Nat := 0x1403
abbrev GL_INT : Nat := 0x1404
abbrev GL_UNSIGNED_INT : Nat := 0x1405
abbrev GL_FLOAT : Nat := 0x1406
abbrev GL_HALF_FLOAT : Nat := 0x140B
abbrev GL_RED : Nat := 0x1903
abbrev GL_LUMINANCE : Nat := 0x1909
abbrev GL_LUMINANCE_ALPHA : Nat := 0x190A
abbrev GL_RGB : Nat := 0x1907
abbrev GL_RGBA : Nat := 0x1908
abbrev GL_UNSIGNED_INT_8_8_8_8 : Nat := 0x8035
abbrev GL_BGRA : Nat := 0x80E1
abbrev GL_RGBA4 : Nat := 0x8056
abbrev GL_RGB5_A1 : Nat := 0x8057
abbrev GL_RGB16 : Nat := 0x8054
abbrev GL_RGBA16 : Nat := 0x805B
abbrev GL_RGB8 : Nat := 0x8051
abbrev GL_RGBA8 : Nat := 0x8058
abbrev GL_RGB10_A2 : Nat := 0x8059
abbrev GL_UNSIGNED_SHORT_4_4_4_4 : Nat := 0x8033
abbrev GL_UNSIGNED_SHORT_5_5_5_1 : Nat := 0x8034
abbrev GL_RG : Nat := 0x8227
abbrev GL_R8 : Nat := 0x8229
abbrev GL_R16 : Nat := 0x822A
abbrev GL_RG8 : Nat := 0x822B
abbrev GL_RG16 : Nat := 0x822C
abbrev GL_R16F : Nat := 0x822D
abbrev GL_R32F : Nat := 0x822E
abbrev GL_RG16F : Nat := 0x822F
abbrev GL_RG32F : Nat := 0x8230
abbrev GL_R8I : Nat := 0x8231
abbrev GL_R8UI : Nat := 0x8232
abbrev GL_R16I : Nat := 0x8233
abbrev GL_R16UI : Nat := 0x8234
abbrev GL_R32I : Nat := 0x8235
abbrev GL_R32UI : Nat := 0x8236
abbrev GL_RG8I : Nat := 0x8237
abbrev GL_RG8UI : Nat := 0x8238
abbrev GL_RG16I : Nat := 0x8239
abbrev GL_RG16UI : Nat := 0x823A
abbrev GL_RG32I : Nat := 0x823B
abbrev GL_RG32UI : Nat := 0x823C
abbrev GL_UNSIGNED_SHORT_5_6_5 : Nat := 0x8363
abbrev GL_UNSIGNED_SHORT_5_6_5_REV : Nat := 0x8364
abbrev GL_UNSIGNED_SHORT_1_5_5_5_REV : Nat := 0x8366
abbrev GL_UNSIGNED_INT_8_8_8_8_REV : Nat := 0x8367
abbrev GL_UNSIGNED_INT_2_10_10_10_REV : Nat := 0x8368
abbrev GL_COMPRESSED_RGB_S3TC_DXT1_EXT : Nat := 0x83F0
abbrev GL_COMPRESSED_RGBA_S3TC_DXT1_EXT : Nat := 0x83F1
abbrev GL_COMPRESSED_RGBA_S3TC_DXT3_EXT : Nat := 0x83F2
abbrev GL_COMPRESSED_RGBA_S3TC_DXT5_EXT : Nat := 0x83F3
abbrev GL_RGBA32F : Nat := 0x8814
abbrev GL_RGB32F : Nat := 0x8815
abbrev GL_RGBA16F : Nat := 0x881A
abbrev GL_RGB16F : Nat := 0x881B
abbrev GL_COMPRESSED_SRGB_PVRTC_2BPPV1_EXT : Nat := 0x8A54
abbrev GL_COMPRESSED_SRGB_PVRTC_4BPPV1_EXT : Nat := 0x8A55
abbrev GL_COMPRESSED_SRGB_ALPHA_PVRTC_2BPPV1_EXT : Nat := 0x8A56
abbrev GL_COMPRESSED_SRGB_ALPHA_PVRTC_4BPPV1_EXT : Nat := 0x8A57
abbrev GL_COMPRESSED_RGB_PVRTC_4BPPV1_IMG : Nat := 0x8C00
abbrev GL_COMPRESSED_RGB_PVRTC_2BPPV1_IMG : Nat := 0x8C01
abbrev GL_COMPRESSED_RGBA_PVRTC_4BPPV1_IMG : Nat := 0x8C02
abbrev GL_COMPRESSED_RGBA_PVRTC_2BPPV1_IMG : Nat := 0x8C03
abbrev GL_R11F_G11F_B10F : Nat := 0x8C3A
abbrev GL_UNSIGNED_INT_10F_11F_11F_REV : Nat := 0x8C3B
abbrev GL_RGB9_E5 : Nat := 0x8C3D
abbrev GL_UNSIGNED_INT_5_9_9_9_REV : Nat := 0x8C3E
abbrev GL_SRGB8 : Nat := 0x8C41
abbrev GL_SRGB8_ALPHA8 : Nat := 0x8C43
abbrev GL_COMPRESSED_SRGB_S3TC_DXT1_EXT : Nat := 0x8C4C
abbrev GL_COMPRESSED_SRGB_ALPHA_S3TC_DXT1_EXT : Nat := 0x8C4D
abbrev GL_COMPRESSED_SRGB_ALPHA_S3TC_DXT3_EXT : Nat := 0x8C4E
abbrev GL_COMPRESSED_SRGB_ALPHA_S3TC_DXT5_EXT : Nat := 0x8C4F
abbrev GL_RGB565 : Nat := 0x8D62
abbrev GL_ETC1_RGB8_OES : Nat := 0x8D64
abbrev GL_RGBA32UI : Nat := 0x8D70
abbrev GL_RGB32UI : Nat := 0x8D71
abbrev GL_RGBA16UI : Nat := 0x8D76
abbrev GL_RGB16UI : Nat := 0x8D77
abbrev GL_RGBA8UI : Nat := 0x8D7C
abbrev GL_RGB8UI : Nat := 0x8D7D
abbrev GL_RGBA32I : Nat := 0x8D82
abbrev GL_RGB32I : Nat := 0x8D83
abbrev GL_RGBA16I : Nat := 0x8D88
abbrev GL_RGB16I : Nat := 0x8D89
abbrev GL_RGBA8I : Nat := 0x8D8E
abbrev GL_RGB8I : Nat := 0x8D8F
abbrev GL_RGBA_INTEGER : Nat := 0x8D99
abbrev GL_BGRA_INTEGER : Nat := 0x8D9B
abbrev GL_COMPRESSED_RED_RGTC1 : Nat := 0x8DBB
abbrev GL_COMPRESSED_SIGNED_RED_RGTC1 : Nat := 0x8DBC
abbrev GL_COMPRESSED_RG_RGTC2 : Nat := 0x8DBD
abbrev GL_COMPRESSED_SIGNED_RG_RGTC2 : Nat := 0x8DBE
abbrev GL_COMPRESSED_RGBA_BPTC_UNORM : Nat := 0x8E8C
abbrev GL_COMPRESSED_SRGB_ALPHA_BPTC_UNORM : Nat := 0x8E8D
abbrev GL_COMPRESSED_RGB_BPTC_SIGNED_FLOAT : Nat := 0x8E8E
abbrev GL_COMPRESSED_RGB_BPTC_UNSIGNED_FLOAT : Nat := 0x8E8F
abbrev GL_R8_SNORM : Nat := 0x8F94
abbrev GL_RG8_SNORM : Nat := 0x8F95
abbrev GL_RGB8_SNORM : Nat := 0x8F96
abbrev GL_RGBA8_SNORM : Nat := 0x8F97
abbrev GL_R16_SNORM : Nat := 0x8F98
abbrev GL_RG16_SNORM : Nat := 0x8F99
abbrev GL_RGB16_SNORM : Nat := 0x8F9A
abbrev GL_RGBA16_SNORM : Nat := 0x8F9B
abbrev GL_RGB10_A2UI : Nat := 0x906F
abbrev GL_COMPRESSED_RGBA_PVRTC_2BPPV2_IMG : Nat := 0x9137
abbrev GL_COMPRESSED_RGBA_PVRTC_4BPPV2_IMG : Nat := 0x9138
abbrev GL_COMPRESSED_R11_EAC : Nat := 0x9270
abbrev GL_COMPRESSED_SIGNED_R11_EAC : Nat := 0x9271
abbrev GL_COMPRESSED_RG11_EAC : Nat := 0x9272
abbrev GL_COMPRESSED_SIGNED_RG11_EAC : Nat := 0x9273
abbrev GL_COMPRESSED_RGB8_ETC2 : Nat := 0x9274
abbrev GL_COMPRESSED_SRGB8_ETC2 : Nat := 0x9275
abbrev GL_COMPRESSED_RGB8_PUNCHTHROUGH_ALPHA1_ETC2 : Nat := 0x9276
abbrev GL_COMPRESSED_SRGB8_PUNCHTHROUGH_ALPHA1_ETC2 : Nat := 0x9277
abbrev GL_COMPRESSED_RGBA8_ETC2_EAC : Nat := 0x9278
abbrev GL_COMPRESSED_SRGB8_ALPHA8_ETC2_EAC : Nat := 0x9279
abbrev GL_COMPRESSED_RGBA_ASTC_4x4_KHR : Nat := 0x93B0
abbrev GL_COMPRESSED_RGBA_ASTC_5x4_KHR : Nat := 0x93B1
abbrev GL_COMPRESSED_RGBA_ASTC_5x5_KHR : Nat := 0x93B2
abbrev GL_COMPRESSED_RGBA_ASTC_6x5_KHR : Nat := 0x93B3
abbrev GL_COMPRESSED_RGBA_ASTC_6x6_KHR : Nat := 0x93B4
abbrev GL_COMPRESSED_RGBA_ASTC_8x5_KHR : Nat := 0x93B5
abbrev GL_COMPRESSED_RGBA_ASTC_8x6_KHR : Nat := 0x93B6
abbrev GL_COMPRESSED_RGBA_ASTC_8x8_KHR : Nat := 0x93B7
abbrev GL_COMPRESSED_RGBA_ASTC_10x5_KHR : Nat := 0x93B8
abbrev GL_COMPRESSED_RGBA_ASTC_10x6_KHR : Nat := 0x93B9
abbrev GL_COMPRESSED_RGBA_ASTC_10x8_KHR : Nat := 0x93BA
abbrev GL_COMPRESSED_RGBA_ASTC_10x10_KHR : Nat := 0x93BB
abbrev GL_COMPRESSED_RGBA_ASTC_12x10_KHR : Nat := 0x93BC
abbrev GL_COMPRESSED_RGBA_ASTC_12x12_KHR : Nat := 0x93BD
abbrev GL_COMPRESSED_SRGB8_ALPHA8_ASTC_4x4_KHR : Nat := 0x93D0
abbrev GL_COMPRESSED_SRGB8_ALPHA8_ASTC_5x4_KHR : Nat := 0x93D1
abbrev GL_COMPRESSED_SRGB8_ALPHA8_ASTC_5x5_KHR : Nat := 0x93D2
abbrev GL_COMPRESSED_SRGB8_ALPHA8_ASTC_6x5_KHR : Nat := 0x93D3
abbrev GL_COMPRESSED_SRGB8_ALPHA8_ASTC_6x6_KHR : Nat := 0x93D4
abbrev GL_COMPRESSED_SRGB8_ALPHA8_ASTC_8x5_KHR : Nat := 0x93D5
abbrev GL_COMPRESSED_SRGB8_ALPHA8_ASTC_8x6_KHR : Nat := 0x93D6
abbrev GL_COMPRESSED_SRGB8_ALPHA8_ASTC_8x8_KHR : Nat := 0x93D7
abbrev GL_COMPRESSED_SRGB8_ALPHA8_ASTC_10x5_KHR : Nat := 0x93D8
abbrev GL_COMPRESSED_SRGB8_ALPHA8_ASTC_10x6_KHR : Nat := 0x93D9
abbrev GL_COMPRESSED_SRGB8_ALPHA8_ASTC_10x8_KHR : Nat := 0x93DA
abbrev GL_COMPRESSED_SRGB8_ALPHA8_ASTC_10x10_KHR : Nat := 0x93DB
abbrev GL_COMPRESSED_SRGB8_ALPHA8_ASTC_12x10_KHR : Nat := 0x93DC
abbrev GL_COMPRESSED_SRGB8_ALPHA8_ASTC_12x12_KHR : Nat := 0x93DD
abbrev GL_COMPRESSED_SRGB_ALPHA_PVRTC_2BPPV2_IMG : Nat := 0x93F0
abbrev GL_COMPRESSED_SRGB_ALPHA_PVRTC_4BPPV2_IMG : Nat := 0x93F1

/-- `FormatInfo`, lib/src/SaveKtx.cpp:190-197.  `format` is an option because one accepted case does
not assign it. -/
structure KtxInfo where
  type : Nat
  typeSize : Nat
  format : Option Nat
  internalFormat : Nat
  baseInternalFormat : Nat
  deriving DecidableEq, Repr

/-- `getFormatInfo`, lib/src/SaveKtx.cpp:200-1181: `none` is `return false`.  A field a successful path
leaves unset is `none` inside the structure. -/
def ktxInfo (f : Format) (t : TType) (cs : ColorSpace) : Option KtxInfo :=
  match f with
  -- line 205
  | .R4G4B4A4 => match t with
    | .UNorm => some ⟨GL_UNSIGNED_SHORT_4_4_4_4, 2, some GL_RGBA, GL_RGBA4, GL_RGBA⟩
    | _ => none
  -- line 215
  | .B4G4R4A4 => match t with
    | .UNorm => some ⟨GL_UNSIGNED_SHORT_4_4_4_4, 2, some GL_BGRA, GL_RGBA4, GL_BGRA⟩
    | _ => none
  -- line 225
  | .R5G6B5 => match t with
    | .UNorm => some ⟨GL_UNSIGNED_SHORT_5_6_5, 2, some GL_RGB, GL_RGB565, GL_RGB⟩
    | _ => none
  -- line 235
  | .B5G6R5 => match t with
    | .UNorm => some ⟨GL_UNSIGNED_SHORT_5_6_5_REV, 2, some GL_RGB, GL_RGB565, GL_RGB⟩
    | _ => none
  -- line 245
  | .R5G5B5A1 => match t with
    | .UNorm => some ⟨GL_UNSIGNED_SHORT_5_5_5_1, 2, some GL_RGBA, GL_RGB5_A1, GL_RGBA⟩
    | _ => none
  -- line 255
  | .B5G5R5A1 => match t with
    | .UNorm => some ⟨GL_UNSIGNED_SHORT_5_5_5_1, 2, some GL_BGRA, GL_RGB5_A1, GL_BGRA⟩
    | _ => none
  -- line 265
  | .A1R5G5B5 => match t with
    | .UNorm => some ⟨GL_UNSIGNED_SHORT_1_5_5_5_REV, 2, some GL_BGRA, GL_RGB5_A1, GL_BGRA⟩
    | _ => none
  -- line 275
  | .R8 => match t with
    | .UNorm => some ⟨GL_UNSIGNED_BYTE, 1, some GL_RED, GL_R8, GL_LUMINANCE⟩
    | .SNorm => some ⟨GL_BYTE, 1, some GL_RED, GL_R8_SNORM, GL_LUMINANCE⟩
    | .UInt => some ⟨GL_UNSIGNED_BYTE, 1, some GL_RED, GL_R8UI, GL_LUMINANCE⟩
    | .Int => some ⟨GL_BYTE, 1, some GL_RED, GL_R8I, GL_LUMINANCE⟩
    | _ => none
  -- line 300
  | .R8G8 => match t with
    | .UNorm => some ⟨GL_UNSIGNED_BYTE, 1, some GL_RG, GL_RG8, GL_LUMINANCE_ALPHA⟩
    | .SNorm => some ⟨GL_UNSIGNED_BYTE, 1, some GL_RG, GL_RG8_SNORM, GL_LUMINANCE_ALPHA⟩
    | .UInt => some ⟨GL_UNSIGNED_BYTE, 1, some GL_RG, GL_RG8UI, GL_LUMINANCE_ALPHA⟩
    | .Int => some ⟨GL_UNSIGNED_BYTE, 1, some GL_RG, GL_RG8I, GL_LUMINANCE_ALPHA⟩
    | _ => none
  -- line 322
  | .R8G8B8 => match t with
    | .UNorm => some (if cs = .sRGB then ⟨GL_UNSIGNED_BYTE, 1, some GL_RGB, GL_SRGB8, GL_RGB⟩ else ⟨GL_UNSIGNED_BYTE, 1, some GL_RGB, GL_RGB8, GL_RGB⟩)
    | .SNorm => some ⟨GL_BYTE, 1, some GL_RGB, GL_RGB8_SNORM, GL_RGB⟩
    | .UInt => some ⟨GL_UNSIGNED_BYTE, 1, some GL_RGB, GL_RGB8UI, GL_RGB⟩
    | .Int => some ⟨GL_BYTE, 1, some GL_RGB, GL_RGB8I, GL_RGB⟩
    | _ => none
  -- line 349
  | .R8G8B8A8 => match t with
    | .UNorm => some (if cs = .sRGB then ⟨GL_UNSIGNED_BYTE, 1, some GL_RGBA, GL_SRGB8_ALPHA8, GL_RGBA⟩ else ⟨GL_UNSIGNED_BYTE, 1, some GL_RGBA, GL_RGBA8, GL_RGBA⟩)
    | .SNorm => some ⟨GL_BYTE, 1, some GL_RGBA, GL_RGBA8_SNORM, GL_RGBA⟩
    | .UInt => some ⟨GL_UNSIGNED_BYTE, 1, some GL_RGBA_INTEGER, GL_RGBA8UI, GL_RGBA⟩
    | .Int => some ⟨GL_BYTE, 1, some GL_RGBA_INTEGER, GL_RGBA8I, GL_RGBA⟩
    | _ => none
  -- line 380
  | .B8G8R8A8 => match t with
    | .UNorm => some (if cs = .sRGB then ⟨GL_UNSIGNED_INT_8_8_8_8, 4, some GL_BGRA, GL_SRGB8_ALPHA8, GL_BGRA⟩ else ⟨GL_UNSIGNED_INT_8_8_8_8, 4, some GL_BGRA, GL_RGBA8, GL_BGRA⟩)
    | .SNorm => some ⟨GL_UNSIGNED_INT_8_8_8_8, 4, some GL_BGRA, GL_RGBA8_SNORM, GL_BGRA⟩
    | .UInt => some ⟨GL_UNSIGNED_INT_8_8_8_8, 4, some GL_BGRA_INTEGER, GL_RGBA8UI, GL_BGRA⟩
    | .Int => some ⟨GL_UNSIGNED_INT_8_8_8_8, 4, none, GL_RGBA8I, GL_BGRA⟩
    | _ => none
  -- line 407
  | .A8B8G8R8 => match t with
    | .UNorm => some (if cs = .sRGB then ⟨GL_UNSIGNED_INT_8_8_8_8_REV, 4, some GL_RGBA, GL_SRGB8_ALPHA8, GL_RGBA⟩ else ⟨GL_UNSIGNED_INT_8_8_8_8_REV, 4, some GL_RGBA, GL_RGBA8, GL_RGBA⟩)
    | .SNorm => some ⟨GL_UNSIGNED_INT_8_8_8_8_REV, 4, some GL_RGBA, GL_RGBA8_SNORM, GL_RGBA⟩
    | .UInt => some ⟨GL_UNSIGNED_INT_8_8_8_8_REV, 4, some GL_RGBA_INTEGER, GL_RGBA8UI, GL_RGBA⟩
    | .Int => some ⟨GL_UNSIGNED_INT_8_8_8_8_REV, 4, some GL_RGBA_INTEGER, GL_RGBA8I, GL_RGBA⟩
    | _ => none
  -- line 435
  | .A2R10G10B10 => match t with
    | .UNorm => some ⟨GL_UNSIGNED_INT_2_10_10_10_REV, 4, some GL_BGRA, GL_RGB10_A2, GL_BGRA⟩
    | .UInt => some ⟨GL_UNSIGNED_INT_2_10_10_10_REV, 4, some GL_BGRA_INTEGER, GL_RGB10_A2UI, GL_BGRA⟩
    | _ => none
  -- line 452
  | .A2B10G10R10 => match t with
    | .UNorm => some ⟨GL_UNSIGNED_INT_2_10_10_10_REV, 4, some GL_RGBA, GL_RGB10_A2, GL_RGBA⟩
    | .UInt => some ⟨GL_UNSIGNED_INT_2_10_10_10_REV, 4, some GL_RGBA_INTEGER, GL_RGB10_A2UI, GL_RGBA⟩
    | _ => none
  -- line 469
  | .R16 => match t with
    | .UNorm => some ⟨GL_UNSIGNED_SHORT, 2, some GL_RED, GL_R16, GL_LUMINANCE⟩
    | .SNorm => some ⟨GL_SHORT, 2, some GL_RED, GL_R16_SNORM, GL_LUMINANCE⟩
    | .UInt => some ⟨GL_UNSIGNED_SHORT, 2, some GL_RED, GL_R16UI, GL_LUMINANCE⟩
    | .Int => some ⟨GL_SHORT, 2, some GL_RED, GL_R16I, GL_LUMINANCE⟩
    | .Float => some ⟨GL_HALF_FLOAT, 2, some GL_RED, GL_R16F, GL_LUMINANCE⟩
    | _ => none
  -- line 498
  | .R16G16 => match t with
    | .UNorm => some ⟨GL_UNSIGNED_SHORT, 2, some GL_RG, GL_RG16, GL_LUMINANCE_ALPHA⟩
    | .SNorm => some ⟨GL_SHORT, 2, some GL_RG, GL_RG16_SNORM, GL_LUMINANCE_ALPHA⟩
    | .UInt => some ⟨GL_UNSIGNED_SHORT, 2, some GL_RG, GL_RG16UI, GL_LUMINANCE_ALPHA⟩
    | .Int => some ⟨GL_SHORT, 2, some GL_RG, GL_RG16I, GL_LUMINANCE_ALPHA⟩
    | .Float => some ⟨GL_HALF_FLOAT, 2, some GL_RG, GL_RG16F, GL_LUMINANCE_ALPHA⟩
    | _ => none
  -- line 527
  | .R16G16B16 => match t with
    | .UNorm => some ⟨GL_UNSIGNED_SHORT, 2, some GL_RGB, GL_RGB16, GL_RGB⟩
    | .SNorm => some ⟨GL_SHORT, 2, some GL_RGB, GL_RGB16_SNORM, GL_RGB⟩
    | .UInt => some ⟨GL_UNSIGNED_SHORT, 2, some GL_RGB, GL_RGB16UI, GL_RGB⟩
    | .Int => some ⟨GL_SHORT, 2, some GL_RGB, GL_RGB16I, GL_RGB⟩
    | .Float => some ⟨GL_HALF_FLOAT, 2, some GL_RGB, GL_RGB16F, GL_RGB⟩
    | _ => none
  -- line 555
  | .R16G16B16A16 => match t with
    | .UNorm => some ⟨GL_UNSIGNED_SHORT, 2, some GL_RGBA, GL_RGBA16, GL_RGBA⟩
    | .SNorm => some ⟨GL_SHORT, 2, some GL_RGBA, GL_RGBA16_SNORM, GL_RGBA⟩
    | .UInt => some ⟨GL_UNSIGNED_SHORT, 2, some GL_RGBA, GL_RGBA16UI, GL_RGBA⟩
    | .Int => some ⟨GL_SHORT, 2, some GL_RGBA, GL_RGBA16I, GL_RGBA⟩
    | .Float => some ⟨GL_HALF_FLOAT, 2, some GL_RGBA, GL_RGBA16F, GL_RGBA⟩
    | _ => none
  -- line 583
  | .R32 => match t with
    | .UInt => some ⟨GL_UNSIGNED_INT, 4, some GL_RED, GL_R32UI, GL_LUMINANCE⟩
    | .Int => some ⟨GL_INT, 4, some GL_RED, GL_R32I, GL_LUMINANCE⟩
    | .Float => some ⟨GL_FLOAT, 4, some GL_RED, GL_R32F, GL_LUMINANCE⟩
    | _ => none
  -- line 604
  | .R32G32 => match t with
    | .UInt => some ⟨GL_UNSIGNED_INT, 4, some GL_RG, GL_RG32UI, GL_LUMINANCE_ALPHA⟩
    | .Int => some ⟨GL_INT, 4, some GL_RG, GL_RG32I, GL_LUMINANCE_ALPHA⟩
    | .Float => some ⟨GL_FLOAT, 4, some GL_RG, GL_RG32F, GL_LUMINANCE_ALPHA⟩
    | _ => none
  -- line 625
  | .R32G32B32 => match t with
    | .UInt => some ⟨GL_UNSIGNED_INT, 4, some GL_RGB, GL_RGB32UI, GL_RGB⟩
    | .Int => some ⟨GL_INT, 4, some GL_RGB, GL_RGB32I, GL_RGB⟩
    | .Float => some ⟨GL_FLOAT, 4, some GL_RGB, GL_RGB32F, GL_RGB⟩
    | _ => none
  -- line 645
  | .R32G32B32A32 => match t with
    | .UInt => some ⟨GL_UNSIGNED_INT, 4, some GL_RGBA, GL_RGBA32UI, GL_RGBA⟩
    | .Int => some ⟨GL_INT, 4, some GL_RGBA, GL_RGBA32I, GL_RGBA⟩
    | .Float => some ⟨GL_FLOAT, 4, some GL_RGBA, GL_RGBA32F, GL_RGBA⟩
    | _ => none
  -- line 667
  | .B10G11R11_UFloat => match t with
    | .UFloat => some ⟨GL_UNSIGNED_INT_10F_11F_11F_REV, 4, some GL_RGB, GL_R11F_G11F_B10F, GL_RGB⟩
    | _ => none
  -- line 677
  | .E5B9G9R9_UFloat => match t with
    | .UFloat => some ⟨GL_UNSIGNED_INT_5_9_9_9_REV, 4, some GL_RGB, GL_RGB9_E5, GL_RGB⟩
    | _ => none
  -- line 689
  | .BC1_RGB => match t with
    | .UNorm => some (if cs = .sRGB then ⟨0, 1, some 0, GL_COMPRESSED_SRGB_S3TC_DXT1_EXT, GL_RGB⟩ else ⟨0, 1, some 0, GL_COMPRESSED_RGB_S3TC_DXT1_EXT, GL_RGB⟩)
    | _ => none
  -- line 703
  | .BC1_RGBA => match t with
    | .UNorm => some (if cs = .sRGB then ⟨0, 1, some 0, GL_COMPRESSED_SRGB_ALPHA_S3TC_DXT1_EXT, GL_RGBA⟩ else ⟨0, 1, some 0, GL_COMPRESSED_RGBA_S3TC_DXT1_EXT, GL_RGBA⟩)
    | _ => none
  -- line 717
  | .BC2 => match t with
    | .UNorm => some (if cs = .sRGB then ⟨0, 1, some 0, GL_COMPRESSED_SRGB_ALPHA_S3TC_DXT3_EXT, GL_RGBA⟩ else ⟨0, 1, some 0, GL_COMPRESSED_RGBA_S3TC_DXT3_EXT, GL_RGBA⟩)
    | _ => none
  -- line 731
  | .BC3 => match t with
    | .UNorm => some (if cs = .sRGB then ⟨0, 1, some 0, GL_COMPRESSED_SRGB_ALPHA_S3TC_DXT5_EXT, GL_RGBA⟩ else ⟨0, 1, some 0, GL_COMPRESSED_RGBA_S3TC_DXT5_EXT, GL_RGBA⟩)
    | _ => none
  -- line 745
  | .BC4 => match t with
    | .UNorm => some ⟨0, 1, some 0, GL_COMPRESSED_RED_RGTC1, GL_RED⟩
    | .SNorm => some ⟨0, 1, some 0, GL_COMPRESSED_SIGNED_RED_RGTC1, GL_RED⟩
    | _ => none
  -- line 761
  | .BC5 => match t with
    | .UNorm => some ⟨0, 1, some 0, GL_COMPRESSED_RG_RGTC2, GL_RG⟩
    | .SNorm => some ⟨0, 1, some 0, GL_COMPRESSED_SIGNED_RG_RGTC2, GL_RG⟩
    | _ => none
  -- line 777
  | .BC6H => match t with
    | .UFloat => some ⟨0, 1, some 0, GL_COMPRESSED_RGB_BPTC_UNSIGNED_FLOAT, GL_RGB⟩
    | .Float => some ⟨0, 1, some 0, GL_COMPRESSED_RGB_BPTC_SIGNED_FLOAT, GL_RGB⟩
    | _ => none
  -- line 793
  | .BC7 => match t with
    | .UNorm => some (if cs = .sRGB then ⟨0, 1, some 0, GL_COMPRESSED_SRGB_ALPHA_BPTC_UNORM, GL_RGBA⟩ else ⟨0, 1, some 0, GL_COMPRESSED_RGBA_BPTC_UNORM, GL_RGBA⟩)
    | _ => none
  -- line 807
  | .ETC1 => match t with
    | .UNorm => some ⟨0, 1, some 0, GL_ETC1_RGB8_OES, GL_RGB⟩
    | _ => none
  -- line 818
  | .ETC2_R8G8B8 => match t with
    | .UNorm => some (if cs = .sRGB then ⟨0, 1, some 0, GL_COMPRESSED_SRGB8_ETC2, GL_RGB⟩ else ⟨0, 1, some 0, GL_COMPRESSED_RGB8_ETC2, GL_RGB⟩)
    | _ => none
  -- line 832
  | .ETC2_R8G8B8A1 => match t with
    | .UNorm => some (if cs = .sRGB then ⟨0, 1, some 0, GL_COMPRESSED_SRGB8_PUNCHTHROUGH_ALPHA1_ETC2, GL_RGBA⟩ else ⟨0, 1, some 0, GL_COMPRESSED_RGB8_PUNCHTHROUGH_ALPHA1_ETC2, GL_RGBA⟩)
    | _ => none
  -- line 846
  | .ETC2_R8G8B8A8 => match t with
    | .UNorm => some (if cs = .sRGB then ⟨0, 1, some 0, GL_COMPRESSED_SRGB8_ALPHA8_ETC2_EAC, GL_RGBA⟩ else ⟨0, 1, some 0, GL_COMPRESSED_RGBA8_ETC2_EAC, GL_RGBA⟩)
    | _ => none
  -- line 860
  | .EAC_R11 => match t with
    | .UNorm => some ⟨0, 1, some 0, GL_COMPRESSED_R11_EAC, GL_RED⟩
    | .SNorm => some ⟨0, 1, some 0, GL_COMPRESSED_SIGNED_R11_EAC, GL_RED⟩
    | _ => none
  -- line 876
  | .EAC_R11G11 => match t with
    | .UNorm => some ⟨0, 1, some 0, GL_COMPRESSED_RG11_EAC, GL_RG⟩
    | .SNorm => some ⟨0, 1, some 0, GL_COMPRESSED_SIGNED_RG11_EAC, GL_RG⟩
    | _ => none
  -- line 892
  | .ASTC_4x4 => match t with
    | .UNorm => some (if cs = .sRGB then ⟨0, 1, some 0, GL_COMPRESSED_SRGB8_ALPHA8_ASTC_4x4_KHR, GL_RGBA⟩ else ⟨0, 1, some 0, GL_COMPRESSED_RGBA_ASTC_4x4_KHR, GL_RGBA⟩)
    | .UFloat => some (if cs = .sRGB then ⟨0, 1, some 0, GL_COMPRESSED_SRGB8_ALPHA8_ASTC_4x4_KHR, GL_RGBA⟩ else ⟨0, 1, some 0, GL_COMPRESSED_RGBA_ASTC_4x4_KHR, GL_RGBA⟩)
    | _ => none
  -- line 906
  | .ASTC_5x4 => match t with
    | .UNorm => some (if cs = .sRGB then ⟨0, 1, some 0, GL_COMPRESSED_SRGB8_ALPHA8_ASTC_5x4_KHR, GL_RGBA⟩ else ⟨0, 1, some 0, GL_COMPRESSED_RGBA_ASTC_5x4_KHR, GL_RGBA⟩)
    | .UFloat => some (if cs = .sRGB then ⟨0, 1, some 0, GL_COMPRESSED_SRGB8_ALPHA8_ASTC_5x4_KHR, GL_RGBA⟩ else ⟨0, 1, some 0, GL_COMPRESSED_RGBA_ASTC_5x4_KHR, GL_RGBA⟩)
    | _ => none
  -- line 920
  | .ASTC_5x5 => match t with
    | .UNorm => some (if cs = .sRGB then ⟨0, 1, some 0, GL_COMPRESSED_SRGB8_ALPHA8_ASTC_5x5_KHR, GL_RGBA⟩ else ⟨0, 1, some 0, GL_COMPRESSED_RGBA_ASTC_5x5_KHR, GL_RGBA⟩)
    | .UFloat => some (if cs = .sRGB then ⟨0, 1, some 0, GL_COMPRESSED_SRGB8_ALPHA8_ASTC_5x5_KHR, GL_RGBA⟩ else ⟨0, 1, some 0, GL_COMPRESSED_RGBA_ASTC_5x5_KHR, GL_RGBA⟩)
    | _ => none
  -- line 934
  | .ASTC_6x5 => match t with
    | .UNorm => some (if cs = .sRGB then ⟨0, 1, some 0, GL_COMPRESSED_SRGB8_ALPHA8_ASTC_6x5_KHR, GL_RGBA⟩ else ⟨0, 1, some 0, GL_COMPRESSED_RGBA_ASTC_6x5_KHR, GL_RGBA⟩)
    | .UFloat => some (if cs = .sRGB then ⟨0, 1, some 0, GL_COMPRESSED_SRGB8_ALPHA8_ASTC_6x5_KHR, GL_RGBA⟩ else ⟨0, 1, some 0, GL_COMPRESSED_RGBA_ASTC_6x5_KHR, GL_RGBA⟩)
    | _ => none
  -- line 948
  | .ASTC_6x6 => match t with
    | .UNorm => some (if cs = .sRGB then ⟨0, 1, some 0, GL_COMPRESSED_SRGB8_ALPHA8_ASTC_6x6_KHR, GL_RGBA⟩ else ⟨0, 1, some 0, GL_COMPRESSED_RGBA_ASTC_6x6_KHR, GL_RGBA⟩)
    | .UFloat => some (if cs = .sRGB then ⟨0, 1, some 0, GL_COMPRESSED_SRGB8_ALPHA8_ASTC_6x6_KHR, GL_RGBA⟩ else ⟨0, 1, some 0, GL_COMPRESSED_RGBA_ASTC_6x6_KHR, GL_RGBA⟩)
    | _ => none
  -- line 962
  | .ASTC_8x5 => match t with
    | .UNorm => some (if cs = .sRGB then ⟨0, 1, some 0, GL_COMPRESSED_SRGB8_ALPHA8_ASTC_8x5_KHR, GL_RGBA⟩ else ⟨0, 1, some 0, GL_COMPRESSED_RGBA_ASTC_8x5_KHR, GL_RGBA⟩)
    | .UFloat => some (if cs = .sRGB then ⟨0, 1, some 0, GL_COMPRESSED_SRGB8_ALPHA8_ASTC_8x5_KHR, GL_RGBA⟩ else ⟨0, 1, some 0, GL_COMPRESSED_RGBA_ASTC_8x5_KHR, GL_RGBA⟩)
    | _ => none
  -- line 976
  | .ASTC_8x6 => match t with
    | .UNorm => some (if cs = .sRGB then ⟨0, 1, some 0, GL_COMPRESSED_SRGB8_ALPHA8_ASTC_8x6_KHR, GL_RGBA⟩ else ⟨0, 1, some 0, GL_COMPRESSED_RGBA_ASTC_8x6_KHR, GL_RGBA⟩)
    | .UFloat => some (if cs = .sRGB then ⟨0, 1, some 0, GL_COMPRESSED_SRGB8_ALPHA8_ASTC_8x6_KHR, GL_RGBA⟩ else ⟨0, 1, some 0, GL_COMPRESSED_RGBA_ASTC_8x6_KHR, GL_RGBA⟩)
    | _ => none
  -- line 990
  | .ASTC_8x8 => match t with
    | .UNorm => some (if cs = .sRGB then ⟨0, 1, some 0, GL_COMPRESSED_SRGB8_ALPHA8_ASTC_8x8_KHR, GL_RGBA⟩ else ⟨0, 1, some 0, GL_COMPRESSED_RGBA_ASTC_8x8_KHR, GL_RGBA⟩)
    | .UFloat => some (if cs = .sRGB then ⟨0, 1, some 0, GL_COMPRESSED_SRGB8_ALPHA8_ASTC_8x8_KHR, GL_RGBA⟩ else ⟨0, 1, some 0, GL_COMPRESSED_RGBA_ASTC_8x8_KHR, GL_RGBA⟩)
    | _ => none
  -- line 1004
  | .ASTC_10x5 => match t with
    | .UNorm => some (if cs = .sRGB then ⟨0, 1, some 0, GL_COMPRESSED_SRGB8_ALPHA8_ASTC_10x5_KHR, GL_RGBA⟩ else ⟨0, 1, some 0, GL_COMPRESSED_RGBA_ASTC_10x5_KHR, GL_RGBA⟩)
    | .UFloat => some (if cs = .sRGB then ⟨0, 1, some 0, GL_COMPRESSED_SRGB8_ALPHA8_ASTC_10x5_KHR, GL_RGBA⟩ else ⟨0, 1, some 0, GL_COMPRESSED_RGBA_ASTC_10x5_KHR, GL_RGBA⟩)
    | _ => none
  -- line 1018
  | .ASTC_10x6 => match t with
    | .UNorm => some (if cs = .sRGB then ⟨0, 1, some 0, GL_COMPRESSED_SRGB8_ALPHA8_ASTC_10x6_KHR, GL_RGBA⟩ else ⟨0, 1, some 0, GL_COMPRESSED_RGBA_ASTC_10x6_KHR, GL_RGBA⟩)
    | .UFloat => some (if cs = .sRGB then ⟨0, 1, some 0, GL_COMPRESSED_SRGB8_ALPHA8_ASTC_10x6_KHR, GL_RGBA⟩ else ⟨0, 1, some 0, GL_COMPRESSED_RGBA_ASTC_10x6_KHR, GL_RGBA⟩)
    | _ => none
  -- line 1032
  | .ASTC_10x8 => match t with
    | .UNorm => some (if cs = .sRGB then ⟨0, 1, some 0, GL_COMPRESSED_SRGB8_ALPHA8_ASTC_10x8_KHR, GL_RGBA⟩ else ⟨0, 1, some 0, GL_COMPRESSED_RGBA_ASTC_10x8_KHR, GL_RGBA⟩)
    | .UFloat => some (if cs = .sRGB then ⟨0, 1, some 0, GL_COMPRESSED_SRGB8_ALPHA8_ASTC_10x8_KHR, GL_RGBA⟩ else ⟨0, 1, some 0, GL_COMPRESSED_RGBA_ASTC_10x8_KHR, GL_RGBA⟩)
    | _ => none
  -- line 1046
  | .ASTC_10x10 => match t with
    | .UNorm => some (if cs = .sRGB then ⟨0, 1, some 0, GL_COMPRESSED_SRGB8_ALPHA8_ASTC_10x10_KHR, GL_RGBA⟩ else ⟨0, 1, some 0, GL_COMPRESSED_RGBA_ASTC_10x10_KHR, GL_RGBA⟩)
    | .UFloat => some (if cs = .sRGB then ⟨0, 1, some 0, GL_COMPRESSED_SRGB8_ALPHA8_ASTC_10x10_KHR, GL_RGBA⟩ else ⟨0, 1, some 0, GL_COMPRESSED_RGBA_ASTC_10x10_KHR, GL_RGBA⟩)
    | _ => none
  -- line 1060
  | .ASTC_12x10 => match t with
    | .UNorm => some (if cs = .sRGB then ⟨0, 1, some 0, GL_COMPRESSED_SRGB8_ALPHA8_ASTC_12x10_KHR, GL_RGBA⟩ else ⟨0, 1, some 0, GL_COMPRESSED_RGBA_ASTC_12x10_KHR, GL_RGBA⟩)
    | .UFloat => some (if cs = .sRGB then ⟨0, 1, some 0, GL_COMPRESSED_SRGB8_ALPHA8_ASTC_12x10_KHR, GL_RGBA⟩ else ⟨0, 1, some 0, GL_COMPRESSED_RGBA_ASTC_12x10_KHR, GL_RGBA⟩)
    | _ => none
  -- line 1074
  | .ASTC_12x12 => match t with
    | .UNorm => some (if cs = .sRGB then ⟨0, 1, some 0, GL_COMPRESSED_SRGB8_ALPHA8_ASTC_12x12_KHR, GL_RGBA⟩ else ⟨0, 1, some 0, GL_COMPRESSED_RGBA_ASTC_12x12_KHR, GL_RGBA⟩)
    | .UFloat => some (if cs = .sRGB then ⟨0, 1, some 0, GL_COMPRESSED_SRGB8_ALPHA8_ASTC_12x12_KHR, GL_RGBA⟩ else ⟨0, 1, some 0, GL_COMPRESSED_RGBA_ASTC_12x12_KHR, GL_RGBA⟩)
    | _ => none
  -- line 1088
  | .PVRTC1_RGB_2BPP => match t with
    | .UNorm => some (if cs = .sRGB then ⟨0, 1, some 0, GL_COMPRESSED_SRGB_PVRTC_2BPPV1_EXT, GL_RGB⟩ else ⟨0, 1, some 0, GL_COMPRESSED_RGB_PVRTC_2BPPV1_IMG, GL_RGB⟩)
    | _ => none
  -- line 1102
  | .PVRTC1_RGBA_2BPP => match t with
    | .UNorm => some (if cs = .sRGB then ⟨0, 1, some 0, GL_COMPRESSED_SRGB_ALPHA_PVRTC_2BPPV1_EXT, GL_RGBA⟩ else ⟨0, 1, some 0, GL_COMPRESSED_RGBA_PVRTC_2BPPV1_IMG, GL_RGBA⟩)
    | _ => none
  -- line 1116
  | .PVRTC1_RGB_4BPP => match t with
    | .UNorm => some (if cs = .sRGB then ⟨0, 1, some 0, GL_COMPRESSED_SRGB_PVRTC_4BPPV1_EXT, GL_RGB⟩ else ⟨0, 1, some 0, GL_COMPRESSED_RGB_PVRTC_4BPPV1_IMG, GL_RGB⟩)
    | _ => none
  -- line 1130
  | .PVRTC1_RGBA_4BPP => match t with
    | .UNorm => some (if cs = .sRGB then ⟨0, 1, some 0, GL_COMPRESSED_SRGB_ALPHA_PVRTC_4BPPV1_EXT, GL_RGBA⟩ else ⟨0, 1, some 0, GL_COMPRESSED_RGBA_PVRTC_4BPPV1_IMG, GL_RGBA⟩)
    | _ => none
  -- line 1144
  | .PVRTC2_RGBA_2BPP => match t with
    | .UNorm => some (if cs = .sRGB then ⟨0, 1, some 0, GL_COMPRESSED_SRGB_ALPHA_PVRTC_2BPPV2_IMG, GL_RGBA⟩ else ⟨0, 1, some 0, GL_COMPRESSED_RGBA_PVRTC_2BPPV2_IMG, GL_RGBA⟩)
    | _ => none
  -- line 1158
  | .PVRTC2_RGBA_4BPP => match t with
    | .UNorm => some (if cs = .sRGB then ⟨0, 1, some 0, GL_COMPRESSED_SRGB_ALPHA_PVRTC_4BPPV2_IMG, GL_RGBA⟩ else ⟨0, 1, some 0, GL_COMPRESSED_RGBA_PVRTC_4BPPV2_IMG, GL_RGBA⟩)
    | _ => none
  | .Unknown => none
  | .R4G4 => none
  | .A4R4G4B4 => none
  | .B8G8R8 => none

/-! ### DDS

`DdsDxt10Format`, lib/src/SaveDds.cpp:70-193. -/

abbrev DXGI_UNKNOWN : Nat := 0
abbrev DXGI_R32G32B32A32_FLOAT : Nat := 2
abbrev DXGI_R32G32B32A32_UINT : Nat := 3
abbrev DXGI_R32G32B32A32_SINT : Nat := 4
abbrev DXGI_R32G32B32_FLOAT : Nat := 6
abbrev DXGI_R32G32B32_UINT : Nat := 7
abbrev DXGI_R32G32B32_SINT : Nat := 8
abbrev DXGI_R16G16B16A16_FLOAT : Nat := 10
abbrev DXGI_R16G16B16A16_UNORM : Nat := 11
abbrev DXGI_R16G16B16A16_UINT : Nat := 12
abbrev DXGI_R16G16B16A16_SNORM : Nat := 13
abbrev DXGI_R16G16B16A16_SINT : Nat := 14
abbrev DXGI_R32G32_FLOAT : Nat := 16
abbrev DXGI_R32G32_UINT : Nat := 17
abbrev DXGI_R32G32_SINT : Nat := 18
abbrev DXGI_R10G10B10A2_UNORM : Nat := 24
abbrev DXGI_R10G10B10A2_UINT : Nat := 25
abbrev DXGI_R11G11B10_FLOAT : Nat := 26
abbrev DXGI_R8G8B8A8_UNORM : Nat := 28
abbrev DXGI_R8G8B8A8_UNORM_SRGB : Nat := 29
abbrev DXGI_R8G8B8A8_UINT : Nat := 30
abbrev DXGI_R8G8B8A8_SNORM : Nat := 31
abbrev DXGI_R8G8B8A8_SINT : Nat := 32
abbrev DXGI_R16G16_FLOAT : Nat := 34
abbrev DXGI_R16G16_UNORM : Nat := 35
abbrev DXGI_R16G16_UINT : Nat := 36
abbrev DXGI_R16G16_SNORM : Nat := 37
abbrev DXGI_R16G16_SINT : Nat := 38
abbrev DXGI_R32_FLOAT : Nat := 41
abbrev DXGI_R32_UINT : Nat := 42
abbrev DXGI_R32_SINT : Nat := 43
abbrev DXGI_R8G8_UNORM : Nat := 49
abbrev DXGI_R8G8_UINT : Nat := 50
abbrev DXGI_R8G8_SNORM : Nat := 51
abbrev DXGI_R8G8_SINT : Nat := 52
abbrev DXGI_R16_FLOAT : Nat := 54
abbrev DXGI_R16_UNORM : Nat := 56
abbrev DXGI_R16_UINT : Nat := 57
abbrev DXGI_R16_SNORM : Nat := 58
abbrev DXGI_R16_SINT : Nat := 59
abbrev DXGI_R8_UNORM : Nat := 61
abbrev DXGI_R8_UINT : Nat := 62
abbrev DXGI_R8_SNORM : Nat := 63
abbrev DXGI_R8_SINT : Nat := 64
abbrev DXGI_R9G9B9E5_SHAREDEXP : Nat := 67
abbrev DXGI_BC1_UNORM : Nat := 71
abbrev DXGI_BC1_UNORM_SRGB : Nat := 72
abbrev DXGI_BC2_UNORM : Nat := 74
abbrev DXGI_BC2_UNORM_SRGB : Nat := 75
abbrev DXGI_BC3_UNORM : Nat := 77
abbrev DXGI_BC3_UNORM_SRGB : Nat := 78
abbrev DXGI_BC4_UNORM : Nat := 80
abbrev DXGI_BC4_SNORM : Nat := 81
abbrev DXGI_BC5_UNORM : Nat := 83
abbrev DXGI_BC5_SNORM : Nat := 84
abbrev DXGI_B5G6R5_UNORM : Nat := 85
abbrev DXGI_B5G5R5A1_UNORM : Nat := 86
abbrev DXGI_B8G8R8A8_UNORM : Nat := 87
abbrev DXGI_B8G8R8A8_UNORM_SRGB : Nat := 91
abbrev DXGI_BC6H_UF16 : Nat := 95
abbrev DXGI_BC6H_SF16 : Nat := 96
abbrev DXGI_BC7_UNORM : Nat := 98
abbrev DXGI_BC7_UNORM_SRGB : Nat := 99
abbrev DXGI_IA44 : Nat := 112
abbrev DXGI_B4G4R4A4_UNORM : Nat := 115

/-- `getDdsFormat`, lib/src/SaveDds.cpp:255-551. -/
def ddsFormat (f : Format) (t : TType) (cs : ColorSpace) : Nat :=
  match f with
  -- line 260
  | .R4G4 => match t with
    | .UNorm => DXGI_IA44
    | _ => DXGI_UNKNOWN
  -- line 264
  | .A4R4G4B4 => match t with
    | .UNorm => DXGI_B4G4R4A4_UNORM
    | _ => DXGI_UNKNOWN
  -- line 268
  | .R5G6B5 => match t with
    | .UNorm => DXGI_B5G6R5_UNORM
    | _ => DXGI_UNKNOWN
  -- line 272
  | .A1R5G5B5 => match t with
    | .UNorm => DXGI_B5G5R5A1_UNORM
    | _ => DXGI_UNKNOWN
  -- line 276
  | .R8 => match t with
    | .UNorm => DXGI_R8_UNORM
    | .SNorm => DXGI_R8_SNORM
    | .UInt => DXGI_R8_UINT
    | .Int => DXGI_R8_SINT
    | _ => DXGI_UNKNOWN
  -- line 290
  | .R8G8 => match t with
    | .UNorm => DXGI_R8G8_UNORM
    | .SNorm => DXGI_R8G8_SNORM
    | .UInt => DXGI_R8G8_UINT
    | .Int => DXGI_R8G8_SINT
    | _ => DXGI_UNKNOWN
  -- line 304
  | .R8G8B8A8 => match t with
    | .UNorm => if cs = .sRGB then DXGI_R8G8B8A8_UNORM_SRGB else DXGI_R8G8B8A8_UNORM
    | .SNorm => DXGI_R8G8B8A8_SNORM
    | .UInt => DXGI_R8G8B8A8_UINT
    | .Int => DXGI_R8G8B8A8_SINT
    | _ => DXGI_UNKNOWN
  -- line 320
  | .B8G8R8A8 => match t with
    | .UNorm => if cs = .sRGB then DXGI_B8G8R8A8_UNORM_SRGB else DXGI_B8G8R8A8_UNORM
    | _ => DXGI_UNKNOWN
  -- line 328
  | .A2B10G10R10 => match t with
    | .UNorm => DXGI_R10G10B10A2_UNORM
    | .UInt => DXGI_R10G10B10A2_UINT
    | _ => DXGI_UNKNOWN
  -- line 338
  | .R16 => match t with
    | .UNorm => DXGI_R16_UNORM
    | .SNorm => DXGI_R16_SNORM
    | .UInt => DXGI_R16_UINT
    | .Int => DXGI_R16_SINT
    | .Float => DXGI_R16_FLOAT
    | _ => DXGI_UNKNOWN
  -- line 354
  | .R16G16 => match t with
    | .UNorm => DXGI_R16G16_UNORM
    | .SNorm => DXGI_R16G16_SNORM
    | .UInt => DXGI_R16G16_UINT
    | .Int => DXGI_R16G16_SINT
    | .Float => DXGI_R16G16_FLOAT
    | _ => DXGI_UNKNOWN
  -- line 370
  | .R16G16B16A16 => match t with
    | .UNorm => DXGI_R16G16B16A16_UNORM
    | .SNorm => DXGI_R16G16B16A16_SNORM
    | .UInt => DXGI_R16G16B16A16_UINT
    | .Int => DXGI_R16G16B16A16_SINT
    | .Float => DXGI_R16G16B16A16_FLOAT
    | _ => DXGI_UNKNOWN
  -- line 386
  | .R32 => match t with
    | .UInt => DXGI_R32_UINT
    | .Int => DXGI_R32_SINT
    | .Float => DXGI_R32_FLOAT
    | _ => DXGI_UNKNOWN
  -- line 398
  | .R32G32 => match t with
    | .UInt => DXGI_R32G32_UINT
    | .Int => DXGI_R32G32_SINT
    | .Float => DXGI_R32G32_FLOAT
    | _ => DXGI_UNKNOWN
  -- line 410
  | .R32G32B32 => match t with
    | .UInt => DXGI_R32G32B32_UINT
    | .Int => DXGI_R32G32B32_SINT
    | .Float => DXGI_R32G32B32_FLOAT
    | _ => DXGI_UNKNOWN
  -- line 422
  | .R32G32B32A32 => match t with
    | .UInt => DXGI_R32G32B32A32_UINT
    | .Int => DXGI_R32G32B32A32_SINT
    | .Float => DXGI_R32G32B32A32_FLOAT
    | _ => DXGI_UNKNOWN
  -- line 434
  | .B10G11R11_UFloat => match t with
    | .UFloat => DXGI_R11G11B10_FLOAT
    | _ => DXGI_UNKNOWN
  -- line 438
  | .E5B9G9R9_UFloat => match t with
    | .UFloat => DXGI_R9G9B9E5_SHAREDEXP
    | _ => DXGI_UNKNOWN
  -- line 442
  | .BC1_RGB => match t with
    | .UNorm => if cs = .sRGB then DXGI_BC1_UNORM_SRGB else DXGI_BC1_UNORM
    | _ => DXGI_UNKNOWN
  -- line 443
  | .BC1_RGBA => match t with
    | .UNorm => if cs = .sRGB then DXGI_BC1_UNORM_SRGB else DXGI_BC1_UNORM
    | _ => DXGI_UNKNOWN
  -- line 451
  | .BC2 => match t with
    | .UNorm => if cs = .sRGB then DXGI_BC2_UNORM_SRGB else DXGI_BC2_UNORM
    | _ => DXGI_UNKNOWN
  -- line 459
  | .BC3 => match t with
    | .UNorm => if cs = .sRGB then DXGI_BC3_UNORM_SRGB else DXGI_BC3_UNORM
    | _ => DXGI_UNKNOWN
  -- line 467
  | .BC4 => match t with
    | .UNorm => DXGI_BC4_UNORM
    | .SNorm => DXGI_BC4_SNORM
    | _ => DXGI_UNKNOWN
  -- line 478
  | .BC5 => match t with
    | .UNorm => DXGI_BC5_UNORM
    | .SNorm => DXGI_BC5_SNORM
    | _ => DXGI_UNKNOWN
  -- line 489
  | .BC6H => match t with
    | .UFloat => DXGI_BC6H_UF16
    | .Float => DXGI_BC6H_SF16
    | _ => DXGI_UNKNOWN
  -- line 500
  | .BC7 => match t with
    | .UNorm => if cs = .sRGB then DXGI_BC7_UNORM_SRGB else DXGI_BC7_UNORM
    | _ => DXGI_UNKNOWN
  | .Unknown => DXGI_UNKNOWN
  | .R4G4B4A4 => DXGI_UNKNOWN
  | .B4G4R4A4 => DXGI_UNKNOWN
  | .B5G6R5 => DXGI_UNKNOWN
  | .R5G5B5A1 => DXGI_UNKNOWN
  | .B5G5R5A1 => DXGI_UNKNOWN
  | .R8G8B8 => DXGI_UNKNOWN
  | .B8G8R8 => DXGI_UNKNOWN
  | .A8B8G8R8 => DXGI_UNKNOWN
  | .A2R10G10B10 => DXGI_UNKNOWN
  | .R16G16B16 => DXGI_UNKNOWN
  | .ETC1 => DXGI_UNKNOWN
  | .ETC2_R8G8B8 => DXGI_UNKNOWN
  | .ETC2_R8G8B8A1 => DXGI_UNKNOWN
  | .ETC2_R8G8B8A8 => DXGI_UNKNOWN
  | .EAC_R11 => DXGI_UNKNOWN
  | .EAC_R11G11 => DXGI_UNKNOWN
  | .ASTC_4x4 => DXGI_UNKNOWN
  | .ASTC_5x4 => DXGI_UNKNOWN
  | .ASTC_5x5 => DXGI_UNKNOWN
  | .ASTC_6x5 => DXGI_UNKNOWN
  | .ASTC_6x6 => DXGI_UNKNOWN
  | .ASTC_8x5 => DXGI_UNKNOWN
  | .ASTC_8x6 => DXGI_UNKNOWN
  | .ASTC_8x8 => DXGI_UNKNOWN
  | .ASTC_10x5 => DXGI_UNKNOWN
  | .ASTC_10x6 => DXGI_UNKNOWN
  | .ASTC_10x8 => DXGI_UNKNOWN
  | .ASTC_10x10 => DXGI_UNKNOWN
  | .ASTC_12x10 => DXGI_UNKNOWN
  | .ASTC_12x12 => DXGI_UNKNOWN
  | .PVRTC1_RGB_2BPP => DXGI_UNKNOWN
  | .PVRTC1_RGBA_2BPP => DXGI_UNKNOWN
  | .PVRTC1_RGB_4BPP => DXGI_UNKNOWN
  | .PVRTC1_RGBA_4BPP => DXGI_UNKNOWN
  | .PVRTC2_RGBA_2BPP => DXGI_UNKNOWN
  | .PVRTC2_RGBA_4BPP => DXGI_UNKNOWN

/-! ### PVR

`PvrChannelType`, lib/src/SavePvr.cpp:32-50. -/

abbrev PVR_UByteN : Nat := 0
abbrev PVR_SByteN : Nat := 1
abbrev PVR_UByte : Nat := 2
abbrev PVR_SByte : Nat := 3
abbrev PVR_UShortN : Nat := 4
abbrev PVR_SShortN : Nat := 5
abbrev PVR_UShort : Nat := 6
abbrev PVR_SShort : Nat := 7
abbrev PVR_UIntN : Nat := 8
abbrev PVR_SIntN : Nat := 9
abbrev PVR_UInt : Nat := 10
abbrev PVR_SInt : Nat := 11
abbrev PVR_Float : Nat := 12
abbrev PVR_UFloat : Nat := 13

/-! `PvrSpecialFormat`, lib/src/SavePvr.cpp:52-107. -/

abbrev PVRF_PVRTC_2bppRGB : Nat := 0
abbrev PVRF_PVRTC_2bppRGBA : Nat := 1
abbrev PVRF_PVRTC_4bppRGB : Nat := 2
abbrev PVRF_PVRTC_4bppRGBA : Nat := 3
abbrev PVRF_PVRTC2_2bpp : Nat := 4
abbrev PVRF_PVRTC2_4bpp : Nat := 5
abbrev PVRF_ETC1 : Nat := 6
abbrev PVRF_BC1 : Nat := 7
abbrev PVRF_DXT2 : Nat := 8
abbrev PVRF_BC2 : Nat := 9
abbrev PVRF_DXT4 : Nat := 10
abbrev PVRF_BC3 : Nat := 11
abbrev PVRF_BC4 : Nat := 12
abbrev PVRF_BC5 : Nat := 13
abbrev PVRF_BC6 : Nat := 14
abbrev PVRF_BC7 : Nat := 15
abbrev PVRF_R9G9B9E5_UFloat : Nat := 19
abbrev PVRF_ETC2_RGB : Nat := 22
abbrev PVRF_ETC2_RGBA : Nat := 23
abbrev PVRF_ETC2_RGB_A1 : Nat := 24
abbrev PVRF_EAC_R11 : Nat := 25
abbrev PVRF_EAC_RG11 : Nat := 26
abbrev PVRF_ASTC_4x4 : Nat := 27
abbrev PVRF_ASTC_5x4 : Nat := 28
abbrev PVRF_ASTC_5x5 : Nat := 29
abbrev PVRF_ASTC_6x5 : Nat := 30
abbrev PVRF_ASTC_6x6 : Nat := 31
abbrev PVRF_ASTC_8x5 : Nat := 32
abbrev PVRF_ASTC_8x6 : Nat := 33
abbrev PVRF_ASTC_8x8 : Nat := 34
abbrev PVRF_ASTC_10x5 : Nat := 35
abbrev PVRF_ASTC_10x6 : Nat := 36
abbrev PVRF_ASTC_10x8 : Nat := 37
abbrev PVRF_ASTC_10x10 : Nat := 38
abbrev PVRF_ASTC_12x10 : Nat := 39
abbrev PVRF_ASTC_12x12 : Nat := 40

/-- `PVR_GENERIC_FORMAT`, lib/src/SavePvr.cpp:23-27. -/
def pvrGeneric (c0 b0 c1 b1 c2 b2 c3 b3 : Nat) : Nat :=
  c0 ||| (c1 <<< 8) ||| (c2 <<< 16) ||| (c3 <<< 24) |||
    (b0 <<< 32) ||| (b1 <<< 40) ||| (b2 <<< 48) ||| (b3 <<< 56)

/-- `getChannelType`, lib/src/SavePvr.cpp:109-268. -/
def pvrChannelType (f : Format) (t : TType) : Nat :=
  match t with
  | .UNorm => match f with
    | .R4G4 | .R8 | .R8G8 | .R8G8B8 | .B8G8R8 | .R8G8B8A8 | .B8G8R8A8 | .A8B8G8R8 | .BC4 | .BC5 => PVR_UByteN
    | .R4G4B4A4 | .B4G4R4A4 | .A4R4G4B4 | .R5G6B5 | .B5G6R5 | .R5G5B5A1 | .B5G5R5A1 | .A1R5G5B5
    | .R16 | .R16G16 | .R16G16B16 | .R16G16B16A16 | .EAC_R11 | .EAC_R11G11 => PVR_UShortN
    | .A2R10G10B10 | .A2B10G10R10 | .R32 | .R32G32 | .R32G32B32 | .R32G32B32A32 => PVR_UIntN
    | _ => PVR_UByteN
  | .SNorm => match f with
    | .R4G4 | .R8 | .R8G8 | .R8G8B8 | .B8G8R8 | .R8G8B8A8 | .B8G8R8A8 | .A8B8G8R8 | .BC4 | .BC5 => PVR_SByteN
    | .R4G4B4A4 | .B4G4R4A4 | .A4R4G4B4 | .R5G6B5 | .B5G6R5 | .R5G5B5A1 | .B5G5R5A1 | .A1R5G5B5
    | .R16 | .R16G16 | .R16G16B16 | .R16G16B16A16 | .EAC_R11 | .EAC_R11G11 => PVR_SShortN
    | .A2R10G10B10 | .A2B10G10R10 | .R32 | .R32G32 | .R32G32B32 | .R32G32B32A32 => PVR_SIntN
    | _ => PVR_SByteN
  | .UInt => match f with
    | .R4G4 | .R8 | .R8G8 | .R8G8B8 | .B8G8R8 | .R8G8B8A8 | .B8G8R8A8 | .A8B8G8R8 => PVR_UByte
    | .R4G4B4A4 | .B4G4R4A4 | .A4R4G4B4 | .R5G6B5 | .B5G6R5 | .R5G5B5A1 | .B5G5R5A1 | .A1R5G5B5
    | .R16 | .R16G16 | .R16G16B16 | .R16G16B16A16 => PVR_UShort
    | .A2R10G10B10 | .A2B10G10R10 | .R32 | .R32G32 | .R32G32B32 | .R32G32B32A32 => PVR_UInt
    | _ => PVR_UByte
  | .Int => match f with
    | .R4G4 | .R8 | .R8G8 | .R8G8B8 | .B8G8R8 | .R8G8B8A8 | .B8G8R8A8 | .A8B8G8R8 => PVR_SByte
    | .R4G4B4A4 | .B4G4R4A4 | .A4R4G4B4 | .R5G6B5 | .B5G6R5 | .R5G5B5A1 | .B5G5R5A1 | .A1R5G5B5
    | .R16 | .R16G16 | .R16G16B16 | .R16G16B16A16 => PVR_SShort
    | .A2R10G10B10 | .A2B10G10R10 | .R32 | .R32G32 | .R32G32B32 | .R32G32B32A32 => PVR_SInt
    | _ => PVR_UByte
  | .UFloat => PVR_UFloat
  | .Float => PVR_Float

/-- `getPixelFormat`, lib/src/SavePvr.cpp:270-470: `none` is `return false`. -/
def pvrPixelFormat (f : Format) (al : Alpha) : Option Nat :=
  match f with
  | .Unknown => none
  | .R4G4 => some (pvrGeneric 'r'.toNat 4 'g'.toNat 4 0 0 0 0)
  | .R4G4B4A4 => some (pvrGeneric 'r'.toNat 4 'g'.toNat 4 'b'.toNat 4 'a'.toNat 4)
  | .B4G4R4A4 => some (pvrGeneric 'b'.toNat 4 'g'.toNat 4 'r'.toNat 4 'a'.toNat 4)
  | .A4R4G4B4 => some (pvrGeneric 'a'.toNat 4 'r'.toNat 4 'g'.toNat 4 'b'.toNat 4)
  | .R5G6B5 => some (pvrGeneric 'r'.toNat 5 'g'.toNat 6 'b'.toNat 5 0 0)
  | .B5G6R5 => some (pvrGeneric 'b'.toNat 5 'g'.toNat 6 'r'.toNat 5 0 0)
  | .R5G5B5A1 => some (pvrGeneric 'r'.toNat 5 'g'.toNat 5 'b'.toNat 5 'a'.toNat 1)
  | .B5G5R5A1 => some (pvrGeneric 'b'.toNat 5 'g'.toNat 5 'r'.toNat 5 'a'.toNat 1)
  | .A1R5G5B5 => some (pvrGeneric 'a'.toNat 1 'r'.toNat 5 'g'.toNat 5 'b'.toNat 5)
  | .R8 => some (pvrGeneric 'r'.toNat 8 0 0 0 0 0 0)
  | .R8G8 => some (pvrGeneric 'r'.toNat 8 'g'.toNat 8 0 0 0 0)
  | .R8G8B8 => some (pvrGeneric 'r'.toNat 8 'g'.toNat 8 'b'.toNat 8 0 0)
  | .B8G8R8 => some (pvrGeneric 'b'.toNat 8 'g'.toNat 8 'r'.toNat 8 0 0)
  | .R8G8B8A8 => some (pvrGeneric 'r'.toNat 8 'g'.toNat 8 'b'.toNat 8 'a'.toNat 8)
  | .B8G8R8A8 => some (pvrGeneric 'b'.toNat 8 'g'.toNat 8 'r'.toNat 8 'a'.toNat 8)
  | .A8B8G8R8 => some (pvrGeneric 'a'.toNat 8 'b'.toNat 8 'g'.toNat 8 'r'.toNat 8)
  | .A2R10G10B10 => some (pvrGeneric 'a'.toNat 2 'r'.toNat 10 'g'.toNat 10 'b'.toNat 10)
  | .A2B10G10R10 => some (pvrGeneric 'a'.toNat 2 'b'.toNat 10 'g'.toNat 10 'r'.toNat 10)
  | .R16 => some (pvrGeneric 'r'.toNat 16 0 0 0 0 0 0)
  | .R16G16 => some (pvrGeneric 'r'.toNat 16 'g'.toNat 16 0 0 0 0)
  | .R16G16B16 => some (pvrGeneric 'r'.toNat 16 'g'.toNat 16 'b'.toNat 16 0 0)
  | .R16G16B16A16 => some (pvrGeneric 'r'.toNat 16 'g'.toNat 16 'b'.toNat 16 'a'.toNat 16)
  | .R32 => some (pvrGeneric 'r'.toNat 32 0 0 0 0 0 0)
  | .R32G32 => some (pvrGeneric 'r'.toNat 32 'g'.toNat 32 0 0 0 0)
  | .R32G32B32 => some (pvrGeneric 'r'.toNat 32 'g'.toNat 32 'b'.toNat 32 0 0)
  | .R32G32B32A32 => some (pvrGeneric 'r'.toNat 32 'g'.toNat 32 'b'.toNat 32 'a'.toNat 32)
  | .B10G11R11_UFloat => some (pvrGeneric 'b'.toNat 10 'g'.toNat 11 'r'.toNat 11 0 0)
  | .E5B9G9R9_UFloat => some (PVRF_R9G9B9E5_UFloat)
  | .BC1_RGB => some (PVRF_BC1)
  | .BC1_RGBA => some (PVRF_BC1)
  | .BC2 => some (if al = .PreMultiplied then PVRF_DXT2 else PVRF_BC2)
  | .BC3 => some (if al = .PreMultiplied then PVRF_DXT4 else PVRF_BC3)
  | .BC4 => some (PVRF_BC4)
  | .BC5 => some (PVRF_BC5)
  | .BC6H => some (PVRF_BC6)
  | .BC7 => some (PVRF_BC7)
  | .ETC1 => some (PVRF_ETC1)
  | .ETC2_R8G8B8 => some (PVRF_ETC2_RGB)
  | .ETC2_R8G8B8A1 => some (PVRF_ETC2_RGB_A1)
  | .ETC2_R8G8B8A8 => some (PVRF_ETC2_RGBA)
  | .EAC_R11 => some (PVRF_EAC_R11)
  | .EAC_R11G11 => some (PVRF_EAC_RG11)
  | .ASTC_4x4 => some (PVRF_ASTC_4x4)
  | .ASTC_5x4 => some (PVRF_ASTC_5x4)
  | .ASTC_5x5 => some (PVRF_ASTC_5x5)
  | .ASTC_6x5 => some (PVRF_ASTC_6x5)
  | .ASTC_6x6 => some (PVRF_ASTC_6x6)
  | .ASTC_8x5 => some (PVRF_ASTC_8x5)
  | .ASTC_8x6 => some (PVRF_ASTC_8x6)
  | .ASTC_8x8 => some (PVRF_ASTC_8x8)
  | .ASTC_10x5 => some (PVRF_ASTC_10x5)
  | .ASTC_10x6 => some (PVRF_ASTC_10x6)
  | .ASTC_10x8 => some (PVRF_ASTC_10x8)
  | .ASTC_10x10 => some (PVRF_ASTC_10x10)
  | .ASTC_12x10 => some (PVRF_ASTC_12x10)
  | .ASTC_12x12 => some (PVRF_ASTC_12x12)
  | .PVRTC1_RGB_2BPP => some (PVRF_PVRTC_2bppRGB)
  | .PVRTC1_RGBA_2BPP => some (PVRF_PVRTC_2bppRGBA)
  | .PVRTC1_RGB_4BPP => some (PVRF_PVRTC_4bppRGB)
  | .PVRTC1_RGBA_4BPP => some (PVRF_PVRTC_4bppRGBA)
  | .PVRTC2_RGBA_2BPP => some (PVRF_PVRTC2_2bpp)
  | .PVRTC2_RGBA_4BPP => some (PVRF_PVRTC2_4bpp)

end Cuttlefish
