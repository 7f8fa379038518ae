/-
Enumerations and constant tables of `Texture` (format validity, block geometry).

The tables are kept as lists indexed by the numeric value of the enumerator, exactly
like the C++ arrays, so that a row in the wrong place is visible to the proofs.
-/

namespace Cuttlefish

/-- Outcome of a C++ computation: a value, or undefined behaviour. -/
inductive Res (α : Type _) where
  | ok (a : α)
  | ub
  deriving DecidableEq, Repr

namespace Res
/-- Sequencing: undefined behaviour is absorbing. -/
def bind {α β : Type _} (r : Res α) (f : α → Res β) : Res β :=
  match r with
  | ok a => f a
  | ub => ub
instance : Monad Res where
  pure := ok
  bind := bind
@[simp] theorem pure_eq {α : Type _} (a : α) : (pure a : Res α) = ok a := rfl
@[simp] theorem ok_bind {α β : Type _} (a : α) (f : α → Res β) : (ok a >>= f) = f a := rfl
@[simp] theorem ub_bind {α β : Type _} (f : α → Res β) : ((ub : Res α) >>= f) = ub := rfl
end Res

/-- `Texture::Format`, lib/include/cuttlefish/Texture.h:59-130, in declaration order. -/
inductive Format where
  | Unknown
  | R4G4
  | R4G4B4A4
  | B4G4R4A4
  | A4R4G4B4
  | R5G6B5
  | B5G6R5
  | R5G5B5A1
  | B5G5R5A1
  | A1R5G5B5
  | R8
  | R8G8
  | R8G8B8
  | B8G8R8
  | R8G8B8A8
  | B8G8R8A8
  | A8B8G8R8
  | A2R10G10B10
  | A2B10G10R10
  | R16
  | R16G16
  | R16G16B16
  | R16G16B16A16
  | R32
  | R32G32
  | R32G32B32
  | R32G32B32A32
  | B10G11R11_UFloat
  | E5B9G9R9_UFloat
  | BC1_RGB
  | BC1_RGBA
  | BC2
  | BC3
  | BC4
  | BC5
  | BC6H
  | BC7
  | ETC1
  | ETC2_R8G8B8
  | ETC2_R8G8B8A1
  | ETC2_R8G8B8A8
  | EAC_R11
  | EAC_R11G11
  | ASTC_4x4
  | ASTC_5x4
  | ASTC_5x5
  | ASTC_6x5
  | ASTC_6x6
  | ASTC_8x5
  | ASTC_8x6
  | ASTC_8x8
  | ASTC_10x5
  | ASTC_10x6
  | ASTC_10x8
  | ASTC_10x10
  | ASTC_12x10
  | ASTC_12x12
  | PVRTC1_RGB_2BPP
  | PVRTC1_RGBA_2BPP
  | PVRTC1_RGB_4BPP
  | PVRTC1_RGBA_4BPP
  | PVRTC2_RGBA_2BPP
  | PVRTC2_RGBA_4BPP
  deriving DecidableEq, Repr, Inhabited

/-- `static_cast<unsigned int>(format)`: enumerators are numbered in declaration order
(lib/include/cuttlefish/Texture.h:59-130). -/
def Format.toNat : Format → Nat
  | .Unknown => 0
  | .R4G4 => 1
  | .R4G4B4A4 => 2
  | .B4G4R4A4 => 3
  | .A4R4G4B4 => 4
  | .R5G6B5 => 5
  | .B5G6R5 => 6
  | .R5G5B5A1 => 7
  | .B5G5R5A1 => 8
  | .A1R5G5B5 => 9
  | .R8 => 10
  | .R8G8 => 11
  | .R8G8B8 => 12
  | .B8G8R8 => 13
  | .R8G8B8A8 => 14
  | .B8G8R8A8 => 15
  | .A8B8G8R8 => 16
  | .A2R10G10B10 => 17
  | .A2B10G10R10 => 18
  | .R16 => 19
  | .R16G16 => 20
  | .R16G16B16 => 21
  | .R16G16B16A16 => 22
  | .R32 => 23
  | .R32G32 => 24
  | .R32G32B32 => 25
  | .R32G32B32A32 => 26
  | .B10G11R11_UFloat => 27
  | .E5B9G9R9_UFloat => 28
  | .BC1_RGB => 29
  | .BC1_RGBA => 30
  | .BC2 => 31
  | .BC3 => 32
  | .BC4 => 33
  | .BC5 => 34
  | .BC6H => 35
  | .BC7 => 36
  | .ETC1 => 37
  | .ETC2_R8G8B8 => 38
  | .ETC2_R8G8B8A1 => 39
  | .ETC2_R8G8B8A8 => 40
  | .EAC_R11 => 41
  | .EAC_R11G11 => 42
  | .ASTC_4x4 => 43
  | .ASTC_5x4 => 44
  | .ASTC_5x5 => 45
  | .ASTC_6x5 => 46
  | .ASTC_6x6 => 47
  | .ASTC_8x5 => 48
  | .ASTC_8x6 => 49
  | .ASTC_8x8 => 50
  | .ASTC_10x5 => 51
  | .ASTC_10x6 => 52
  | .ASTC_10x8 => 53
  | .ASTC_10x10 => 54
  | .ASTC_12x10 => 55
  | .ASTC_12x12 => 56
  | .PVRTC1_RGB_2BPP => 57
  | .PVRTC1_RGBA_2BPP => 58
  | .PVRTC1_RGB_4BPP => 59
  | .PVRTC1_RGBA_4BPP => 60
  | .PVRTC2_RGBA_2BPP => 61
  | .PVRTC2_RGBA_4BPP => 62

/-- All formats, in declaration order (lib/include/cuttlefish/Texture.h:59-130). -/
def Format.all : List Format :=
  [.Unknown, .R4G4, .R4G4B4A4, .B4G4R4A4, .A4R4G4B4, .R5G6B5,
   .B5G6R5, .R5G5B5A1, .B5G5R5A1, .A1R5G5B5, .R8, .R8G8,
   .R8G8B8, .B8G8R8, .R8G8B8A8, .B8G8R8A8, .A8B8G8R8, .A2R10G10B10,
   .A2B10G10R10, .R16, .R16G16, .R16G16B16, .R16G16B16A16, .R32,
   .R32G32, .R32G32B32, .R32G32B32A32, .B10G11R11_UFloat, .E5B9G9R9_UFloat, .BC1_RGB,
   .BC1_RGBA, .BC2, .BC3, .BC4, .BC5, .BC6H,
   .BC7, .ETC1, .ETC2_R8G8B8, .ETC2_R8G8B8A1, .ETC2_R8G8B8A8, .EAC_R11,
   .EAC_R11G11, .ASTC_4x4, .ASTC_5x4, .ASTC_5x5, .ASTC_6x5, .ASTC_6x6,
   .ASTC_8x5, .ASTC_8x6, .ASTC_8x8, .ASTC_10x5, .ASTC_10x6, .ASTC_10x8,
   .ASTC_10x10, .ASTC_12x10, .ASTC_12x12, .PVRTC1_RGB_2BPP, .PVRTC1_RGBA_2BPP, .PVRTC1_RGB_4BPP,
   .PVRTC1_RGBA_4BPP, .PVRTC2_RGBA_2BPP, .PVRTC2_RGBA_4BPP]

/-- `Texture::Type`, lib/include/cuttlefish/Texture.h:135-143. -/
inductive TType where
  | UNorm | SNorm | UInt | Int | UFloat | Float
  deriving DecidableEq, Repr, Inhabited

/-- `static_cast<unsigned int>(type)`, lib/include/cuttlefish/Texture.h:135-143. -/
def TType.toNat : TType → Nat
  | .UNorm => 0 | .SNorm => 1 | .UInt => 2 | .Int => 3 | .UFloat => 4 | .Float => 5

/-- All types (lib/include/cuttlefish/Texture.h:135-143). -/
def TType.all : List TType := [.UNorm, .SNorm, .UInt, .Int, .UFloat, .Float]

/-- `Texture::Dimension`, lib/include/cuttlefish/Texture.h:48-54. -/
inductive Dimension where
  | Dim1D | Dim2D | Dim3D | Cube
  deriving DecidableEq, Repr, Inhabited

/-- `Texture::CubeFace`, lib/include/cuttlefish/Texture.h:148-156. -/
inductive CubeFace where
  | PosX | NegX | PosY | NegY | PosZ | NegZ
  deriving DecidableEq, Repr, Inhabited

/-- `static_cast<unsigned int>(face)`, lib/include/cuttlefish/Texture.h:148-156. -/
def CubeFace.toNat : CubeFace → Nat
  | .PosX => 0 | .NegX => 1 | .PosY => 2 | .NegY => 3 | .PosZ => 4 | .NegZ => 5

/-- `Texture::Alpha`, lib/include/cuttlefish/Texture.h:161-167. -/
inductive Alpha where
  | None | Standard | PreMultiplied | Encoded
  deriving DecidableEq, Repr, Inhabited

/-- `Texture::MipReplacement`, lib/include/cuttlefish/Texture.h:172-176. -/
inductive MipReplacement where
  | Once | Continue
  deriving DecidableEq, Repr, Inhabited

/-- `Texture::FileType`, lib/include/cuttlefish/Texture.h:193-199. -/
inductive FileType where
  | Auto | DDS | KTX | PVR
  deriving DecidableEq, Repr, Inhabited

/-- `Texture::SaveResult`, lib/include/cuttlefish/Texture.h:204-211. -/
inductive SaveResult where
  | Success | Invalid | UnknownFormat | Unsupported | WriteError
  deriving DecidableEq, Repr, Inhabited

/-- `ColorSpace`, lib/include/cuttlefish/Color.h:40-44. -/
inductive ColorSpace where
  | Linear | sRGB
  deriving DecidableEq, Repr, Inhabited

/-- `Texture::ColorMask`, lib/include/cuttlefish/Texture.h:216-237. -/
structure ColorMask where
  r : Bool := true
  g : Bool := true
  b : Bool := true
  a : Bool := true
  deriving DecidableEq, Repr, Inhabited

/-- The build configuration: the `CUTTLEFISH_HAS_*` macros (lib/src/Texture.cpp:55-77). -/
structure Features where
  s3tc : Bool
  etc : Bool
  astc : Bool
  pvrtc : Bool
  deriving DecidableEq, Repr

/-- `formatCount`, lib/src/Texture.cpp:52. -/
def formatCount : Nat := Format.toNat .PVRTC2_RGBA_4BPP + 1
/-- `typeCount`, lib/src/Texture.cpp:53. -/
def typeCount : Nat := TType.toNat .Float + 1

/-- The static `valid` table of `Texture::isFormatValid`, lib/src/Texture.cpp:320-391. -/
def validTable (c : Features) : List (List Bool) := [
  [false, false, false, false, false, false], -- Unknown
  [true, false, false, false, false, false], -- R4G4
  [true, false, false, false, false, false], -- R4G4B4A4
  [true, false, false, false, false, false], -- B4G4R4A4
  [true, false, false, false, false, false], -- A4R4G4B4
  [true, false, false, false, false, false], -- R5G6B5
  [true, false, false, false, false, false], -- B5G6R5
  [true, false, false, false, false, false], -- R5G5B5A1
  [true, false, false, false, false, false], -- B5G5R5A1
  [true, false, false, false, false, false], -- A1R5G5B5
  [true, true, true, true, false, false], -- R8
  [true, true, true, true, false, false], -- R8G8
  [true, true, true, true, false, false], -- R8G8B8
  [true, false, false, false, false, false], -- B8G8R8
  [true, true, true, true, false, false], -- R8G8B8A8
  [true, false, false, false, false, false], -- B8G8R8A8
  [true, false, false, false, false, false], -- A8B8G8R8
  [true, false, true, false, false, false], -- A2R10G10B10
  [true, false, true, false, false, false], -- A2B10G10R10
  [true, true, true, true, false, true], -- R16
  [true, true, true, true, false, true], -- R16G16
  [true, true, true, true, false, true], -- R16G16B16
  [true, true, true, true, false, true], -- R16G16B16A16
  [false, false, true, true, false, true], -- R32
  [false, false, true, true, false, true], -- R32G32
  [false, false, true, true, false, true], -- R32G32B32
  [false, false, true, true, false, true], -- R32G32B32A32
  [false, false, false, false, true, false], -- B10G11R11_UFloat
  [false, false, false, false, true, false], -- E5B9G9R9_UFloat
  [c.s3tc, false, false, false, false, false], -- BC1_RGB
  [c.s3tc, false, false, false, false, false], -- BC1_RGBA
  [c.s3tc, false, false, false, false, false], -- BC2
  [c.s3tc, false, false, false, false, false], -- BC3
  [c.s3tc, c.s3tc, false, false, false, false], -- BC4
  [c.s3tc, c.s3tc, false, false, false, false], -- BC5
  [false, false, false, false, c.s3tc, c.s3tc], -- BC6H
  [c.s3tc, false, false, false, false, false], -- BC7
  [c.etc, false, false, false, false, false], -- ETC1
  [c.etc, false, false, false, false, false], -- ETC2_R8G8B8
  [c.etc, false, false, false, false, false], -- ETC2_R8G8B8A1
  [c.etc, false, false, false, false, false], -- ETC2_R8G8B8A8
  [c.etc, c.etc, false, false, false, false], -- EAC_R11
  [c.etc, c.etc, false, false, false, false], -- EAC_R11G11
  [c.astc, false, false, false, c.astc, false], -- ASTC_4x4
  [c.astc, false, false, false, c.astc, false], -- ASTC_5x4
  [c.astc, false, false, false, c.astc, false], -- ASTC_5x5
  [c.astc, false, false, false, c.astc, false], -- ASTC_6x5
  [c.astc, false, false, false, c.astc, false], -- ASTC_6x6
  [c.astc, false, false, false, c.astc, false], -- ASTC_8x5
  [c.astc, false, false, false, c.astc, false], -- ASTC_8x6
  [c.astc, false, false, false, c.astc, false], -- ASTC_8x8
  [c.astc, false, false, false, c.astc, false], -- ASTC_10x5
  [c.astc, false, false, false, c.astc, false], -- ASTC_10x6
  [c.astc, false, false, false, c.astc, false], -- ASTC_10x8
  [c.astc, false, false, false, c.astc, false], -- ASTC_10x10
  [c.astc, false, false, false, c.astc, false], -- ASTC_12x10
  [c.astc, false, false, false, c.astc, false], -- ASTC_12x12
  [c.pvrtc, false, false, false, false, false], -- PVRTC1_RGB_2BPP
  [c.pvrtc, false, false, false, false, false], -- PVRTC1_RGBA_2BPP
  [c.pvrtc, false, false, false, false, false], -- PVRTC1_RGB_4BPP
  [c.pvrtc, false, false, false, false, false], -- PVRTC1_RGBA_4BPP
  [c.pvrtc, false, false, false, false, false], -- PVRTC2_RGBA_2BPP
  [c.pvrtc, false, false, false, false, false] -- PVRTC2_RGBA_4BPP
  ]

/-- `Texture::isFormatValid(Format, Type)`, lib/src/Texture.cpp:393-400, on raw enumerator
values (a caller may cast any integer to the enumerations).  Indexing the table outside
its bounds would be undefined behaviour. -/
def isFormatValidRaw (c : Features) (f t : Nat) : Res Bool :=
  if f ≥ formatCount ∨ t ≥ typeCount then .ok false
  else match (validTable c)[f]? with
    | none => .ub
    | some row => match row[t]? with
      | none => .ub
      | some b => .ok b

/-- `Texture::isFormatValid(Format, Type)` on proper enumerators, lib/src/Texture.cpp:318-401. -/
def isFormatValid (c : Features) (f : Format) (t : TType) : Bool :=
  match isFormatValidRaw c f.toNat t.toNat with
  | .ok b => b
  | .ub => false

/-- The `sizes` table of `Texture::blockWidth`, lib/src/Texture.cpp:529-609. -/
def blockWidthTable : List Nat := [
  0, -- Unknown
  1, -- R4G4
  1, -- R4G4B4A4
  1, -- B4G4R4A4
  1, -- A4R4G4B4
  1, -- R5G6B5
  1, -- B5G6R5
  1, -- R5G5B5A1
  1, -- B5G5R5A1
  1, -- A1R5G5B5
  1, -- R8
  1, -- R8G8
  1, -- R8G8B8
  1, -- B8G8R8
  1, -- R8G8B8A8
  1, -- B8G8R8A8
  1, -- A8B8G8R8
  1, -- A2R10G10B10
  1, -- A2B10G10R10
  1, -- R16
  1, -- R16G16
  1, -- R16G16B16
  1, -- R16G16B16A16
  1, -- R32
  1, -- R32G32
  1, -- R32G32B32
  1, -- R32G32B32A32
  1, -- B10G11R11_UFloat
  1, -- E5B9G9R9_UFloat
  4, -- BC1_RGB
  4, -- BC1_RGBA
  4, -- BC2
  4, -- BC3
  4, -- BC4
  4, -- BC5
  4, -- BC6H
  4, -- BC7
  4, -- ETC1
  4, -- ETC2_R8G8B8
  4, -- ETC2_R8G8B8A1
  4, -- ETC2_R8G8B8A8
  4, -- EAC_R11
  4, -- EAC_R11G11
  4, -- ASTC_4x4
  5, -- ASTC_5x4
  5, -- ASTC_5x5
  6, -- ASTC_6x5
  6, -- ASTC_6x6
  8, -- ASTC_8x5
  8, -- ASTC_8x6
  8, -- ASTC_8x8
  10, -- ASTC_10x5
  10, -- ASTC_10x6
  10, -- ASTC_10x8
  10, -- ASTC_10x10
  12, -- ASTC_12x10
  12, -- ASTC_12x12
  8, -- PVRTC1_RGB_2BPP
  8, -- PVRTC1_RGBA_2BPP
  4, -- PVRTC1_RGB_4BPP
  4, -- PVRTC1_RGBA_4BPP
  8, -- PVRTC2_RGBA_2BPP
  4 -- PVRTC2_RGBA_4BPP
  ]

/-- `Texture::blockWidth`, lib/src/Texture.cpp:529-609, on a raw enumerator value. -/
def blockWidthRaw (f : Nat) : Res Nat :=
  if f ≥ formatCount then .ok 0
  else match blockWidthTable[f]? with
    | none => .ub
    | some n => .ok n

/-- `Texture::blockWidth` on a proper enumerator, lib/src/Texture.cpp:529-609. -/
def blockWidth (f : Format) : Nat :=
  match blockWidthRaw f.toNat with
  | .ok n => n
  | .ub => 0

/-- The `sizes` table of `Texture::blockHeight`, lib/src/Texture.cpp:611-691. -/
def blockHeightTable : List Nat := [
  0, -- Unknown
  1, -- R4G4
  1, -- R4G4B4A4
  1, -- B4G4R4A4
  1, -- A4R4G4B4
  1, -- R5G6B5
  1, -- B5G6R5
  1, -- R5G5B5A1
  1, -- B5G5R5A1
  1, -- A1R5G5B5
  1, -- R8
  1, -- R8G8
  1, -- R8G8B8
  1, -- B8G8R8
  1, -- R8G8B8A8
  1, -- B8G8R8A8
  1, -- A8B8G8R8
  1, -- A2R10G10B10
  1, -- A2B10G10R10
  1, -- R16
  1, -- R16G16
  1, -- R16G16B16
  1, -- R16G16B16A16
  1, -- R32
  1, -- R32G32
  1, -- R32G32B32
  1, -- R32G32B32A32
  1, -- B10G11R11_UFloat
  1, -- E5B9G9R9_UFloat
  4, -- BC1_RGB
  4, -- BC1_RGBA
  4, -- BC2
  4, -- BC3
  4, -- BC4
  4, -- BC5
  4, -- BC6H
  4, -- BC7
  4, -- ETC1
  4, -- ETC2_R8G8B8
  4, -- ETC2_R8G8B8A1
  4, -- ETC2_R8G8B8A8
  4, -- EAC_R11
  4, -- EAC_R11G11
  4, -- ASTC_4x4
  4, -- ASTC_5x4
  5, -- ASTC_5x5
  5, -- ASTC_6x5
  6, -- ASTC_6x6
  5, -- ASTC_8x5
  6, -- ASTC_8x6
  8, -- ASTC_8x8
  5, -- ASTC_10x5
  6, -- ASTC_10x6
  8, -- ASTC_10x8
  10, -- ASTC_10x10
  10, -- ASTC_12x10
  12, -- ASTC_12x12
  4, -- PVRTC1_RGB_2BPP
  4, -- PVRTC1_RGBA_2BPP
  4, -- PVRTC1_RGB_4BPP
  4, -- PVRTC1_RGBA_4BPP
  4, -- PVRTC2_RGBA_2BPP
  4 -- PVRTC2_RGBA_4BPP
  ]

/-- `Texture::blockHeight`, lib/src/Texture.cpp:611-691, on a raw enumerator value. -/
def blockHeightRaw (f : Nat) : Res Nat :=
  if f ≥ formatCount then .ok 0
  else match blockHeightTable[f]? with
    | none => .ub
    | some n => .ok n

/-- `Texture::blockHeight` on a proper enumerator, lib/src/Texture.cpp:611-691. -/
def blockHeight (f : Format) : Nat :=
  match blockHeightRaw f.toNat with
  | .ok n => n
  | .ub => 0

/-- The `sizes` table of `Texture::blockSize`, lib/src/Texture.cpp:693-773. -/
def blockSizeTable : List Nat := [
  0, -- Unknown
  1, -- R4G4
  2, -- R4G4B4A4
  2, -- B4G4R4A4
  2, -- A4R4G4B4
  2, -- R5G6B5
  2, -- B5G6R5
  2, -- R5G5B5A1
  2, -- B5G5R5A1
  2, -- A1R5G5B5
  1, -- R8
  2, -- R8G8
  3, -- R8G8B8
  3, -- B8G8R8
  4, -- R8G8B8A8
  4, -- B8G8R8A8
  4, -- A8B8G8R8
  4, -- A2R10G10B10
  4, -- A2B10G10R10
  2, -- R16
  4, -- R16G16
  6, -- R16G16B16
  8, -- R16G16B16A16
  4, -- R32
  8, -- R32G32
  12, -- R32G32B32
  16, -- R32G32B32A32
  4, -- B10G11R11_UFloat
  4, -- E5B9G9R9_UFloat
  8, -- BC1_RGB
  8, -- BC1_RGBA
  16, -- BC2
  16, -- BC3
  8, -- BC4
  16, -- BC5
  16, -- BC6H
  16, -- BC7
  8, -- ETC1
  8, -- ETC2_R8G8B8
  8, -- ETC2_R8G8B8A1
  16, -- ETC2_R8G8B8A8
  8, -- EAC_R11
  16, -- EAC_R11G11
  16, -- ASTC_4x4
  16, -- ASTC_5x4
  16, -- ASTC_5x5
  16, -- ASTC_6x5
  16, -- ASTC_6x6
  16, -- ASTC_8x5
  16, -- ASTC_8x6
  16, -- ASTC_8x8
  16, -- ASTC_10x5
  16, -- ASTC_10x6
  16, -- ASTC_10x8
  16, -- ASTC_10x10
  16, -- ASTC_12x10
  16, -- ASTC_12x12
  8, -- PVRTC1_RGB_2BPP
  8, -- PVRTC1_RGBA_2BPP
  8, -- PVRTC1_RGB_4BPP
  8, -- PVRTC1_RGBA_4BPP
  8, -- PVRTC2_RGBA_2BPP
  8 -- PVRTC2_RGBA_4BPP
  ]

/-- `Texture::blockSize`, lib/src/Texture.cpp:693-773, on a raw enumerator value. -/
def blockSizeRaw (f : Nat) : Res Nat :=
  if f ≥ formatCount then .ok 0
  else match blockSizeTable[f]? with
    | none => .ub
    | some n => .ok n

/-- `Texture::blockSize` on a proper enumerator, lib/src/Texture.cpp:693-773. -/
def blockSize (f : Format) : Nat :=
  match blockSizeRaw f.toNat with
  | .ok n => n
  | .ub => 0

/-- The `sizes` table of `Texture::minWidth`, lib/src/Texture.cpp:775-855. -/
def minWidthTable : List Nat := [
  0, -- Unknown
  1, -- R4G4
  1, -- R4G4B4A4
  1, -- B4G4R4A4
  1, -- A4R4G4B4
  1, -- R5G6B5
  1, -- B5G6R5
  1, -- R5G5B5A1
  1, -- B5G5R5A1
  1, -- A1R5G5B5
  1, -- R8
  1, -- R8G8
  1, -- R8G8B8
  1, -- B8G8R8
  1, -- R8G8B8A8
  1, -- B8G8R8A8
  1, -- A8B8G8R8
  1, -- A2R10G10B10
  1, -- A2B10G10R10
  1, -- R16
  1, -- R16G16
  1, -- R16G16B16
  1, -- R16G16B16A16
  1, -- R32
  1, -- R32G32
  1, -- R32G32B32
  1, -- R32G32B32A32
  1, -- B10G11R11_UFloat
  1, -- E5B9G9R9_UFloat
  4, -- BC1_RGB
  4, -- BC1_RGBA
  4, -- BC2
  4, -- BC3
  4, -- BC4
  4, -- BC5
  4, -- BC6H
  4, -- BC7
  4, -- ETC1
  4, -- ETC2_R8G8B8
  4, -- ETC2_R8G8B8A1
  4, -- ETC2_R8G8B8A8
  4, -- EAC_R11
  4, -- EAC_R11G11
  4, -- ASTC_4x4
  5, -- ASTC_5x4
  5, -- ASTC_5x5
  6, -- ASTC_6x5
  6, -- ASTC_6x6
  8, -- ASTC_8x5
  8, -- ASTC_8x6
  8, -- ASTC_8x8
  10, -- ASTC_10x5
  10, -- ASTC_10x6
  10, -- ASTC_10x8
  10, -- ASTC_10x10
  12, -- ASTC_12x10
  12, -- ASTC_12x12
  16, -- PVRTC1_RGB_2BPP
  16, -- PVRTC1_RGBA_2BPP
  8, -- PVRTC1_RGB_4BPP
  8, -- PVRTC1_RGBA_4BPP
  16, -- PVRTC2_RGBA_2BPP
  8 -- PVRTC2_RGBA_4BPP
  ]

/-- `Texture::minWidth`, lib/src/Texture.cpp:775-855, on a raw enumerator value. -/
def minWidthRaw (f : Nat) : Res Nat :=
  if f ≥ formatCount then .ok 0
  else match minWidthTable[f]? with
    | none => .ub
    | some n => .ok n

/-- `Texture::minWidth` on a proper enumerator, lib/src/Texture.cpp:775-855. -/
def minWidth (f : Format) : Nat :=
  match minWidthRaw f.toNat with
  | .ok n => n
  | .ub => 0

/-- The `sizes` table of `Texture::minHeight`, lib/src/Texture.cpp:857-937. -/
def minHeightTable : List Nat := [
  0, -- Unknown
  1, -- R4G4
  1, -- R4G4B4A4
  1, -- B4G4R4A4
  1, -- A4R4G4B4
  1, -- R5G6B5
  1, -- B5G6R5
  1, -- R5G5B5A1
  1, -- B5G5R5A1
  1, -- A1R5G5B5
  1, -- R8
  1, -- R8G8
  1, -- R8G8B8
  1, -- B8G8R8
  1, -- R8G8B8A8
  1, -- B8G8R8A8
  1, -- A8B8G8R8
  1, -- A2R10G10B10
  1, -- A2B10G10R10
  1, -- R16
  1, -- R16G16
  1, -- R16G16B16
  1, -- R16G16B16A16
  1, -- R32
  1, -- R32G32
  1, -- R32G32B32
  1, -- R32G32B32A32
  1, -- B10G11R11_UFloat
  1, -- E5B9G9R9_UFloat
  4, -- BC1_RGB
  4, -- BC1_RGBA
  4, -- BC2
  4, -- BC3
  4, -- BC4
  4, -- BC5
  4, -- BC6H
  4, -- BC7
  4, -- ETC1
  4, -- ETC2_R8G8B8
  4, -- ETC2_R8G8B8A1
  4, -- ETC2_R8G8B8A8
  4, -- EAC_R11
  4, -- EAC_R11G11
  4, -- ASTC_4x4
  4, -- ASTC_5x4
  5, -- ASTC_5x5
  5, -- ASTC_6x5
  6, -- ASTC_6x6
  5, -- ASTC_8x5
  6, -- ASTC_8x6
  8, -- ASTC_8x8
  5, -- ASTC_10x5
  6, -- ASTC_10x6
  8, -- ASTC_10x8
  10, -- ASTC_10x10
  10, -- ASTC_12x10
  12, -- ASTC_12x12
  8, -- PVRTC1_RGB_2BPP
  8, -- PVRTC1_RGBA_2BPP
  8, -- PVRTC1_RGB_4BPP
  8, -- PVRTC1_RGBA_4BPP
  8, -- PVRTC2_RGBA_2BPP
  8 -- PVRTC2_RGBA_4BPP
  ]

/-- `Texture::minHeight`, lib/src/Texture.cpp:857-937, on a raw enumerator value. -/
def minHeightRaw (f : Nat) : Res Nat :=
  if f ≥ formatCount then .ok 0
  else match minHeightTable[f]? with
    | none => .ub
    | some n => .ok n

/-- `Texture::minHeight` on a proper enumerator, lib/src/Texture.cpp:857-937. -/
def minHeight (f : Format) : Nat :=
  match minHeightRaw f.toNat with
  | .ok n => n
  | .ub => 0

/-- `Texture::hasNativeSRGB`, lib/src/Texture.cpp:421-465. -/
def hasNativeSRGB (f : Format) (t : TType) : Bool :=
  match f with
  | .R8G8B8
  | .B8G8R8
  | .R8G8B8A8
  | .B8G8R8A8
  | .A8B8G8R8
  | .BC1_RGB
  | .BC1_RGBA
  | .BC2
  | .BC3
  | .BC7
  | .ETC2_R8G8B8
  | .ETC2_R8G8B8A1
  | .ETC2_R8G8B8A8
  | .PVRTC1_RGB_2BPP
  | .PVRTC1_RGBA_2BPP
  | .PVRTC1_RGB_4BPP
  | .PVRTC1_RGBA_4BPP
  | .PVRTC2_RGBA_2BPP
  | .PVRTC2_RGBA_4BPP
  | .ASTC_4x4
  | .ASTC_5x4
  | .ASTC_5x5
  | .ASTC_6x5
  | .ASTC_6x6
  | .ASTC_8x5
  | .ASTC_8x6
  | .ASTC_8x8
  | .ASTC_10x5
  | .ASTC_10x6
  | .ASTC_10x8
  | .ASTC_10x10
  | .ASTC_12x10
  | .ASTC_12x12 => t == .UNorm
  | _ => false

/-- `Texture::hasAlpha`, lib/src/Texture.cpp:467-512. -/
def hasAlpha (f : Format) : Bool :=
  match f with
  | .R4G4B4A4
  | .B4G4R4A4
  | .R5G5B5A1
  | .B5G5R5A1
  | .A1R5G5B5
  | .R8G8B8A8
  | .B8G8R8A8
  | .A8B8G8R8
  | .A2R10G10B10
  | .A2B10G10R10
  | .R16G16B16A16
  | .R32G32B32A32
  | .BC1_RGBA
  | .BC2
  | .BC3
  | .BC7
  | .ETC2_R8G8B8A1
  | .ETC2_R8G8B8A8
  | .ASTC_4x4
  | .ASTC_5x4
  | .ASTC_5x5
  | .ASTC_6x5
  | .ASTC_6x6
  | .ASTC_8x5
  | .ASTC_8x6
  | .ASTC_8x8
  | .ASTC_10x5
  | .ASTC_10x6
  | .ASTC_10x8
  | .ASTC_10x10
  | .ASTC_12x10
  | .ASTC_12x12
  | .PVRTC1_RGBA_2BPP
  | .PVRTC1_RGBA_4BPP
  | .PVRTC2_RGBA_2BPP
  | .PVRTC2_RGBA_4BPP => true
  | _ => false

end Cuttlefish
