import Verif.Model.Geometry
/-
Which converter encodes which format, and the sizes and job grids the converters use.
-/
namespace Cuttlefish

/-- The converters of the packed and byte-swapped uncompressed formats
(lib/src/StandardConverter.h:317-514). -/
inductive PackedConv where
  | R4G4 | R4G4B4A4 | B4G4R4A4 | A4R4G4B4 | R5G6B5 | B5G6R5 | R5G5B5A1 | B5G5R5A1 | A1R5G5B5
  | B8G8R8 | B8G8R8A8 | A8B8G8R8
  | A2R10G10B10UNorm | A2R10G10B10UInt | A2B10G10R10UNorm | A2B10G10R10UInt
  | B10G11R11UFloat | E5B9G9R9UFloat
  deriving DecidableEq, Repr

/-- The S3TC converters (lib/src/S3tcConverter.h). -/
inductive S3tcConv where
  | Bc1 | Bc1A | Bc2 | Bc3 | Bc4 (signed : Bool) | Bc5 (signed : Bool) | Bc6H (signed : Bool) | Bc7
  deriving DecidableEq, Repr

/-- The converter objects built by `createConverter`, lib/src/Converter.cpp:32-506, with their
template and constructor arguments.  `elemSize` is `sizeof(T)`. -/
inductive Conv where
  | unorm (elemSize channels : Nat)
  | snorm (elemSize channels : Nat)
  | int (signed : Bool) (elemSize channels : Nat)
  | half (channels : Nat)
  | float (channels : Nat)
  | packed (p : PackedConv)
  | s3tc (k : S3tcConv)
  | etc
  | astc (blockX blockY : Nat)
  | pvrtc
  deriving DecidableEq, Repr

/-- The common shape of the cases `R8 ... R8G8B8A8`, lib/src/Converter.cpp:93-167. -/
def create8 (channels : Nat) : TType → Option Conv
  | .UNorm => some (.unorm 1 channels)
  | .SNorm => some (.snorm 1 channels)
  | .UInt => some (.int false 1 channels)
  | .Int => some (.int true 1 channels)
  | _ => none

/-- The common shape of the cases `R16 ... R16G16B16A16`, lib/src/Converter.cpp:205-280. -/
def create16 (channels : Nat) : TType → Option Conv
  | .UNorm => some (.unorm 2 channels)
  | .SNorm => some (.snorm 2 channels)
  | .UInt => some (.int false 2 channels)
  | .Int => some (.int true 2 channels)
  | .Float => some (.half channels)
  | _ => none

/-- The common shape of the cases `R32 ... R32G32B32A32`, lib/src/Converter.cpp:281-336. -/
def create32 (channels : Nat) : TType → Option Conv
  | .UInt => some (.int false 4 channels)
  | .Int => some (.int true 4 channels)
  | .Float => some (.float channels)
  | _ => none

/-- `if (texture.type() == UNorm) return new C; return nullptr;`, lib/src/Converter.cpp:39-44 and
many more cases. -/
def ifUNorm (k : Conv) (t : TType) : Option Conv :=
  if t = .UNorm then some k else none

/-- An ASTC case, lib/src/Converter.cpp:429-484. -/
def createAstc (bx by_ : Nat) (t : TType) : Option Conv :=
  if t = .UNorm ∨ t = .UFloat then some (.astc bx by_) else none

/-- `createConverter`, lib/src/Converter.cpp:32-506.  The `#if` blocks become conditions on the
build configuration; a null pointer is `none`. -/
def createConverter (c : Features) (f : Format) (t : TType) : Option Conv :=
  match f with
  | .R4G4 => ifUNorm (.packed .R4G4) t
  | .R4G4B4A4 => ifUNorm (.packed .R4G4B4A4) t
  | .B4G4R4A4 => ifUNorm (.packed .B4G4R4A4) t
  | .A4R4G4B4 => ifUNorm (.packed .A4R4G4B4) t
  | .R5G6B5 => ifUNorm (.packed .R5G6B5) t
  | .B5G6R5 => ifUNorm (.packed .B5G6R5) t
  | .R5G5B5A1 => ifUNorm (.packed .R5G5B5A1) t
  | .B5G5R5A1 => ifUNorm (.packed .B5G5R5A1) t
  | .A1R5G5B5 => ifUNorm (.packed .A1R5G5B5) t
  | .R8 => create8 1 t
  | .R8G8 => create8 2 t
  | .R8G8B8 => create8 3 t
  | .B8G8R8 => ifUNorm (.packed .B8G8R8) t
  | .R8G8B8A8 => create8 4 t
  | .B8G8R8A8 => ifUNorm (.packed .B8G8R8A8) t
  | .A8B8G8R8 => ifUNorm (.packed .A8B8G8R8) t
  | .A2R10G10B10 => match t with
    | .UNorm => some (.packed .A2R10G10B10UNorm)
    | .UInt => some (.packed .A2R10G10B10UInt)
    | _ => none
  | .A2B10G10R10 => match t with
    | .UNorm => some (.packed .A2B10G10R10UNorm)
    | .UInt => some (.packed .A2B10G10R10UInt)
    | _ => none
  | .R16 => create16 1 t
  | .R16G16 => create16 2 t
  | .R16G16B16 => create16 3 t
  | .R16G16B16A16 => create16 4 t
  | .R32 => create32 1 t
  | .R32G32 => create32 2 t
  | .R32G32B32 => create32 3 t
  | .R32G32B32A32 => create32 4 t
  | .B10G11R11_UFloat => if t = .UFloat then some (.packed .B10G11R11UFloat) else none
  | .E5B9G9R9_UFloat => if t = .UFloat then some (.packed .E5B9G9R9UFloat) else none
  | .BC1_RGB => if c.s3tc then ifUNorm (.s3tc .Bc1) t else none
  | .BC1_RGBA => if c.s3tc then ifUNorm (.s3tc .Bc1A) t else none
  | .BC2 => if c.s3tc then ifUNorm (.s3tc .Bc2) t else none
  | .BC3 => if c.s3tc then ifUNorm (.s3tc .Bc3) t else none
  | .BC4 => if c.s3tc then (match t with
      | .UNorm => some (.s3tc (.Bc4 false))
      | .SNorm => some (.s3tc (.Bc4 true))
      | _ => none) else none
  | .BC5 => if c.s3tc then (match t with
      | .UNorm => some (.s3tc (.Bc5 false))
      | .SNorm => some (.s3tc (.Bc5 true))
      | _ => none) else none
  | .BC6H => if c.s3tc then (match t with
      | .UFloat => some (.s3tc (.Bc6H false))
      | .Float => some (.s3tc (.Bc6H true))
      | _ => none) else none
  | .BC7 => if c.s3tc then ifUNorm (.s3tc .Bc7) t else none
  | .ETC1 => if c.etc then ifUNorm .etc t else none
  | .ETC2_R8G8B8 => if c.etc then ifUNorm .etc t else none
  | .ETC2_R8G8B8A1 => if c.etc then ifUNorm .etc t else none
  | .ETC2_R8G8B8A8 => if c.etc then ifUNorm .etc t else none
  | .EAC_R11 => if c.etc then (if t = .UNorm ∨ t = .SNorm then some .etc else none) else none
  | .EAC_R11G11 => if c.etc then (if t = .UNorm ∨ t = .SNorm then some .etc else none) else none
  | .ASTC_4x4 => if c.astc then createAstc 4 4 t else none
  | .ASTC_5x4 => if c.astc then createAstc 5 4 t else none
  | .ASTC_5x5 => if c.astc then createAstc 5 5 t else none
  | .ASTC_6x5 => if c.astc then createAstc 6 5 t else none
  | .ASTC_6x6 => if c.astc then createAstc 6 6 t else none
  | .ASTC_8x5 => if c.astc then createAstc 8 5 t else none
  | .ASTC_8x6 => if c.astc then createAstc 8 6 t else none
  | .ASTC_8x8 => if c.astc then createAstc 8 8 t else none
  | .ASTC_10x5 => if c.astc then createAstc 10 5 t else none
  | .ASTC_10x6 => if c.astc then createAstc 10 6 t else none
  | .ASTC_10x8 => if c.astc then createAstc 10 8 t else none
  | .ASTC_10x10 => if c.astc then createAstc 10 10 t else none
  | .ASTC_12x10 => if c.astc then createAstc 12 10 t else none
  | .ASTC_12x12 => if c.astc then createAstc 12 12 t else none
  | .PVRTC1_RGB_2BPP => if c.pvrtc then ifUNorm .pvrtc t else none
  | .PVRTC1_RGBA_2BPP => if c.pvrtc then ifUNorm .pvrtc t else none
  | .PVRTC1_RGB_4BPP => if c.pvrtc then ifUNorm .pvrtc t else none
  | .PVRTC1_RGBA_4BPP => if c.pvrtc then ifUNorm .pvrtc t else none
  | .PVRTC2_RGBA_2BPP => if c.pvrtc then ifUNorm .pvrtc t else none
  | .PVRTC2_RGBA_4BPP => if c.pvrtc then ifUNorm .pvrtc t else none
  | .Unknown => none

/-- `sizeof(T)*C` of a packed converter: the template arguments in
lib/src/StandardConverter.h:317-514. -/
def PackedConv.texelSize : PackedConv → Nat
  | .R4G4 => 1
  | .R4G4B4A4 | .B4G4R4A4 | .A4R4G4B4 | .R5G6B5 | .B5G6R5 | .R5G5B5A1 | .B5G5R5A1 | .A1R5G5B5 => 2
  | .B8G8R8 => 3
  | .B8G8R8A8 | .A8B8G8R8 => 4
  | .A2R10G10B10UNorm | .A2R10G10B10UInt | .A2B10G10R10UNorm | .A2B10G10R10UInt => 4
  | .B10G11R11UFloat | .E5B9G9R9UFloat => 4

/-- Block size passed to the base constructor by each S3TC converter,
lib/src/S3tcConverter.cpp:257-646. -/
def S3tcConv.blockSize : S3tcConv → Nat
  | .Bc1 | .Bc1A | .Bc4 _ => 8
  | .Bc2 | .Bc3 | .Bc5 _ | .Bc6H _ | .Bc7 => 16

/-- `m_blockSize` of `EtcConverter`, lib/src/EtcConverter.cpp:34-67.  The C++ switch covers the six
ETC formats (others hit an assertion). -/
def etcBlockSize : Format → Nat
  | .ETC2_R8G8B8A8 | .EAC_R11G11 => 16
  | _ => 8

end Cuttlefish
