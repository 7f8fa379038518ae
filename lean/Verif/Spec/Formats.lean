import Verif.Model.Tables
/-
Which channels a format stores, read off the format names and the public descriptions of the
compressed formats (not from the code).
-/
namespace Cuttlefish.Spec

/-- A colour channel. -/
inductive Chan where
  | R | G | B | A
  deriving DecidableEq, Repr

/-- The channels and bit widths of an uncompressed format in the order of its name. -/
def layout : Format → Option (List (Chan × Nat))
  | .R4G4 => some [(.R, 4), (.G, 4)]
  | .R4G4B4A4 => some [(.R, 4), (.G, 4), (.B, 4), (.A, 4)]
  | .B4G4R4A4 => some [(.B, 4), (.G, 4), (.R, 4), (.A, 4)]
  | .A4R4G4B4 => some [(.A, 4), (.R, 4), (.G, 4), (.B, 4)]
  | .R5G6B5 => some [(.R, 5), (.G, 6), (.B, 5)]
  | .B5G6R5 => some [(.B, 5), (.G, 6), (.R, 5)]
  | .R5G5B5A1 => some [(.R, 5), (.G, 5), (.B, 5), (.A, 1)]
  | .B5G5R5A1 => some [(.B, 5), (.G, 5), (.R, 5), (.A, 1)]
  | .A1R5G5B5 => some [(.A, 1), (.R, 5), (.G, 5), (.B, 5)]
  | .R8 => some [(.R, 8)]
  | .R8G8 => some [(.R, 8), (.G, 8)]
  | .R8G8B8 => some [(.R, 8), (.G, 8), (.B, 8)]
  | .B8G8R8 => some [(.B, 8), (.G, 8), (.R, 8)]
  | .R8G8B8A8 => some [(.R, 8), (.G, 8), (.B, 8), (.A, 8)]
  | .B8G8R8A8 => some [(.B, 8), (.G, 8), (.R, 8), (.A, 8)]
  | .A8B8G8R8 => some [(.A, 8), (.B, 8), (.G, 8), (.R, 8)]
  | .A2R10G10B10 => some [(.A, 2), (.R, 10), (.G, 10), (.B, 10)]
  | .A2B10G10R10 => some [(.A, 2), (.B, 10), (.G, 10), (.R, 10)]
  | .R16 => some [(.R, 16)]
  | .R16G16 => some [(.R, 16), (.G, 16)]
  | .R16G16B16 => some [(.R, 16), (.G, 16), (.B, 16)]
  | .R16G16B16A16 => some [(.R, 16), (.G, 16), (.B, 16), (.A, 16)]
  | .R32 => some [(.R, 32)]
  | .R32G32 => some [(.R, 32), (.G, 32)]
  | .R32G32B32 => some [(.R, 32), (.G, 32), (.B, 32)]
  | .R32G32B32A32 => some [(.R, 32), (.G, 32), (.B, 32), (.A, 32)]
  | .B10G11R11_UFloat => some [(.B, 10), (.G, 11), (.R, 11)]
  -- the 5-bit field is the shared exponent
  | .E5B9G9R9_UFloat => some [(.B, 9), (.G, 9), (.R, 9)]
  | _ => none

/-- The compressed formats that can store alpha. -/
def compressedAlpha : List Format :=
  [.BC1_RGBA, .BC2, .BC3, .BC7, .ETC2_R8G8B8A1, .ETC2_R8G8B8A8,
   .ASTC_4x4, .ASTC_5x4, .ASTC_5x5, .ASTC_6x5, .ASTC_6x6, .ASTC_8x5, .ASTC_8x6, .ASTC_8x8,
   .ASTC_10x5, .ASTC_10x6, .ASTC_10x8, .ASTC_10x10, .ASTC_12x10, .ASTC_12x12,
   .PVRTC1_RGBA_2BPP, .PVRTC1_RGBA_4BPP, .PVRTC2_RGBA_2BPP, .PVRTC2_RGBA_4BPP]

/-- Does the format store an alpha channel? -/
def StoresAlpha (f : Format) : Prop :=
  (∃ cs, layout f = some cs ∧ ∃ n, (Chan.A, n) ∈ cs) ∨ f ∈ compressedAlpha

end Cuttlefish.Spec
