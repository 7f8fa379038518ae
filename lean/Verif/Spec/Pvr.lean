import Verif.Spec.Bin
import Verif.Spec.Mip
import Verif.Spec.Surface
/-
A reader for PVR version 3 files, written from Imagination's description of the format, not from
the code.
-/
namespace Cuttlefish.Spec

/-- An entry of the metadata block. -/
structure PvrEntry where
  fourCC : List UInt8
  key : List UInt8
  data : List UInt8
  deriving DecidableEq, Repr

structure PvrFile where
  flags : Nat
  pixelFormat : Nat
  colourSpace : Nat
  channelType : Nat
  width : Nat
  height : Nat
  depth : Nat
  surfaces : Nat
  faces : Nat
  levels : Nat
  entries : List PvrEntry
  /-- level, surface, face, slice -/
  images : List (List (List (List (List UInt8))))

/-- Width, height and bytes of a block of a pixel format: if the upper half is not zero it holds the
bits of up to four channels, otherwise the lower half is a number of the table of compressed formats. -/
def pvrBlock (format : Nat) : Option (Nat × Nat × Nat) :=
  let hi := format / 2 ^ 32
  if hi ≠ 0 then
    let bits := hi % 256 + hi / 256 % 256 + hi / 65536 % 256 + hi / 16777216 % 256
    if bits % 8 = 0 then some (1, 1, bits / 8) else none
  else
    let n := format % 2 ^ 32
    if n ∈ [0, 1, 4] then some (8, 4, 8)                -- PVRTC1 and PVRTC2 with 2 bits per texel
    else if n ∈ [2, 3, 5] then some (4, 4, 8)           -- PVRTC1 and PVRTC2 with 4 bits per texel
    else if n ∈ [6, 7, 12, 22, 24, 25] then some (4, 4, 8)   -- ETC1, BC1, BC4, ETC2 RGB and RGB A1, EAC R11
    -- DXT2 to DXT5 (BC2, BC3), BC5, BC6H, BC7, ETC2 RGBA, EAC RG11
    else if n ∈ [8, 9, 10, 11, 13, 14, 15, 23, 26] then some (4, 4, 16)
    else if n = 19 then some (1, 1, 4)                  -- R9G9B9E5
    else if 27 ≤ n ∧ n ≤ 40 then
      ([(4, 4), (5, 4), (5, 5), (6, 5), (6, 6), (8, 5), (8, 6), (8, 8), (10, 5), (10, 6),
        (10, 8), (10, 10), (12, 10), (12, 12)][n - 27]?).map (fun b => (b.1, b.2, 16))
    else none

/-- The least number of blocks in each direction: 2 for PVRTC1. -/
def pvrLeast (format : Nat) : Nat := if format < 4 then 2 else 0

/-- One slice of a level. -/
def pvrImage (format w h : Nat) : Rd (List UInt8) := fun bs =>
  match pvrBlock format with
  | none => none
  | some (bw, bh, n) => rdBytes (max (pvrLeast format) (ceilDiv w bw) * max (pvrLeast format) (ceilDiv h bh) * n) bs

/-- One entry of the metadata block. -/
def pvrEntry : Rd PvrEntry :=
  rdThen (rdBytes 4) (fun cc => rdThen (rdBytes 4) (fun key => rdThen (rdLe 4) (fun n =>
    rdThen (rdBytes n) (fun data => rdPure ⟨cc, key, data⟩))))

/-- Entries until the block is used up (`fuel` bounds their number). -/
def pvrEntries : Nat → Rd (List PvrEntry)
  | 0 => fun bs => if bs = [] then some ([], []) else none
  | fuel + 1 => fun bs =>
    if bs = [] then some ([], [])
    else rdThen pvrEntry (fun e => rdThen (pvrEntries fuel) (fun es => rdPure (e :: es))) bs

/-- The whole file. -/
def pvrFile : Rd PvrFile :=
  rdThen (rdBytes 4) (fun version =>
  rdThen (rdGuard (version = [0x50, 0x56, 0x52, 0x03])) (fun _ =>
  rdThen (rdLe 4) (fun flags =>
  rdThen (rdLe 8) (fun pixelFormat =>
  rdThen (rdLe 4) (fun colourSpace =>
  rdThen (rdLe 4) (fun channelType =>
  rdThen (rdLe 4) (fun height =>
  rdThen (rdLe 4) (fun width =>
  rdThen (rdLe 4) (fun depth =>
  rdThen (rdLe 4) (fun surfaces =>
  rdThen (rdLe 4) (fun faces =>
  rdThen (rdLe 4) (fun levels =>
  rdThen (rdLe 4) (fun metadataSize =>
  rdThen (rdWithin metadataSize (pvrEntries metadataSize)) (fun entries =>
  rdThen (rdFor levels (fun m => rdFor surfaces (fun _ => rdFor faces (fun _ =>
    rdFor (extent depth m) (fun _ => pvrImage pixelFormat (extent width m) (extent height m)))))) (fun images =>
  rdPure ⟨flags, pixelFormat, colourSpace, channelType, width, height, depth, surfaces, faces, levels,
    entries, images⟩)))))))))))))))

/-- Reads a PVR file. -/
def parsePvr (bytes : List UInt8) : Option PvrFile := rdAll pvrFile bytes

/-- The image of a level, surface, face and slice. -/
def PvrFile.image (k : PvrFile) (m surface face slice : Nat) : Option (List UInt8) := do
  let l ← k.images[m]?
  let s ← l[surface]?
  let f ← s[face]?
  f[slice]?

end Cuttlefish.Spec
