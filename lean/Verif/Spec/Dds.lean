import Verif.Spec.Bin
import Verif.Spec.Mip
import Verif.Spec.Surface
/-
A reader for DDS files with the DX10 header, written from Microsoft's documentation of DDS_HEADER,
DDS_HEADER_DXT10 and DXGI_FORMAT, not from the code.
-/
namespace Cuttlefish.Spec

structure DdsFile where
  width : Nat
  height : Nat
  /-- 1 unless this is a volume texture -/
  depth : Nat
  levels : Nat
  dxgiFormat : Nat
  /-- 2: 1D, 3: 2D, 4: 3D -/
  dimension : Nat
  cube : Bool
  /-- number of textures, or of cubes -/
  arraySize : Nat
  alphaMode : Nat
  /-- array element, face, level, slice -/
  images : List (List (List (List (List UInt8))))

/-- Width, height and bytes of a block of a DXGI format. -/
def dxgiBlock (n : Nat) : Option (Nat × Nat × Nat) :=
  if n ∈ [1, 2, 3, 4] then some (1, 1, 16)                    -- R32G32B32A32
  else if n ∈ [5, 6, 7, 8] then some (1, 1, 12)               -- R32G32B32
  else if n ∈ [9, 10, 11, 12, 13, 14, 15, 16, 17, 18] then some (1, 1, 8)  -- R16G16B16A16, R32G32
  -- R10G10B10A2, R11G11B10, R8G8B8A8, R16G16, R32, R9G9B9E5, B8G8R8A8
  else if n ∈ [23, 24, 25, 26, 27, 28, 29, 30, 31, 32, 33, 34, 35, 36, 37, 38, 39, 41, 42, 43, 67,
    87, 91] then some (1, 1, 4)
  -- R8G8, R16, B5G6R5, B5G5R5A1, B4G4R4A4
  else if n ∈ [48, 49, 50, 51, 52, 53, 54, 56, 57, 58, 59, 85, 86, 115] then some (1, 1, 2)
  -- R8, A8, IA44
  else if n ∈ [60, 61, 62, 63, 64, 65, 112] then some (1, 1, 1)
  else if n ∈ [70, 71, 72, 79, 80, 81] then some (4, 4, 8)    -- BC1, BC4
  -- BC2, BC3, BC5, BC6H, BC7
  else if n ∈ [73, 74, 75, 76, 77, 78, 82, 83, 84, 94, 95, 96, 97, 98, 99] then some (4, 4, 16)
  else none

/-- One slice of a level. -/
def ddsImage (format w h : Nat) : Rd (List UInt8) := fun bs =>
  match dxgiBlock format with
  | none => none
  | some (bw, bh, n) => rdBytes (ceilDiv w bw * ceilDiv h bh * n) bs

/-- The whole file. -/
def ddsFile : Rd DdsFile :=
  rdThen (rdBytes 4) (fun magic =>
  rdThen (rdGuard (magic = [0x44, 0x44, 0x53, 0x20])) (fun _ =>
  rdThen (rdLe 4) (fun size =>
  rdThen (rdGuard (size = 124)) (fun _ =>
  rdThen (rdLe 4) (fun flags =>
  -- caps, height, width and pixel format are required
  rdThen (rdGuard (flags &&& 0x1007 = 0x1007)) (fun _ =>
  rdThen (rdLe 4) (fun height =>
  rdThen (rdLe 4) (fun width =>
  rdThen (rdLe 4) (fun _pitch =>
  rdThen (rdLe 4) (fun depth =>
  rdThen (rdLe 4) (fun mipMapCount =>
  rdThen (rdBytes 44) (fun _reserved =>
  rdThen (rdLe 4) (fun pfSize =>
  rdThen (rdGuard (pfSize = 32)) (fun _ =>
  rdThen (rdLe 4) (fun pfFlags =>
  rdThen (rdGuard (pfFlags &&& 4 = 4)) (fun _ =>
  rdThen (rdBytes 4) (fun fourcc =>
  rdThen (rdGuard (fourcc = [0x44, 0x58, 0x31, 0x30])) (fun _ =>
  rdThen (rdBytes 20) (fun _masks =>
  rdThen (rdLe 4) (fun caps =>
  rdThen (rdGuard (caps &&& 0x1000 = 0x1000)) (fun _ =>
  rdThen (rdLe 4) (fun _caps2 =>
  rdThen (rdBytes 12) (fun _caps34 =>
  rdThen (rdLe 4) (fun dxgiFormat =>
  rdThen (rdLe 4) (fun dimension =>
  rdThen (rdLe 4) (fun miscFlag =>
  rdThen (rdLe 4) (fun arraySize =>
  rdThen (rdLe 4) (fun miscFlags2 =>
  rdThen (rdGuard (dimension = 2 ∨ dimension = 3 ∨ dimension = 4)) (fun _ =>
  -- 1D textures have height 1, volume textures a valid depth and one element
  rdThen (rdGuard (dimension = 2 → height = 1)) (fun _ =>
  rdThen (rdGuard (dimension = 4 → flags &&& 0x800000 = 0x800000 ∧ arraySize = 1)) (fun _ =>
  let levels := if flags &&& 0x20000 = 0x20000 then orOne mipMapCount else 1
  let cube := miscFlag &&& 4 = 4
  let d := if dimension = 4 then depth else 1
  rdThen (rdFor arraySize (fun _ => rdFor (if cube then 6 else 1) (fun _ => rdFor levels (fun m =>
    rdFor (if dimension = 4 then extent d m else 1) (fun _ =>
      ddsImage dxgiFormat (extent width m) (extent height m)))))) (fun images =>
  rdPure ⟨width, height, d, levels, dxgiFormat, dimension, cube, arraySize, miscFlags2 &&& 7,
    images⟩))))))))))))))))))))))))))))))))

/-- Reads a DDS file. -/
def parseDds (bytes : List UInt8) : Option DdsFile := rdAll ddsFile bytes

/-- The image of an array element, face, level and slice. -/
def DdsFile.image (k : DdsFile) (element face m slice : Nat) : Option (List UInt8) := do
  let e ← k.images[element]?
  let f ← e[face]?
  let l ← f[m]?
  l[slice]?

end Cuttlefish.Spec
