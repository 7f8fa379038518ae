import Verif.Spec.Bin
import Verif.Spec.Mip
import Verif.Spec.Surface
import Verif.Model.Geometry
/-
A reader for KTX files, written from the KTX 1.1 specification
(https://registry.khronos.org/KTX/specs/1.0/ktxspec.v1.html) and the OpenGL registry, not from the
code.
-/
namespace Cuttlefish.Spec

structure KtxFile where
  glType : Nat
  glTypeSize : Nat
  glFormat : Nat
  glInternalFormat : Nat
  glBaseInternalFormat : Nat
  width : Nat
  height : Nat
  depth : Nat
  arrayElements : Nat
  faces : Nat
  levels : Nat
  keyValueData : List UInt8
  /-- level, array element, face, slice -/
  images : List (List (List (List (List UInt8))))

/-- Number of components of an OpenGL pixel format. -/
def glComponents (format : Nat) : Option Nat :=
  if format ∈ [0x1903, 0x8D94] then some 1          -- RED, RED_INTEGER
  else if format ∈ [0x8227, 0x8228] then some 2     -- RG, RG_INTEGER
  else if format ∈ [0x1907, 0x80E0, 0x8D98, 0x8D9A] then some 3  -- RGB, BGR and integer variants
  else if format ∈ [0x1908, 0x80E1, 0x8D99, 0x8D9B] then some 4  -- RGBA, BGRA and integer variants
  else none

/-- Bytes of a texel of an OpenGL pixel transfer type and format. -/
def glTexelBytes (type format : Nat) : Option Nat :=
  if type ∈ [0x1400, 0x1401] then glComponents format                 -- BYTE, UNSIGNED_BYTE
  else if type ∈ [0x1402, 0x1403, 0x140B] then (glComponents format).map (2 * ·)  -- SHORT, UNSIGNED_SHORT, HALF_FLOAT
  else if type ∈ [0x1404, 0x1405, 0x1406] then (glComponents format).map (4 * ·)  -- INT, UNSIGNED_INT, FLOAT
  -- UNSIGNED_SHORT_4_4_4_4, 5_5_5_1, 5_6_5 and their _REV variants
  else if type ∈ [0x8033, 0x8034, 0x8363, 0x8364, 0x8365, 0x8366] then some 2
  -- UNSIGNED_INT_8_8_8_8, 10_10_10_2, their _REV variants, 10F_11F_11F_REV, 5_9_9_9_REV
  else if type ∈ [0x8035, 0x8036, 0x8367, 0x8368, 0x8C3B, 0x8C3E] then some 4
  else none

/-- Width, height and bytes of a block of a compressed OpenGL internal format. -/
def glBlock (internal : Nat) : Option (Nat × Nat × Nat) :=
  -- S3TC DXT1, DXT3, DXT5 and their sRGB variants
  if internal ∈ [0x83F0, 0x83F1, 0x8C4C, 0x8C4D] then some (4, 4, 8)
  else if internal ∈ [0x83F2, 0x83F3, 0x8C4E, 0x8C4F] then some (4, 4, 16)
  -- RGTC1, RGTC2
  else if internal ∈ [0x8DBB, 0x8DBC] then some (4, 4, 8)
  else if internal ∈ [0x8DBD, 0x8DBE] then some (4, 4, 16)
  -- BPTC
  else if internal ∈ [0x8E8C, 0x8E8D, 0x8E8E, 0x8E8F] then some (4, 4, 16)
  -- ETC1, ETC2 RGB and RGB with punch-through alpha, EAC R11
  else if internal ∈ [0x8D64, 0x9270, 0x9271, 0x9274, 0x9275, 0x9276, 0x9277] then some (4, 4, 8)
  -- EAC RG11, ETC2 RGBA
  else if internal ∈ [0x9272, 0x9273, 0x9278, 0x9279] then some (4, 4, 16)
  -- PVRTC1 and PVRTC2 with 2 bits per texel, then with 4 bits
  else if internal ∈ [0x8C01, 0x8C03, 0x8A54, 0x8A56, 0x9137, 0x93F0] then some (8, 4, 8)
  else if internal ∈ [0x8C00, 0x8C02, 0x8A55, 0x8A57, 0x9138, 0x93F1] then some (4, 4, 8)
  -- ASTC
  else
    let astc := [(4, 4), (5, 4), (5, 5), (6, 5), (6, 6), (8, 5), (8, 6), (8, 8), (10, 5), (10, 6),
      (10, 8), (10, 10), (12, 10), (12, 12)]
    if 0x93B0 ≤ internal ∧ internal ≤ 0x93BD then
      (astc[internal - 0x93B0]?).map (fun b => (b.1, b.2, 16))
    else if 0x93D0 ≤ internal ∧ internal ≤ 0x93DD then
      (astc[internal - 0x93D0]?).map (fun b => (b.1, b.2, 16))
    else none

/-- The least number of blocks in each direction of a compressed OpenGL internal format: 2 for PVRTC1. -/
def glLeast (internal : Nat) : Nat :=
  if internal ∈ [0x8C00, 0x8C01, 0x8C02, 0x8C03, 0x8A54, 0x8A55, 0x8A56, 0x8A57] then 2 else 0

/-- One row of texels, padded to a multiple of four bytes. -/
def ktxRow (n : Nat) : Rd (List UInt8) :=
  rdThen (rdBytes n) (fun row => rdThen (rdBytes ((4 - n % 4) % 4)) (fun _ => rdPure row))

/-- One image of `w` by `h` texels. -/
def ktxImage (type format internal w h : Nat) : Rd (List UInt8) := fun bs =>
  if type = 0 then
    match glBlock internal with
    | none => none
    | some (bw, bh, n) => rdBytes (max (glLeast internal) (ceilDiv w bw) * max (glLeast internal) (ceilDiv h bh) * n) bs
  else
    match glTexelBytes type format with
    | none => none
    | some n => rdThen (rdFor h (fun _ => ktxRow (w * n))) (fun rows => rdPure rows.flatten) bs

/-- One level: its size (for a cube map that is not an array the size of one face), then array
elements, faces and slices. -/
def ktxLevelImages (type format internal w h d elements faces : Nat) :
    Rd (List (List (List (List UInt8)))) :=
  rdThen (rdLe 4) (fun size =>
    rdWithin (if faces = 6 ∧ elements = 0 then 6 * size else size)
      (rdFor (orOne elements) (fun _ => rdFor faces (fun _ => rdFor (orOne d) (fun _ =>
        ktxImage type format internal w (orOne h))))))

/-- The whole file. -/
def ktxFile : Rd KtxFile :=
  rdThen (rdBytes 12) (fun ident =>
  rdThen (rdGuard (ident = [0xAB, 0x4B, 0x54, 0x58, 0x20, 0x31, 0x31, 0xBB, 0x0D, 0x0A, 0x1A, 0x0A])) (fun _ =>
  rdThen (rdLe 4) (fun endianness =>
  rdThen (rdGuard (endianness = 0x04030201)) (fun _ =>
  rdThen (rdLe 4) (fun glType =>
  rdThen (rdLe 4) (fun glTypeSize =>
  rdThen (rdLe 4) (fun glFormat =>
  rdThen (rdLe 4) (fun glInternalFormat =>
  rdThen (rdLe 4) (fun glBaseInternalFormat =>
  rdThen (rdLe 4) (fun width =>
  rdThen (rdLe 4) (fun height =>
  rdThen (rdLe 4) (fun depth =>
  rdThen (rdLe 4) (fun arrayElements =>
  rdThen (rdLe 4) (fun faces =>
  rdThen (rdLe 4) (fun levels =>
  rdThen (rdLe 4) (fun kvSize =>
  rdThen (rdBytes kvSize) (fun keyValueData =>
  rdThen (rdFor (orOne levels) (fun m =>
    ktxLevelImages glType glFormat glInternalFormat (extent width m)
      (if height = 0 then 0 else extent height m) (if depth = 0 then 0 else extent depth m)
      arrayElements faces)) (fun images =>
  rdPure ⟨glType, glTypeSize, glFormat, glInternalFormat, glBaseInternalFormat, width, height, depth,
    arrayElements, faces, levels, keyValueData, images⟩))))))))))))))))))

/-- Reads a KTX file. -/
def parseKtx (bytes : List UInt8) : Option KtxFile := rdAll ktxFile bytes

/-- The image of a level, array element, face and slice. -/
def KtxFile.image (k : KtxFile) (m element face slice : Nat) : Option (List UInt8) := do
  let l ← k.images[m]?
  let e ← l[element]?
  let f ← e[face]?
  f[slice]?

/-- Bytes of one image of `w` by `h` texels of a format in a KTX file, with padded rows. -/
def ktxImageBytes (f : Format) (w h : Nat) : Nat :=
  if blockWidth f = 1 then ceilDiv (w * blockSize f) 4 * 4 * h
  else surfaceSize f w h

end Cuttlefish.Spec
