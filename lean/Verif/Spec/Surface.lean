import Verif.Model.Encode
import Verif.Spec.Quant
/-
Specification of converted surfaces: row-major texels, and blocks of texels in row-major order.
-/
namespace Cuttlefish.Spec

/-- All texels of a `w` by `h` surface, row by row. -/
def rowMajor {α : Type} (w h : Nat) (f : Nat → Nat → List α) : List α :=
  (List.range h).flatMap (fun y => (List.range w).flatMap (fun x => f x y))

/-- `n` divided by `d`, rounded up. -/
def ceilDiv (n d : Nat) : Nat := if n % d = 0 then n / d else n / d + 1

/-- The bytes of texel `(x, y)` of a row-major surface with `s` bytes per texel and `w` texels per
row. -/
def texelAt (data : List UInt8) (s w x y : Nat) : List UInt8 := (data.drop ((y * w + x) * s)).take s

/-- Number of array elements per texel of an uncompressed format: one per channel, or one word. -/
def elements (cs : List (Chan × Nat)) : Nat := if isArray cs then cs.length else 1

/-- The surface is non-empty, and small enough for the 32-bit counters of the conversion. -/
def Fits (f : Format) (w h : Nat) : Prop :=
  0 < w ∧ 0 < h ∧
  match layout f with
  | some cs => w * h + 31 < 2 ^ 32 ∧ w * h * elements cs ≤ 2 ^ 32
  | none => w + blockWidth f ≤ 2 ^ 32 ∧ h + blockHeight f ≤ 2 ^ 32 ∧
      ceilDiv w (blockWidth f) * ceilDiv h (blockHeight f) * blockSize f < 2 ^ 32

/-- The PVRTC formats, encoded as a whole by an external library. -/
def isPvrtc : Format → Bool
  | .PVRTC1_RGB_2BPP | .PVRTC1_RGBA_2BPP | .PVRTC1_RGB_4BPP | .PVRTC1_RGBA_4BPP
  | .PVRTC2_RGBA_2BPP | .PVRTC2_RGBA_4BPP => true
  | _ => false

/-- The PVRTC1 formats. -/
def isPvrtc1 : Format → Bool
  | .PVRTC1_RGB_2BPP | .PVRTC1_RGBA_2BPP | .PVRTC1_RGB_4BPP | .PVRTC1_RGBA_4BPP => true
  | _ => false

/-- The least number of blocks in each direction: surfaces in PVRTC1 have at least 2 by 2 blocks. -/
def leastBlocks (f : Format) : Nat := if isPvrtc1 f then 2 else 0

/-- Number of bytes of a surface. -/
def surfaceSize (f : Format) (w h : Nat) : Nat :=
  max (leastBlocks f) (ceilDiv w (blockWidth f)) * max (leastBlocks f) (ceilDiv h (blockHeight f)) * blockSize f

/-- PVRTC1 is defined for sizes that are powers of two only. -/
def Pow2For (f : Format) (w h : Nat) : Prop := isPvrtc1 f = true → w.isPowerOfTwo ∧ h.isPowerOfTwo

instance (f : Format) (w h : Nat) : Decidable (Pow2For f w h) := inferInstanceAs (Decidable (_ → _))

/-- The texel `(i, j)` of block `(bx, by)` of an image, coordinates beyond the edge clamped to it. -/
def clampedTexel (img : FImg) (bw bh bx by_ i j : Nat) : Pixel :=
  img.px (min (bx * bw + i) (img.width - 1)) (min (by_ * bh + j) (img.height - 1))

/-- The texels of a block, row by row, clamped at the edge. -/
def clampedBlock (img : FImg) (bw bh bx by_ : Nat) : List Pixel :=
  rowMajor bw bh (fun i j => [clampedTexel img bw bh bx by_ i j])

/-- Width (or height) of the part of block number `b` inside an image of the given extent, for
blocks of 4 texels. -/
def insideExtent (extent b : Nat) : Nat := min 4 (extent - b * 4)

/-- The texels of a 4x4 block that lie in the image, row by row. -/
def croppedBlock (img : FImg) (bx by_ : Nat) : List Pixel :=
  rowMajor (insideExtent img.width bx) (insideExtent img.height by_)
    (fun i j => [img.px (bx * 4 + i) (by_ * 4 + j)])

/-- Bytes a block compression library produces for one call (BC1 and BC4 blocks, ETC1, ETC2 RGB,
RGB with one bit alpha and EAC R11 blocks have 8 bytes, the others 16).  PVRTexLib encodes a whole surface, in
blocks of 8 bytes for 8x4 or 4x4 texels; those of PVRTC1, which must be powers of two, have at least two blocks
in each direction. -/
def codecBytes : CodecCall → Option Nat
  | .rgbcxBc1 .. | .squishBc1 .. | .rgbcxBc4 .. | .rgbcxBc4hq .. | .cmpBc4s .. => some 8
  | .rgbcxBc3 .. | .rgbcxBc3hq .. | .rgbcxBc5 .. | .rgbcxBc5hq .. | .cmpBc5s .. | .ispcBc6 ..
  | .cmpBc6 .. | .bc7e .. | .bc7enc .. | .astc .. => some 16
  | .etc f .. => some (if f = .RGBA8 ∨ f = .RG11 ∨ f = .SIGNED_RG11 then 16 else 8)
  | .pvrtc p _ _ _ w h _ =>
    let bw := if p = .PVRTCI_2bpp_RGB ∨ p = .PVRTCI_2bpp_RGBA ∨ p = .PVRTCII_2bpp then 8 else 4
    if p = .PVRTCII_2bpp ∨ p = .PVRTCII_4bpp then some (ceilDiv w bw * ceilDiv h 4 * 8)
    else if w.isPowerOfTwo ∧ h.isPowerOfTwo then some (max 2 (ceilDiv w bw) * max 2 (ceilDiv h 4) * 8)
    else none

/-- The assumption on the libraries: every block (or PVRTC surface) has the size of its format. -/
def CodecSizes (X : Ext) : Prop :=
  ∀ call n, codecBytes call = some n → (X.codec call).length = n

end Cuttlefish.Spec
