import Verif.Model.Load
import Verif.Spec.Image
/-
What a bitmap of FreeImage shows, by the documentation of FreeImage: palettes, transparency tables, masks of 16-bit words,
and the meaning of its other types.
-/
namespace Cuttlefish.Spec
open Cuttlefish
variable {N : Type}

/-- The value of a channel: a fraction of the largest integer, an integer, or a number. -/
inductive Val (N : Type) where
  | frac (v : Int) (m : Nat)
  | int (v : Int)
  | num (v : N)

/-- The value as a `double`. -/
def Val.read (A : Arith N) : Val N → N
  | .frac v m => A.div (A.lit v) (A.lit m)
  | .int v => A.lit v
  | .num v => v

/-- Red, green, blue and alpha. -/
def color (A : Arith N) (r g b a : Val N) : Color N := ⟨r.read A, g.read A, b.read A, a.read A⟩

/-- The lowest bit of a mask of at most 32 bits. -/
def lowestBit (mask : Nat) : Nat := Nat.gcd mask (2 ^ 32)

/-- The bits of a word under a mask. -/
def bitsUnder (w mask : Nat) : Nat := (w &&& mask) / lowestBit mask

/-- The fraction that a word has under a mask. -/
def masked (w mask : Nat) : Val N := .frac (bitsUnder w mask) (mask / lowestBit mask)

/-- The colour that a pixel of the bitmap stands for (inks are not described here). -/
def Shows (A : Arith N) (b : FIBitmap N) (p : Px N) (c : Color N) : Prop :=
  b.color ≠ .CMYK ∧ match b.type, p with
  | .BITMAP, .ints [v] =>
    if b.bpp ≤ 8 then
      let e := b.palette v.toNat
      c = color A (.frac e.1 255) (.frac e.2.1 255) (.frac e.2.2 255)
        (if b.transparent then .frac (b.alphas v.toNat) 255 else .int 1)
    else c = color A (masked v.toNat b.redMask) (masked v.toNat b.greenMask) (masked v.toNat b.blueMask) (.int 1)
  | .BITMAP, .ints [r, g, bl] => c = color A (.frac r 255) (.frac g 255) (.frac bl 255) (.int 1)
  | .BITMAP, .ints [r, g, bl, a] => c = color A (.frac r 255) (.frac g 255) (.frac bl 255) (.frac a 255)
  | .UINT16, .ints [v] => c = color A (.frac v 65535) (.frac v 65535) (.frac v 65535) (.int 1)
  | .INT16, .ints [v] | .INT32, .ints [v] | .UINT32, .ints [v] => c = color A (.int v) (.int v) (.int v) (.int 1)
  | .FLOAT, .nums [v] | .DOUBLE, .nums [v] => c = color A (.num v) (.num v) (.num v) (.int 1)
  | .COMPLEX, .nums [r, i] => c = color A (.num r) (.num i) (.int 0) (.int 1)
  | .RGB16, .ints [r, g, bl] => c = color A (.frac r 65535) (.frac g 65535) (.frac bl 65535) (.int 1)
  | .RGBA16, .ints [r, g, bl, a] => c = color A (.frac r 65535) (.frac g 65535) (.frac bl 65535) (.frac a 65535)
  | .RGBF, .nums [r, g, bl] => c = color A (.num r) (.num g) (.num bl) (.int 1)
  | .RGBAF, .nums [r, g, bl, a] => c = color A (.num r) (.num g) (.num bl) (.num a)
  | _, _ => False

/-- The masks of 16-bit words. -/
def Masks16 (b : FIBitmap N) : Prop :=
  (b.redMask, b.greenMask, b.blueMask) = (0x7C00, 0x03E0, 0x001F) ∨
    (b.redMask, b.greenMask, b.blueMask) = (0xF800, 0x07E0, 0x001F)

/-- Every pixel satisfies a condition. -/
def AllPixels (b : FIBitmap N) (P : Px N → Prop) : Prop :=
  ∀ y x, y < b.pixels.height → x < b.pixels.width → P (b.pixels.px y x)

/-- What the documentation of FreeImage says about bitmaps.  A bitmap of up to 8 bits per pixel has a palette; its
colour type says whether this is the ramp of gray from black to white, the one from white to black, or any other one.
Words of 16 bits have masks, the bytes of 24 and 32 bits are blue, green, red and alpha from the lowest on. -/
structure Documented (A : Arith N) (b : FIBitmap N) : Prop where
  kind : b.type ≠ .UNKNOWN
  bits : b.type = .BITMAP → b.bpp ∈ [1, 4, 8, 16, 24, 32]
  palette : b.color = .Palette → b.type = .BITMAP ∧ b.bpp ≤ 8
  gray : b.type = .BITMAP → b.bpp ≤ 8 → b.color = .MinIsBlack ∨ b.color = .MinIsWhite ∨ b.color = .Palette
  black : b.type = .BITMAP → b.bpp = 8 → b.color = .MinIsBlack → ∀ i < 256, b.palette i = (i, i, i)
  white : b.type = .BITMAP → b.bpp = 8 → b.color = .MinIsWhite → ∀ i < 256, b.palette i = (255 - i, 255 - i, 255 - i)
  indexes : b.type = .BITMAP → b.bpp ≤ 8 → AllPixels b (fun p => ∃ v : Nat, v < 2 ^ b.bpp ∧ p = .ints [(v : Int)])
  entries : ∀ i, (b.palette i).1 ≤ 255 ∧ (b.palette i).2.1 ≤ 255 ∧ (b.palette i).2.2 ≤ 255 ∧ b.alphas i ≤ 255
  words : b.type = .BITMAP → b.bpp = 16 →
    Masks16 b ∧ AllPixels b (fun p => ∃ v : Nat, v < 2 ^ 16 ∧ p = .ints [(v : Int)])
  bytes : b.type = .BITMAP → b.bpp = 24 ∨ b.bpp = 32 →
    (b.redMask, b.greenMask, b.blueMask) = (0x00FF0000, 0x0000FF00, 0x000000FF) ∧
      AllPixels b (PxOk A (if b.bpp = 24 then .RGB8 else .RGBA8))
  others : b.type ≠ .BITMAP → AllPixels b (PxOk A (match b.type with
    | .UINT16 => .Gray16 | .INT16 => .Int16 | .UINT32 => .UInt32 | .INT32 => .Int32 | .FLOAT => .Float
    | .DOUBLE => .Double | .COMPLEX => .Complex | .RGB16 => .RGB16 | .RGBA16 => .RGBA16 | .RGBF => .RGBF
    | .RGBAF => .RGBAF | _ => .Invalid))

/-- The same picture as a bitmap of bytes without a palette. -/
structure Depaletted (b b' : FIBitmap N) (bpp : Nat) (px : Int → Px N) : Prop where
  type : b'.type = .BITMAP
  bpp : b'.bpp = bpp
  color : b'.color ≠ .Palette
  width : b'.pixels.width = b.pixels.width
  height : b'.pixels.height = b.pixels.height
  pixels : ∀ y x, y < b.pixels.height → x < b.pixels.width → ∀ v, b.pixels.px y x = .ints [v] →
    b'.pixels.px y x = px v

/-- What the documentation says about the conversions of bitmaps with palettes, if they succeed: the colours of the
palette, with the transparency table as alpha. -/
structure PaletteColors (FP : FromPalette N) : Prop where
  to24 : ∀ b b', b.color = .Palette → FP.to24 b = some b' → Depaletted b b' 24 (fun v =>
    .ints [((b.palette v.toNat).1 : Int), (b.palette v.toNat).2.1, (b.palette v.toNat).2.2])
  to32 : ∀ b b', b.color = .Palette → FP.to32 b = some b' → Depaletted b b' 32 (fun v =>
    .ints [((b.palette v.toNat).1 : Int), (b.palette v.toNat).2.1, (b.palette v.toNat).2.2,
      if b.transparent then b.alphas v.toNat else 255])

/-- The bitmaps that images can be made of: those with a palette, gray ones of 8 bits that are opaque and start with
black, and all others but those of inks. -/
def Loadable (b : FIBitmap N) : Prop :=
  b.color ≠ .CMYK ∧ (b.type = .BITMAP → b.bpp ≤ 8 → b.color = .Palette ∨ (b.bpp = 8 ∧ b.color = .MinIsBlack ∧ b.transparent = false))

/-- The image is the picture of the bitmap: it has its size, and every pixel has the colour that the bitmap shows (rows
of an image are counted from the top, those of a bitmap from the bottom). -/
structure Pictures (A : Arith N) (b : FIBitmap N) (i : Image N) : Prop where
  width : i.bmp.width = b.pixels.width
  height : i.bmp.height = b.pixels.height
  pixels : ∀ y x, y < b.pixels.height → x < b.pixels.width → ∃ c,
    i.getPixel A x y = .ok (some c) ∧ Shows A b (b.pixels.px (b.pixels.height - 1 - y) x) c

/-- A pixel of 16 or 32 bits as a word of the machine (little-endian: blue is the lowest byte). -/
def pixelWord : Px N → Option Nat
  | .ints [w] => some w.toNat
  | .ints [r, g, b, a] => some (b.toNat + 2 ^ 8 * g.toNat + 2 ^ 16 * r.toNat + 2 ^ 24 * a.toNat)
  | _ => none

end Cuttlefish.Spec
