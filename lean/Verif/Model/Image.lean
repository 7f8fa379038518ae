import Verif.Model.Dbl
import Verif.Model.Texture
/-
Class `Image` (lib/src/Image.cpp).

The pixels of an image are held by FreeImage.  Simplifications:
* a pixel is the list of its components in the order of their names (red, green, blue, alpha), not
  of their bytes in memory; integer components are integers, float components are the numbers they
  denote; the 16-bit formats are one word;
* all images are in one of the formats of `Image::Format`; palettes and loading are in `Model/Load`;
* the FreeImage functions are parameters (`FreeImage`);
* the arithmetic on `double` is a parameter (`Arith`), so that statements can be made about exact
  real arithmetic and about IEEE arithmetic.
-/
namespace Cuttlefish

/-- `Image::Format`, lib/include/cuttlefish/Image.h:53-77. -/
inductive IFormat where
  | Invalid | Gray8 | Gray16 | RGB5 | RGB565 | RGB8 | RGB16 | RGBF | RGBA8 | RGBA16 | RGBAF
  | Int16 | UInt16 | Int32 | UInt32 | Float | Double | Complex
  deriving DecidableEq, Repr

/-- `Image::RotateAngle`, lib/include/cuttlefish/Image.h:93-101. -/
inductive RotateAngle where
  | CW90 | CW180 | CW270 | CCW90 | CCW180 | CCW270
  deriving DecidableEq, Repr

/-- `Image::Channel`, lib/include/cuttlefish/Image.h:106-113; the enumerators are 0 to 4. -/
inductive Channel where
  | Red | Green | Blue | Alpha | None
  deriving DecidableEq, Repr

/-- `Image::NormalOptions`, lib/include/cuttlefish/Image.h:118-124: a set of flags. -/
structure NormalOptions where
  keepSign : Bool := false
  wrapX : Bool := false
  wrapY : Bool := false
  deriving DecidableEq, Repr

/-- The arithmetic on `double` (and on `float`, where the code computes with floats).  A `float` is
converted to `double` without change, so both have the same carrier. -/
structure Arith (N : Type) where
  /-- a literal, or an integer converted to `double` -/
  lit : ℚ → N
  add : N → N → N
  sub : N → N → N
  mul : N → N → N
  div : N → N → N
  lt : N → N → Bool
  eq : N → N → Bool
  /-- `std::round` -/
  round : N → N
  /-- `static_cast` to an integer type with this range -/
  cast : Int → Int → N → Res Int
  /-- `static_cast<float>` -/
  single : N → N
  /-- `float` addition -/
  addS : N → N → N
  /-- `float` multiplication -/
  mulS : N → N → N
  /-- `std::sqrt` -/
  sqrt : N → N
  /-- `std::pow` -/
  pow : N → N → N

/-- `ColorRGBAd`, lib/include/cuttlefish/Color.h:157-181. -/
structure Color (N : Type) where
  r : N
  g : N
  b : N
  a : N

/-- A pixel in memory: its integer components or its floating point components. -/
inductive Px (N : Type) where
  | ints (vs : List Int)
  | nums (vs : List N)

/-- The pixels of a `FIBITMAP`: `px y x` is column `x` of scanline `y`; FreeImage counts scanlines
from the bottom of the image. -/
structure Bitmap (N : Type) where
  width : Nat
  height : Nat
  px : Nat → Nat → Px N

/-- `Image::Impl`, lib/src/Image.cpp:708-790, without the masks. -/
structure Image (N : Type) where
  format : IFormat
  colorSpace : ColorSpace
  bmp : Bitmap N

variable {N : Type}

/-- Reading column `x` of `FreeImage_GetScanLine(image, y)`: undefined outside of the image. -/
def Bitmap.read (b : Bitmap N) (y x : Nat) : Res (Px N) :=
  if y < b.height ∧ x < b.width then .ok (b.px y x) else .ub

/-- Writing column `x` of `FreeImage_GetScanLine(image, y)`. -/
def Bitmap.write (b : Bitmap N) (y x : Nat) (p : Px N) : Res (Bitmap N) :=
  if y < b.height ∧ x < b.width then
    .ok { b with px := fun y' x' => if y' = y ∧ x' = x then p else b.px y' x' }
  else .ub

/-- The FreeImage functions `Image` calls, all of which may fail.  `AllocateT`, `Clone`, `Rotate`
(degrees), `FlipHorizontal`, `FlipVertical`, `Rescale` and the conversions `ConvertTo...` (source
format, bitmap, destination format). -/
structure FreeImage (N : Type) where
  alloc : IFormat → Nat → Nat → Option (Bitmap N)
  clone : Bitmap N → Option (Bitmap N)
  rotate : Bitmap N → Nat → Option (Bitmap N)
  flipHorizontal : Bitmap N → Bool × Bitmap N
  flipVertical : Bitmap N → Bool × Bitmap N
  rescale : Bitmap N → Nat → Nat → ResizeFilter → Option (Bitmap N)
  convert : IFormat → Bitmap N → IFormat → Option (Bitmap N)

/-- `for (unsigned int i : is) s = f(i, s)`. -/
def loop {S : Type} : List Nat → (Nat → S → Res S) → S → Res S
  | [], _, s => .ok s
  | i :: is, f, s => do
    let s ← f i s
    loop is f s

/-- `for (unsigned int i = lo; i < hi; ++i)`. -/
def steps (lo hi : Nat) : List Nat := List.range' lo (hi - lo)

namespace Arith
variable (A : Arith N)

/-- `std::min`: the first argument unless the second is smaller. -/
def min (a b : N) : N := if A.lt b a then b else a

/-- `std::max`: the first argument unless it is smaller. -/
def max (a b : N) : N := if A.lt a b then b else a

/-- `std::abs`. -/
def abs (a : N) : N := if A.lt a (A.lit 0) then A.sub (A.lit 0) a else a

/-- `clamp(double)`, lib/src/Image.cpp:313-316. -/
def clamp (d : N) : N := A.max (A.min d (A.lit 1)) (A.lit 0)

/-- `toDoubleNorm`, `toDoubleNorm5` and `toDoubleNorm6` for the largest value `m`,
lib/src/Image.cpp:293-311. -/
def fromNorm (m : Nat) (v : Int) : N := A.div (A.lit v) (A.lit m)

/-- `fromDoubleNorm<T>`, `fromDoubleNorm5` and `fromDoubleNorm6` for the largest value `m` and the
largest value `top` of the result type, lib/src/Image.cpp:324-338. -/
def toNorm (top m : Nat) (d : N) : Res Int := A.cast 0 top (A.round (A.mul (A.clamp d) (A.lit m)))

/-- `toGrayscale`, lib/include/cuttlefish/Color.h:213-217. -/
def toGrayscale (r g b : N) : N :=
  A.add (A.add (A.mul r (A.lit 0.2126)) (A.mul g (A.lit 0.7152))) (A.mul b (A.lit 0.0722))

/-- `sRGBToLinear`, lib/include/cuttlefish/Color.h:224-229. -/
def sRGBToLinear (c : N) : N :=
  if A.lt c (A.lit 0.04045) || A.eq c (A.lit 0.04045) then A.div c (A.lit 12.92)
  else A.pow (A.div (A.add c (A.lit 0.055)) (A.lit 1.055)) (A.lit 2.4)

/-- `linearToSRGB`, lib/include/cuttlefish/Color.h:236-242. -/
def linearToSRGB (c : N) : N :=
  if A.lt c (A.lit 0.0031308) || A.eq c (A.lit 0.0031308) then A.mul c (A.lit 12.92)
  else A.sub (A.mul (A.lit 1.055) (A.pow c (A.div (A.lit 1) (A.lit 2.4)))) (A.lit 0.055)

end Arith

/-- `(pixel & mask) >> shift` for a field of `n` bits at `shift`; the word is a `uint16_t`. -/
def getField (w : Int) (shift n : Nat) : Int := w / 2 ^ shift % 2 ^ n

/-- `getPixelImpl`, lib/src/Image.cpp:345-474.  Simplification: there is no image of format
`Invalid` (`Impl::create` returns null for it), so the result `false` does not occur. -/
def getPixelImpl (A : Arith N) (f : IFormat) (p : Px N) : Res (Color N) :=
  let gray (v : N) : Res (Color N) := .ok ⟨v, v, v, A.lit 1⟩
  match f, p with
  | .Gray8, .ints [v] => gray (A.fromNorm 255 v)
  | .Gray16, .ints [v] => gray (A.fromNorm 65535 v)
  -- FI16_555: red 0x7C00 >> 10, green 0x03E0 >> 5, blue 0x001F >> 0
  | .RGB5, .ints [w] =>
    .ok ⟨A.fromNorm 31 (getField w 10 5), A.fromNorm 31 (getField w 5 5), A.fromNorm 31 (getField w 0 5),
      A.lit 1⟩
  -- FI16_565: red 0xF800 >> 11, green 0x07E0 >> 5, blue 0x001F >> 0
  | .RGB565, .ints [w] =>
    .ok ⟨A.fromNorm 31 (getField w 11 5), A.fromNorm 63 (getField w 5 6), A.fromNorm 31 (getField w 0 5),
      A.lit 1⟩
  | .RGB8, .ints [r, g, b] =>
    .ok ⟨A.fromNorm 255 r, A.fromNorm 255 g, A.fromNorm 255 b, A.lit 1⟩
  | .RGB16, .ints [r, g, b] =>
    .ok ⟨A.fromNorm 65535 r, A.fromNorm 65535 g, A.fromNorm 65535 b, A.lit 1⟩
  | .RGBF, .nums [r, g, b] => .ok ⟨r, g, b, A.lit 1⟩
  | .RGBA8, .ints [r, g, b, a] =>
    .ok ⟨A.fromNorm 255 r, A.fromNorm 255 g, A.fromNorm 255 b, A.fromNorm 255 a⟩
  | .RGBA16, .ints [r, g, b, a] =>
    .ok ⟨A.fromNorm 65535 r, A.fromNorm 65535 g, A.fromNorm 65535 b, A.fromNorm 65535 a⟩
  | .RGBAF, .nums [r, g, b, a] => .ok ⟨r, g, b, a⟩
  | .Int16, .ints [v] => gray (A.lit v)
  | .UInt16, .ints [v] => gray (A.lit v)
  | .Int32, .ints [v] => gray (A.lit v)
  | .UInt32, .ints [v] => gray (A.lit v)
  | .Float, .nums [v] => gray v
  | .Double, .nums [v] => gray v
  | .Complex, .nums [r, i] => .ok ⟨r, i, A.lit 0, A.lit 1⟩
  | _, _ => .ub

/-- The cases `RGB5` to `RGBAF`, `Int16`, `Int32`, `UInt32` and `Complex`, which are the same in
`setPixelImpl` and `setPixelNoGrayscaleImpl`.  The function `clamp<T>` (lib/src/Image.cpp:318-322)
clamps after the cast to `T` and changes nothing.  The fields of the 16-bit words do not overlap, so
`|` is a sum. -/
def setPixelCommon (A : Arith N) (f : IFormat) (c : Color N) : Res (Px N) :=
  match f with
  | .RGB5 => do
    let r ← A.toNorm 255 31 c.r
    let g ← A.toNorm 255 31 c.g
    let b ← A.toNorm 255 31 c.b
    .ok (.ints [r * 2 ^ 10 + g * 2 ^ 5 + b])
  | .RGB565 => do
    let r ← A.toNorm 255 31 c.r
    let g ← A.toNorm 255 63 c.g
    let b ← A.toNorm 255 31 c.b
    .ok (.ints [r * 2 ^ 11 + g * 2 ^ 5 + b])
  | .RGB8 => do
    let r ← A.toNorm 255 255 c.r
    let g ← A.toNorm 255 255 c.g
    let b ← A.toNorm 255 255 c.b
    .ok (.ints [r, g, b])
  | .RGB16 => do
    let r ← A.toNorm 65535 65535 c.r
    let g ← A.toNorm 65535 65535 c.g
    let b ← A.toNorm 65535 65535 c.b
    .ok (.ints [r, g, b])
  | .RGBF => .ok (.nums [A.single c.r, A.single c.g, A.single c.b])
  | .RGBA8 => do
    let r ← A.toNorm 255 255 c.r
    let g ← A.toNorm 255 255 c.g
    let b ← A.toNorm 255 255 c.b
    let a ← A.toNorm 255 255 c.a
    .ok (.ints [r, g, b, a])
  | .RGBA16 => do
    let r ← A.toNorm 65535 65535 c.r
    let g ← A.toNorm 65535 65535 c.g
    let b ← A.toNorm 65535 65535 c.b
    let a ← A.toNorm 65535 65535 c.a
    .ok (.ints [r, g, b, a])
  | .RGBAF => .ok (.nums [A.single c.r, A.single c.g, A.single c.b, A.single c.a])
  | .Int16 => do
    let v ← A.cast (-2 ^ 15) (2 ^ 15 - 1) c.r
    .ok (.ints [v])
  | .Int32 => do
    let v ← A.cast (-2 ^ 31) (2 ^ 31 - 1) c.r
    .ok (.ints [v])
  | .UInt32 => do
    let v ← A.cast 0 (2 ^ 32 - 1) c.r
    .ok (.ints [v])
  | .Complex => .ok (.nums [c.r, c.g])
  | _ => .ub

/-- `setPixelImpl`, lib/src/Image.cpp:476-591: the new content of the pixel. -/
def setPixelImpl (A : Arith N) (f : IFormat) (c : Color N) : Res (Px N) :=
  match f with
  | .Gray8 => do
    let v ← A.toNorm 255 255 (A.toGrayscale c.r c.g c.b)
    .ok (.ints [v])
  | .Gray16 => do
    let v ← A.toNorm 65535 65535 (A.toGrayscale c.r c.g c.b)
    .ok (.ints [v])
  -- the cast is to `int16_t` (line 571), the store converts modulo 2^16
  | .UInt16 => do
    let v ← A.cast (-2 ^ 15) (2 ^ 15 - 1) c.r
    .ok (.ints [v % 2 ^ 16])
  | .Float => .ok (.nums [A.single (A.toGrayscale c.r c.g c.b)])
  | .Double => .ok (.nums [A.toGrayscale c.r c.g c.b])
  | f => setPixelCommon A f c

/-- `setPixelNoGrayscaleImpl`, lib/src/Image.cpp:593-706: the new content of the pixel. -/
def setPixelNoGrayscaleImpl (A : Arith N) (f : IFormat) (c : Color N) : Res (Px N) :=
  match f with
  | .Gray8 => do
    let v ← A.toNorm 255 255 c.r
    .ok (.ints [v])
  | .Gray16 => do
    let v ← A.toNorm 65535 65535 c.r
    .ok (.ints [v])
  | .UInt16 => do
    let v ← A.cast 0 (2 ^ 16 - 1) c.r
    .ok (.ints [v])
  | .Float => .ok (.nums [A.single c.r])
  | .Double => .ok (.nums [c.r])
  | f => setPixelCommon A f c

/-- `isGrayscaleFormat`, lib/src/Image.cpp:181-193. -/
def isGrayscaleFormat : IFormat → Bool
  | .Gray8 | .Gray16 | .Float | .Double => true
  | _ => false

/-- `isRGB16BPPFormat`, lib/src/Image.cpp:195-205. -/
def isRGB16BPPFormat : IFormat → Bool
  | .RGB5 | .RGB565 => true
  | _ => false

/-- `needFloatConvertFallback`, lib/src/Image.cpp:167-179. -/
def needFloatConvertFallback : IFormat → Bool
  | .UInt16 | .RGBF | .RGBAF | .Float => true
  | _ => false

/-- The value of a valid `Image` object, or none for an invalid one. -/
abbrev Img? (N : Type) := Option (Image N)

variable (A : Arith N) (FI : FreeImage N)

/-- `Image::initialize`, lib/src/Image.cpp:960-973. -/
def Image.new (f : IFormat) (w h : Nat) (cs : ColorSpace) : Img? N :=
  if f = .Invalid then none else (FI.alloc f w h).map (fun b => ⟨f, cs, b⟩)

/-- The copy constructor and the copy assignment, lib/src/Image.cpp:831-857. -/
def Image.copy (i : Image N) : Img? N := (FI.clone i.bmp).map (fun b => ⟨i.format, i.colorSpace, b⟩)

/-- `getPixelImpl` of column `x` of scanline `y`, counted as FreeImage does. -/
def Image.get (i : Image N) (y x : Nat) : Res (Color N) := do
  let p ← i.bmp.read y x
  getPixelImpl A i.format p

/-- Store a pixel. -/
def Image.put (i : Image N) (y x : Nat) (p : Px N) : Res (Image N) := do
  let b ← i.bmp.write y x p
  .ok { i with bmp := b }

/-- `setPixelNoGrayscaleImpl` of column `x` of scanline `y`. -/
def Image.set (i : Image N) (y x : Nat) (c : Color N) : Res (Image N) := do
  let p ← setPixelNoGrayscaleImpl A i.format c
  i.put y x p

/-- `Image::getPixel`, lib/src/Image.cpp:1100-1107; rows are counted from the top
(`getScanlineImpl`, lib/src/Image.cpp:340-343).  `none`: returns false. -/
def Image.getPixel (i : Image N) (x y : Nat) : Res (Option (Color N)) :=
  if i.bmp.width ≤ x ∨ i.bmp.height ≤ y then .ok none
  else do
    let c ← i.get A (i.bmp.height - y - 1) x
    .ok (some c)

/-- `Image::setPixel`, lib/src/Image.cpp:1109-1128: the result and the image afterwards. -/
def Image.setPixel (i : Image N) (x y : Nat) (c : Color N) (convertGrayscale : Bool) :
    Res (Bool × Image N) :=
  if i.bmp.width ≤ x ∨ i.bmp.height ≤ y then .ok (false, i)
  else
    let row := i.bmp.height - y - 1
    if convertGrayscale then do
      let i ← if i.colorSpace = .sRGB ∧ isGrayscaleFormat i.format = true then
          let v := A.linearToSRGB (A.toGrayscale (A.sRGBToLinear c.r) (A.sRGBToLinear c.g)
            (A.sRGBToLinear c.b))
          i.set A row x ⟨v, v, v, c.a⟩
        else .ok i
      let p ← setPixelImpl A i.format c
      let i ← i.put row x p
      .ok (true, i)
    else do
      let i ← i.set A row x c
      .ok (true, i)

/-- The loops that replace every pixel: `for y < height, for x < width { getPixelImpl; ...;
setPixelNoGrayscaleImpl }` on the same image. -/
def Image.mapPixels (i : Image N) (f : Color N → Color N) : Res (Image N) :=
  loop (steps 0 i.bmp.height) (fun y j =>
    loop (steps 0 i.bmp.width) (fun x j => do
      let c ← j.get A y x
      j.set A y x (f c)) j) i

/-- The body of the loop of `Image::preMultiplyAlpha`, lib/src/Image.cpp:1637-1657. -/
def preMultiply (cs : ColorSpace) (c : Color N) : Color N :=
  let l (v : N) : N := if cs = .sRGB then A.sRGBToLinear v else v
  let s (v : N) : N := if cs = .sRGB then A.linearToSRGB v else v
  ⟨s (A.mul (l c.r) c.a), s (A.mul (l c.g) c.a), s (A.mul (l c.b) c.a), c.a⟩

/-- `Image::preMultiplyAlpha`, lib/src/Image.cpp:1621-1665. -/
def Image.preMultiplyAlpha (i : Image N) : Res (Image N) :=
  if i.format = .RGBA8 ∨ i.format = .RGBA16 ∨ i.format = .RGBAF then
    i.mapPixels A (preMultiply A i.colorSpace)
  else .ok i

/-- `Image::changeColorSpace`, lib/src/Image.cpp:1667-1712. -/
def Image.changeColorSpace (i : Image N) (cs : ColorSpace) : Res (Image N) :=
  if cs = i.colorSpace then .ok i
  else do
    let i ← i.mapPixels A (fun c =>
      if cs = .Linear then ⟨A.sRGBToLinear c.r, A.sRGBToLinear c.g, A.sRGBToLinear c.b, c.a⟩
      else ⟨A.linearToSRGB c.r, A.linearToSRGB c.g, A.linearToSRGB c.b, c.a⟩)
    .ok { i with colorSpace := cs }

/-- The body of the loop of `Image::grayscale`, lib/src/Image.cpp:1726-1740. -/
def grayscaleColor (cs : ColorSpace) (c : Color N) : Color N :=
  let l (v : N) : N := if cs = .sRGB then A.sRGBToLinear v else v
  let v := A.toGrayscale (l c.r) (l c.g) (l c.b)
  let v := if cs = .sRGB then A.linearToSRGB v else v
  ⟨v, v, v, c.a⟩

/-- `Image::grayscale`, lib/src/Image.cpp:1714-1746. -/
def Image.grayscale (i : Image N) : Res (Image N) := i.mapPixels A (grayscaleColor A i.colorSpace)

/-- `reinterpret_cast<double*>(&color)[channel]`, or the value for `None`. -/
def selectChannel (c : Color N) (none : N) : Channel → N
  | .Red => c.r
  | .Green => c.g
  | .Blue => c.b
  | .Alpha => c.a
  | .None => none

/-- `Image::swizzle`, lib/src/Image.cpp:1748-1781. -/
def Image.swizzle (i : Image N) (r g b a : Channel) : Res (Image N) :=
  i.mapPixels A (fun c => ⟨selectChannel c (A.lit 0) r, selectChannel c (A.lit 0) g,
    selectChannel c (A.lit 0) b, selectChannel c (A.lit 1) a⟩)

/-- `Image::flipHorizontal`, lib/src/Image.cpp:1605-1611. -/
def Image.flipHorizontal (i : Image N) : Bool × Image N :=
  let r := FI.flipHorizontal i.bmp
  (r.1, { i with bmp := r.2 })

/-- `Image::flipVertical`, lib/src/Image.cpp:1613-1619. -/
def Image.flipVertical (i : Image N) : Bool × Image N :=
  let r := FI.flipVertical i.bmp
  (r.1, { i with bmp := r.2 })

/-- The angle given to FreeImage, lib/src/Image.cpp:1519-1534. -/
def RotateAngle.degrees : RotateAngle → Nat
  | .CCW90 | .CW270 => 90
  | .CCW180 | .CW180 => 180
  | .CCW270 | .CW90 => 270

/-- The loops of `Image::rotate` without FreeImage, lib/src/Image.cpp:1541-1599: `src` is read, `dst`
written. -/
def rotateLoop (src : Image N) (angle : RotateAngle) (dst : Image N) : Res (Image N) :=
  let w := src.bmp.width
  let h := src.bmp.height
  loop (steps 0 h) (fun y dst => loop (steps 0 w) (fun x dst =>
    match angle with
    | .CCW90 | .CW270 => do
      let c ← src.get A y x
      dst.set A x (dst.bmp.width - y - 1) c
    | .CCW180 | .CW180 => do
      let c ← src.get A y x
      dst.set A (h - y - 1) (w - x - 1) c
    | .CCW270 | .CW90 => do
      let c ← src.get A y (w - x - 1)
      dst.set A x y c) dst) dst

/-- `Image::rotate`, lib/src/Image.cpp:1513-1603. -/
def Image.rotate (i : Image N) (angle : RotateAngle) : Res (Img? N) :=
  match FI.rotate i.bmp angle.degrees with
  | some b => .ok (some ⟨i.format, i.colorSpace, b⟩)
  | none =>
    let turned := match angle with
      | .CCW180 | .CW180 => Image.new FI i.format i.bmp.width i.bmp.height i.colorSpace
      | _ => Image.new FI i.format i.bmp.height i.bmp.width i.colorSpace
    match turned with
    | none => .ok none
    | some dst => do
      let dst ← rotateLoop A i angle dst
      .ok (some dst)

/-- Whether `Image::convert` asks FreeImage for the conversion, lib/src/Image.cpp:1152-1265. -/
def usesFreeImage (src dst : IFormat) (linearGrayscale : Bool) : Bool :=
  src != .UInt16 && match dst with
    | .Gray8 | .Gray16 => linearGrayscale || isGrayscaleFormat src
    | .RGBF => !needFloatConvertFallback src && !isRGB16BPPFormat src
    | .RGBAF => !needFloatConvertFallback src
    | .RGB5 | .RGB565 | .RGB8 | .RGB16 | .RGBA8 | .RGBA16 | .Int16 | .Int32 | .UInt32 => true
    | .Float => (linearGrayscale || isGrayscaleFormat src) && !needFloatConvertFallback src
    | .Double => linearGrayscale && !isGrayscaleFormat src && !needFloatConvertFallback src
    | .UInt16 | .Complex | .Invalid => false

/-- The loops of `Image::convert` without FreeImage, lib/src/Image.cpp:1274-1318. -/
def convertLoop (src : Image N) (convertGrayscale : Bool) (dst : Image N) : Res (Image N) :=
  loop (steps 0 src.bmp.height) (fun y dst => loop (steps 0 src.bmp.width) (fun x dst => do
    let c ← src.get A y x
    let p ← if convertGrayscale = true ∧ src.format ≠ .Complex then
        if src.colorSpace = .Linear then setPixelImpl A dst.format c
        else
          let v := A.linearToSRGB (A.toGrayscale (A.sRGBToLinear c.r) (A.sRGBToLinear c.g)
            (A.sRGBToLinear c.b))
          setPixelNoGrayscaleImpl A dst.format ⟨v, v, v, c.a⟩
      else setPixelNoGrayscaleImpl A dst.format c
    dst.put y x p) dst) dst

/-- `Image::convert`, lib/src/Image.cpp:1130-1322. -/
def Image.convert (i : Image N) (dst : IFormat) (convertGrayscale : Bool) : Res (Img? N) :=
  if i.format = dst then .ok (i.copy FI)
  else if dst = .Invalid then .ok none
  else
    let gray := convertGrayscale && isGrayscaleFormat dst
    let direct := if usesFreeImage i.format dst (gray && decide (i.colorSpace = .Linear)) then
        FI.convert i.format i.bmp dst
      else none
    match direct with
    | some b => .ok (some ⟨dst, i.colorSpace, b⟩)
    | none =>
      match Image.new FI dst i.bmp.width i.bmp.height i.colorSpace with
      | none => .ok none
      | some new => do
        let new ← convertLoop A i gray new
        .ok (some new)

/-- The window of source positions of one axis of the box and linear filters, for the output
position `k`: `max((int)(center - offset + 0.5), 0)` and `min((unsigned)(center + offset + 0.5), n)`;
lib/src/Image.cpp:1396-1407, 1447-1458 and lib/src/Texture.cpp:117-121, 174-178. -/
def window (center offset : N) (n : Nat) : Res (Nat × Nat) := do
  let lo ← A.cast (-2 ^ 31) (2 ^ 31 - 1) (A.add (A.sub center offset) (A.lit 0.5))
  let hi ← A.cast 0 (2 ^ 32 - 1) (A.add (A.add center offset) (A.lit 0.5))
  .ok (lo.toNat, Nat.min hi.toNat n)

/-- `(k + 0.5)*invScale`. -/
def centerOf (k : Nat) (invScale : N) : N := A.mul (A.add (A.lit k) (A.lit 0.5)) invScale

/-- `std::abs(i + 0.5 - center)*filterScale`. -/
def distanceTo (i : Nat) (center filterScale : N) : N :=
  A.mul (A.abs (A.sub (A.add (A.lit i) (A.lit 0.5)) center)) filterScale

/-- The parameters of one axis: `invScale = from/to`, `offset = max(invScale, 1)` and
`filterScale = 1/offset`, lib/src/Image.cpp:1378-1383. -/
def axis (n k : Nat) : N × N × N :=
  let invScale := A.div (A.lit n) (A.lit k)
  let offset := A.max invScale (A.lit 1)
  (invScale, offset, A.div (A.lit 1) offset)

/-- `color += curColor*scale` -/
def addScaled (c d : Color N) (s : N) : Color N :=
  ⟨A.add c.r (A.mul d.r s), A.add c.g (A.mul d.g s), A.add c.b (A.mul d.b s), A.add c.a (A.mul d.a s)⟩

/-- `color += curColor` -/
def addColor (c d : Color N) : Color N :=
  ⟨A.add c.r d.r, A.add c.g d.g, A.add c.b d.b, A.add c.a d.a⟩

/-- `color /= totalScale` -/
def divColor (c : Color N) (s : N) : Color N := ⟨A.div c.r s, A.div c.g s, A.div c.b s, A.div c.a s⟩

/-- `{0, 0, 0, 0}` -/
def zeroColor : Color N := ⟨A.lit 0, A.lit 0, A.lit 0, A.lit 0⟩

/-- The colour of one pixel of the box filter, lib/src/Image.cpp:1396-1437.  `totalScale` is an
`unsigned int`. -/
def boxPixel (src : Image N) (w h y x : Nat) : Res (Color N) := do
  let (invX, offX, scaleX) := axis A src.bmp.width w
  let (invY, offY, scaleY) := axis A src.bmp.height h
  let offX := A.mul offX (A.lit 0.5)
  let offY := A.mul offY (A.lit 0.5)
  let cy := centerOf A y invY
  let cx := centerOf A x invX
  let (top, bottom) ← window A cy offY src.bmp.height
  let (left, right) ← window A cx offX src.bmp.width
  let (color, total) ← loop (steps top bottom) (fun i s =>
    if A.lt (A.lit 0.5) (distanceTo A i cy scaleY) then .ok s
    else loop (steps left right) (fun j s =>
      if A.lt (A.lit 0.5) (distanceTo A j cx scaleX) then .ok s
      else do
        let c ← src.get A i j
        .ok (addColor A s.1 c, u32 (s.2 + 1))) s) (zeroColor A, 0)
  .ok (divColor A color (A.lit total))

/-- The colour of one pixel of the linear filter, lib/src/Image.cpp:1447-1497. -/
def linearPixel (src : Image N) (w h y x : Nat) : Res (Color N) := do
  let (invX, offX, scaleX) := axis A src.bmp.width w
  let (invY, offY, scaleY) := axis A src.bmp.height h
  let cy := centerOf A y invY
  let cx := centerOf A x invX
  let (top, bottom) ← window A cy offY src.bmp.height
  let (left, right) ← window A cx offX src.bmp.width
  let (color, total) ← loop (steps top bottom) (fun i s =>
    let sy := A.max (A.sub (A.lit 1) (distanceTo A i cy scaleY)) (A.lit 0)
    if A.eq sy (A.lit 0) then .ok s
    else loop (steps left right) (fun j s =>
      let sx := A.max (A.sub (A.lit 1) (distanceTo A j cx scaleX)) (A.lit 0)
      if A.eq sx (A.lit 0) then .ok s
      else do
        let c ← src.get A i j
        let scale := A.mul sx sy
        .ok (addScaled A s.1 c scale, A.add s.2 scale)) s) (zeroColor A, A.lit 0)
  .ok (divColor A color total)

/-- Fill every pixel of `dst` with a computed colour. -/
def fillPixels (dst : Image N) (w h : Nat) (f : Nat → Nat → Res (Color N)) : Res (Image N) :=
  loop (steps 0 h) (fun y dst => loop (steps 0 w) (fun x dst => do
    let c ← f y x
    dst.set A y x c) dst) dst

/-- Whether `Image::resize` asks FreeImage to rescale, lib/src/Image.cpp:1361-1374. -/
def rescales : IFormat → Bool
  | .Int16 | .Int32 | .UInt32 | .Double | .Complex => false
  | _ => true

/-- `Image::resize` of a linear image to another size, lib/src/Image.cpp:1341-1511. -/
def resizeLinear (i : Image N) (w h : Nat) (filter : ResizeFilter) : Res (Img? N) :=
  match (if rescales i.format then FI.rescale i.bmp w h filter else none) with
  | some b => .ok (some ⟨i.format, i.colorSpace, b⟩)
  | none =>
    match filter with
    | .Box | .Linear =>
      match Image.new FI i.format w h i.colorSpace with
      | none => .ok none
      | some dst => do
        let dst ← fillPixels A dst w h
          (fun y x => if filter = .Box then boxPixel A i w h y x else linearPixel A i w h y x)
        .ok (some dst)
    | _ => .ok none

/-- `Image::resize`, lib/src/Image.cpp:1324-1511.  Simplification: a failing copy at line 1339 gives
an invalid image, as in the code. -/
def Image.resize (i : Image N) (w h : Nat) (filter : ResizeFilter) : Res (Img? N) :=
  if w = 0 ∨ h = 0 then .ok none
  else if w = i.bmp.width ∧ h = i.bmp.height then .ok (i.copy FI)
  else if i.colorSpace ≠ .Linear then
    match i.copy FI with
    | none => .ok none
    | some j => do
      let j ← j.changeColorSpace A .Linear
      let j ← resizeLinear A FI j w h filter
      match j with
      | none => .ok none
      | some j => do
        let j ← j.changeColorSpace A i.colorSpace
        .ok (some j)
  else resizeLinear A FI i w h filter

/-- The rows before and after row `y` and the distance between them, lib/src/Image.cpp:1793-1822; the
same for columns, lines 1834-1861. -/
def neighbours (wrap : Bool) (n y : Nat) : Nat × Nat × Nat :=
  let (y0, d) := if y = 0 then (if wrap then (n - 1, 2) else (y, 1)) else (y - 1, 2)
  let (y2, d) := if y = n - 1 then (if wrap then (0, d) else (y, 1)) else (y + 1, d)
  (y0, y2, d)

/-- The normal at a pixel, lib/src/Image.cpp:1828-1874. -/
def normalAt (src : Image N) (o : NormalOptions) (height : N) (y x : Nat) : Res (Color N) := do
  let (y0, y2, distY) := neighbours o.wrapY src.bmp.height y
  let c0 ← src.get A y0 x
  let c1 ← src.get A y2 x
  let dy := A.div (A.mul (A.sub c0.r c1.r) height) (A.lit distY)
  let (x0, x2, distX) := neighbours o.wrapX src.bmp.width x
  let c0 ← src.get A y x0
  let c1 ← src.get A y x2
  let dx := A.div (A.mul (A.sub c0.r c1.r) height) (A.lit distX)
  let len := A.sqrt (A.add (A.add (A.mul dx dx) (A.mul dy dy)) (A.lit 1))
  let n : Color N := ⟨A.div dx len, A.div dy len, A.div (A.lit 1) len, A.lit 1⟩
  if o.keepSign then .ok n
  else
    let m (v : N) : N := A.add (A.mul v (A.lit 0.5)) (A.lit 0.5)
    .ok ⟨m n.r, m n.g, m n.b, n.a⟩

/-- `Image::createNormalMap`, lib/src/Image.cpp:1783-1880. -/
def Image.createNormalMap (i : Image N) (o : NormalOptions) (height : N) (dst : IFormat) :
    Res (Img? N) :=
  match Image.new FI dst i.bmp.width i.bmp.height i.colorSpace with
  | none => .ok none
  | some new => do
    let new ← loop (steps 0 i.bmp.height) (fun y new => loop (steps 0 i.bmp.width) (fun x new => do
      let c ← normalAt A i o height y x
      let p ← setPixelImpl A dst c
      new.put y x p) new) new
    .ok (some new)

end Cuttlefish
