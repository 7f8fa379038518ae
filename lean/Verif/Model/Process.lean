import Verif.Model.Adjust
import Verif.Model.CommandLine
import Verif.Model.Tool
/-
The processing of an input image by the tool (tool/main.cpp:147-273).  Messages are not modelled.  A method of
`Image` on an invalid image leaves it invalid (or returns an invalid one); the results of the methods that
return a `bool` are ignored, as in the code.
-/
namespace Cuttlefish
variable {N : Type}

/-- `isSigned`, tool/main.cpp:63-79. -/
def isSigned : TType → Bool
  | .UNorm | .UInt | .UFloat => false
  | .SNorm | .Int | .Float => true

/-- A method that makes another image. -/
def onValid (f : Image N → Res (Img? N)) : Img? N → Res (Img? N)
  | none => .ok none
  | some i => f i

/-- A method that changes the image. -/
def onPixels (f : Image N → Res (Image N)) : Img? N → Res (Img? N) :=
  onValid (fun i => do
    let j ← f i
    .ok (some j))

/-- `if (asked) image = method(image);` -/
def whenAsked (asked : Bool) (f : Img? N → Res (Img? N)) (i : Img? N) : Res (Img? N) :=
  if asked then f i else .ok i

/-- `Image::width`, lib/src/Image.cpp:1000-1006. -/
def widthOf : Img? N → Nat
  | none => 0
  | some i => i.bmp.width

/-- `Image::height`, lib/src/Image.cpp:1008-1014. -/
def heightOf : Img? N → Nat
  | none => 0
  | some i => i.bmp.height

/-- `Image::format`, lib/src/Image.cpp:976-982. -/
def formatOf : Img? N → IFormat
  | none => .Invalid
  | some i => i.format

variable (A : Arith N) (FI : FreeImage N)

/-- Resizing if the size is another one, tool/main.cpp:198-206 and 238-239. -/
def resizeTo (w h : Nat) (filter : ResizeFilter) (i : Img? N) : Res (Img? N) :=
  if w ≠ widthOf i ∨ h ≠ heightOf i then onValid (fun i => i.resize A FI w h filter) i else .ok i

/-- The target size, tool/main.cpp:158-162: the first image sets it. -/
def targetSize (args : Cmd N) (i : Image N) (w h : Nat) : Nat × Nat :=
  if w = pow32 - 1 ∧ h = pow32 - 1 then
    (getDimension i.bmp.width i.bmp.width i.bmp.height (sizeOfInt args.width),
      getDimension i.bmp.height i.bmp.width i.bmp.height (sizeOfInt args.height))
  else (w, h)

/-- `std::max(size >> mipLevel, 1U)`, tool/main.cpp:190-191. -/
def thisSize (size mipLevel : Nat) : Res Nat :=
  if mipLevel < 32 then .ok (Nat.max (size / 2 ^ mipLevel) 1) else .ub

/-- The normal map, tool/main.cpp:225-243: the image and the format it had originally. -/
def toolNormalMap (args : Cmd N) (size this : Nat × Nat) (orig : IFormat) (i : Img? N) :
    Res (Img? N × IFormat) :=
  if args.normalMap then do
    let o := if isSigned args.type then { args.normalOptions with keepSign := true } else args.normalOptions
    let i ← onValid (fun i => i.createNormalMap A FI o args.normalHeight .RGBF) i
    let i ← whenAsked (decide (size.1 ≠ this.1 ∨ size.2 ≠ this.2))
      (onValid (fun i => i.resize A FI this.1 this.2 args.resizeFilter)) i
    .ok (i, formatOf i)
  else .ok (i, orig)

/-- From the loaded image on, tool/main.cpp:164-272, for a target size. -/
def processLoaded (args : Cmd N) (i : Image N) (w h mipLevel : Nat) : Res (Img? N) := do
  let j ← whenAsked (decide (i.format ≠ .RGBAF)) (onValid (fun i => i.convert A FI .RGBAF true)) (some i)
  let j ← whenAsked (decide (args.textureColorSpace ≠ args.imageColorSpace))
    (onPixels (fun i => i.changeColorSpace A args.textureColorSpace)) j
  let tw ← thisSize w mipLevel
  let th ← thisSize h mipLevel
  let size := if args.normalMap then (w, h) else (tw, th)
  let j ← resizeTo A FI size.1 size.2 args.resizeFilter j
  let j ← whenAsked args.rotate (onValid (fun i => i.rotate A FI args.rotateAngle)) j
  let j ← whenAsked args.grayscale (onPixels (fun i => i.grayscale A)) j
  let n ← toolNormalMap A FI args size (tw, th) i.format j
  let j ← whenAsked args.flipX (onPixels (fun i => .ok (i.flipHorizontal FI).2)) n.1
  let j ← whenAsked args.flipY (onPixels (fun i => .ok (i.flipVertical FI).2)) j
  let j ← whenAsked args.swizzle
    (onPixels (fun i => i.swizzle A args.redSwzl args.greenSwzl args.blueSwzl args.alphaSwzl)) j
  let j ← whenAsked args.preMultiply (onPixels (fun i => i.preMultiplyAlpha A)) j
  onValid (fun i => adjustImageValueRange A FI i args.type n.2) j

/-- `loadAndProcessImage`, tool/main.cpp:147-273; `read` is `Image::load`.  `none`: returns false.  Else the
image, which may be invalid, and the target size afterwards. -/
def loadAndProcess (read : Str → ColorSpace → Img? N) (args : Cmd N) (path : Str) (w h mipLevel : Nat) :
    Res (Option (Img? N × Nat × Nat)) :=
  match read path args.imageColorSpace with
  | none => .ok none
  | some i => do
    let t := targetSize args i w h
    let j ← processLoaded A FI args i t.1 t.2 mipLevel
    .ok (some (j, t.1, t.2))

end Cuttlefish
