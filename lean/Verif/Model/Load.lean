import Verif.Model.Image
/-
Class `Image` (lib/src/Image.cpp): how image objects are made of the bitmaps of FreeImage, and what they say about the
layout of their pixels.

Simplification: a bitmap is what the functions of FreeImage report about it (`FIBitmap`), its pixels are those of
`Model/Image`; the pixels of a bitmap with a palette are the numbers of its entries.  `FreeImage_Unload` is not modelled
here (see `Model/ImageObjects`).
-/
namespace Cuttlefish

/-- `FREE_IMAGE_TYPE` (FreeImage.h). -/
inductive FIType where
  | UNKNOWN | BITMAP | UINT16 | INT16 | UINT32 | INT32 | FLOAT | DOUBLE | COMPLEX | RGB16 | RGBA16 | RGBF | RGBAF
  deriving DecidableEq, Repr

/-- `FREE_IMAGE_COLOR_TYPE` (FreeImage.h). -/
inductive FIColor where
  | MinIsWhite | MinIsBlack | RGB | Palette | RGBAlpha | CMYK
  deriving DecidableEq, Repr

/-- A `FIBITMAP`: what `FreeImage_GetImageType`, `GetBPP`, `GetColorType`, `IsTransparent`, `GetRedMask`,
`GetGreenMask`, `GetBlueMask`, `GetPalette` (red, green, blue), `GetTransparencyTable` and `GetScanLine` tell. -/
structure FIBitmap (N : Type) where
  type : FIType
  bpp : Nat
  color : FIColor
  transparent : Bool
  redMask : Nat
  greenMask : Nat
  blueMask : Nat
  palette : Nat → Nat × Nat × Nat
  alphas : Nat → Nat
  pixels : Bitmap N

/-- `FreeImage_ConvertTo24Bits` and `FreeImage_ConvertTo32Bits`, which may fail. -/
structure FromPalette (N : Type) where
  to24 : FIBitmap N → Option (FIBitmap N)
  to32 : FIBitmap N → Option (FIBitmap N)

variable {N : Type}

/-- `getFormat`, lib/src/Image.cpp:56-107.  The masks of green are `FI16_555_GREEN_MASK` and
`FI16_565_GREEN_MASK`. -/
def getFormat (b : FIBitmap N) : IFormat :=
  match b.type with
  | .BITMAP =>
    if b.bpp = 8 then .Gray8
    else if b.bpp = 16 then
      if b.greenMask = 0x03E0 then .RGB5 else if b.greenMask = 0x07E0 then .RGB565 else .Invalid
    else if b.bpp = 24 then .RGB8
    else if b.bpp = 32 then .RGBA8
    else .Invalid
  | .UINT16 => .Gray16
  | .INT16 => .Int16
  | .UINT32 => .UInt32
  | .INT32 => .Int32
  | .FLOAT => .Float
  | .DOUBLE => .Double
  | .COMPLEX => .Complex
  | .RGB16 => .RGB16
  | .RGBA16 => .RGBA16
  | .RGBF => .RGBF
  | .RGBAF => .RGBAF
  | .UNKNOWN => .Invalid

/-- The members of `Image::Impl` that describe the pixels, lib/src/Image.cpp:787-797. -/
structure PixelInfo where
  bitsPerPixel : Nat
  redMask : Nat
  greenMask : Nat
  blueMask : Nat
  alphaMask : Nat
  redShift : Nat
  greenShift : Nat
  blueShift : Nat
  alphaShift : Nat
  deriving DecidableEq, Repr

/-- The shift that goes with a mask, lib/src/Image.cpp:750-772.  The first comparison is with the index of the byte
(`FI_RGBA_RED` is 2, `FI_RGBA_GREEN` 1, `FI_RGBA_BLUE` 0), not with its mask. -/
def shiftOf (mask index shift8 mask555 shift555 mask565 shift565 : Nat) : Nat :=
  if mask = index then shift8
  else if mask = mask555 then shift555
  else if mask = mask565 then shift565
  else 0

/-- The constructor of `Image::Impl`, lib/src/Image.cpp:742-773, on a little-endian machine.  The mask of blue is
initialised with the one of green (line 746). -/
def pixelInfo (b : FIBitmap N) (format : IFormat) : PixelInfo :=
  let red := b.redMask
  let green := b.greenMask
  let blue := b.greenMask
  let alpha := if format = .RGBA8 then 0xFF000000 else 0
  { bitsPerPixel := b.bpp
    redMask := red
    greenMask := green
    blueMask := blue
    alphaMask := alpha
    redShift := shiftOf red 2 16 0x7C00 10 0xF800 11
    greenShift := shiftOf green 1 8 0x03E0 5 0x07E0 5
    blueShift := shiftOf blue 0 0 0x001F 0 0x001F 0
    alphaShift := if alpha = 0xFF000000 then 24 else 0 }

/-- `Image::Impl::create`, lib/src/Image.cpp:712-740: the image and what it says about its pixels. -/
def createImpl (FP : FromPalette N) (b : Option (FIBitmap N)) (cs : ColorSpace) (format : IFormat) :
    Option (Image N × PixelInfo) :=
  match b with
  | none => none
  | some b =>
    let b' := if b.color = .Palette then if b.transparent then FP.to32 b else FP.to24 b else some b
    match b' with
    | none => none
    | some b =>
      let f := if format = .Invalid then getFormat b else format
      if f = .Invalid then none else some (⟨f, cs, b.pixels⟩, pixelInfo b f)

/-- `FreeImage_GetFileType` (`none`: `FIF_UNKNOWN`) and `FreeImage_Load`, for names of files. -/
structure ImageFiles (N F : Type) where
  fileType : List UInt8 → Option F
  load : F → List UInt8 → Option (FIBitmap N)

/-- `Image::load(fileName, colorSpace)`, lib/src/Image.cpp:870-880: the object afterwards; the result is whether it is
valid. -/
def loadFile {F : Type} (FP : FromPalette N) (D : ImageFiles N F) (name : List UInt8) (cs : ColorSpace) :
    Option (Image N × PixelInfo) :=
  match D.fileType name with
  | none => none
  | some f => createImpl FP (D.load f name) cs .Invalid

end Cuttlefish
