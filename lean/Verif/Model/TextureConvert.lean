import Verif.Model.Texture
import Verif.Model.Converter
/-
`Texture::convert`, the data accessors, copies, and histories of calls.

The encoders are the parameter `Encoder`; Model/Encode.lean and later modules supply the concrete
ones.
-/
namespace Cuttlefish

/-- `Texture::Quality`, lib/include/cuttlefish/Texture.h:181-188. -/
inductive Quality where
  | Lowest | Low | Normal | High | Highest
  deriving DecidableEq, Repr, Inhabited

/-- What a converter can see of the texture and of the call. -/
structure ConvArgs where
  format : Format
  type : TType
  alphaType : Alpha
  colorMask : ColorMask
  colorSpace : ColorSpace
  quality : Quality
  threads : Nat
  deriving DecidableEq, Repr

/-- Running one converter object over one image: constructor, all jobs, `data()`
(lib/src/Converter.cpp:528-585 for one surface). -/
abbrev Encoder (Img : Type) := Conv → ConvArgs → Img → Res (List UInt8)

section
variable {Img : Type}

/-- The innermost loop (faces) of `Converter::convert`, lib/src/Converter.cpp:526-586.  Returns
whether all converters could be created, the images afterwards (`reset()` once encoded) and the
encoded surfaces.  An invalid image has no pixels to read: undefined behaviour. -/
def convFaces (c : Features) (enc : Encoder Img) (a : ConvArgs) :
    List (Option Img) → Res (Bool × List (Option Img) × List (List UInt8))
  | [] => .ok (true, [], [])
  | g :: gs =>
    match createConverter c a.format a.type with
    | none => .ok (false, g :: gs, [])
    | some k =>
      match g with
      | none => .ub
      | some i => do
        let bytes ← enc k a i
        let (ok, gs', bs) ← convFaces c enc a gs
        pure (ok, none :: gs', bytes :: bs)

/-- The middle loop (depth) of `Converter::convert`, lib/src/Converter.cpp:523-587. -/
def convDepths (c : Features) (enc : Encoder Img) (a : ConvArgs) :
    List (List (Option Img)) → Res (Bool × List (List (Option Img)) × List (List (List UInt8)))
  | [] => .ok (true, [], [])
  | fs :: ds => do
    let (ok, fs', bs) ← convFaces c enc a fs
    if ok then
      let (ok', ds', bss) ← convDepths c enc a ds
      pure (ok', fs' :: ds', bs :: bss)
    else pure (false, fs' :: ds, [])

/-- The outer loop (levels) of `Converter::convert`, lib/src/Converter.cpp:519-590.  On failure
the texture data is cleared. -/
def convMips (c : Features) (enc : Encoder Img) (a : ConvArgs) :
    Store (Option Img) → Res (Bool × Store (Option Img) × Store (List UInt8))
  | [] => .ok (true, [], [])
  | ds :: ms => do
    let (ok, ds', bs) ← convDepths c enc a ds
    if ok then
      let (ok', ms', bss) ← convMips c enc a ms
      pure (ok', ds' :: ms', if ok' then bs :: bss else [])
    else pure (false, ds' :: ms, [])

/-- `Texture::allCores`, lib/include/cuttlefish/Texture.h:410 (`UINT_MAX`). -/
def allCores : Nat := pow32 - 1

/-- `Texture::convert`, lib/src/Texture.cpp:1536-1561.  `hw` is
`std::thread::hardware_concurrency()`. -/
def Tex.convert (c : Features) (hw : Nat) (enc : Encoder Img) (t : Tex Img) (format : Format)
    (type : TType) (quality : Quality) (alphaType : Alpha) (colorMask : ColorMask)
    (threads : Nat) : Res (Bool × Tex Img) :=
  if !t.imagesComplete || !isFormatValid c format type then .ok (false, t)
  else match t with
    | none => .ub   -- null dereference of m_impl
    | some i =>
      if i.colorSpace = .sRGB ∧ !hasNativeSRGB format type then .ok (false, t)
      else do
        let i' := { i with format, type, alphaType, colorMask }
        let threads' := if threads = allCores then hw else threads
        let a : ConvArgs := ⟨format, type, alphaType, colorMask, i.colorSpace, quality, threads'⟩
        let (ok, images, textures) ← convMips c enc a i.images
        if ok then pure (true, some { i' with images, textures })
        else pure (false, some { i' with images, format := .Unknown, textures := [] })

/-- `Texture::converted`, lib/src/Texture.cpp:1563-1566. -/
def Tex.converted : Tex Img → Bool
  | none => false
  | some i => !i.textures.isEmpty

/-- `Texture::format`, lib/src/Texture.cpp:1568-1574. -/
def Tex.format : Tex Img → Format
  | none => .Unknown
  | some i => i.format

/-- `Texture::type`, lib/src/Texture.cpp:1576-1582. -/
def Tex.type : Tex Img → TType
  | none => .UNorm
  | some i => i.type

/-- `Texture::alphaType`, lib/src/Texture.cpp:1584-1590. -/
def Tex.alphaType : Tex Img → Alpha
  | none => .None
  | some i => i.alphaType

/-- `Texture::colorMask`, lib/src/Texture.cpp:1592-1598. -/
def Tex.colorMask : Tex Img → ColorMask
  | none => {}
  | some i => i.colorMask

/-- `Texture::dimension`, lib/src/Texture.cpp:1170-1176. -/
def Tex.dimension : Tex Img → Dimension
  | none => .Dim2D
  | some i => i.dimension

/-- `Texture::colorSpace`, lib/src/Texture.cpp:1178-1184. -/
def Tex.colorSpace : Tex Img → ColorSpace
  | none => .Linear
  | some i => i.colorSpace

/-- `Texture::data` and `Texture::dataSize` (both overloads), lib/src/Texture.cpp:1600-1636:
`none` is the null pointer (size 0), otherwise the bytes of the surface. -/
def Tex.data (t : Tex Img) (face : Option CubeFace) (mip depth : Nat) :
    Res (Option (List UInt8)) := do
  if !t.converted then pure none
  else
    let d ← t.depthAt mip
    if depth ≥ d then pure none
    else match t with
      | none => .ub
      | some i => match faceIndex i.faces face with
        | none => pure none
        | some f => do
          let b ← i.textures.get mip depth f
          pure (some b)

/-- `Texture::dataSize` (both overloads), lib/src/Texture.cpp:1600-1617. -/
def Tex.dataSize (t : Tex Img) (face : Option CubeFace) (mip depth : Nat) : Res Nat := do
  let d ← t.data face mip depth
  pure (match d with
    | none => 0
    | some b => b.length)

/-- Copy construction and copy assignment, lib/src/Texture.cpp:1098-1124: the implementation is
cloned (`new Impl(*other.m_impl)`), or the target reset.  The clone is a value copy because every
member, `Image` included (lib/src/Image.cpp:846-867), copies deeply. -/
def Tex.assign (_old other : Tex Img) : Tex Img :=
  match other with
  | none => none
  | some i => some i

/-- A public call on a texture, with its arguments. -/
inductive Op (Img : Type) where
  | initialize (dim : Dimension) (width height depth mipLevels : Nat) (cs : ColorSpace)
  | reset
  | setImage (img : Option Img) (move : Bool) (face : Option CubeFace) (mip depth : Nat)
  | generateMipmaps (filter : ResizeFilter) (mipLevels : Nat) (custom : CustomMips Img)
  | convert (format : Format) (type : TType) (quality : Quality) (alphaType : Alpha)
      (colorMask : ColorMask) (threads : Nat)
  | getImage (face : Option CubeFace) (mip depth : Nat)
  | extents (mip : Nat)
  | data (face : Option CubeFace) (mip depth : Nat)

/-- What stays the same during a run: the image library, the build configuration, the number of
cores and the encoders. -/
structure World (Img : Type) where
  lib : ImageLib Img
  feat : Features
  hw : Nat
  enc : Encoder Img

/-- What a public call returns. -/
inductive Out (Img : Type) where
  | unit
  | bool (b : Bool)
  | image (g : Option Img)
  | extents (width height depth levels faces : Nat)
  | data (bytes : Option (List UInt8)) (size : Nat)

/-- One public call (see the functions called for the lines modelled): its result and the new
state; read-only calls keep the state but may be undefined. -/
def call (W : World Img) (t : Tex Img) : Op Img → Res (Out Img × Tex Img)
  | .initialize dim w h d m cs =>
    let r := t.initialize dim w h d m cs
    .ok (.bool r.1, r.2)
  | .reset => .ok (.unit, t.reset)
  | .setImage img mv face mip depth => do
    let r ← t.setImage W.lib img mv face mip depth
    pure (.bool r.1, r.2)
  | .generateMipmaps filter m custom => do
    let r ← t.generateMipmaps W.lib filter m custom
    pure (.bool r.1, r.2)
  | .convert f ty q a m th => do
    let r ← t.convert W.feat W.hw W.enc f ty q a m th
    pure (.bool r.1, r.2)
  | .getImage face mip depth => do
    let g ← t.getImage face mip depth
    pure (.image g, t)
  | .extents mip => do
    let w ← t.widthAt mip
    let h ← t.heightAt mip
    let d ← t.depthAt mip
    pure (.extents w h d t.mipLevelCount t.faceCount, t)
  | .data face mip depth => do
    let b ← t.data face mip depth
    let n ← t.dataSize face mip depth
    pure (.data b n, t)

/-- A whole history of calls: the results and the final state. -/
def run (W : World Img) : Tex Img → List (Op Img) → Res (List (Out Img) × Tex Img)
  | t, [] => .ok ([], t)
  | t, o :: os => do
    let r ← call W t o
    let rs ← run W r.2 os
    pure (r.1 :: rs.1, rs.2)

end
end Cuttlefish
