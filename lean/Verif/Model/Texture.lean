import Verif.Model.Geometry
/-
`Texture::Impl` as a state machine.

Images are abstract: the image class (and FreeImage below it) is the parameter `ImageLib`.
`Option Img` stands for a C++ `Image` object, `none` being the invalid image.
Vector indexing outside the bounds is undefined behaviour (`Res.ub`).
-/
namespace Cuttlefish

/-- `Image::ResizeFilter`, lib/include/cuttlefish/Image.h:79-86. -/
inductive ResizeFilter where
  | Box | Linear | Cubic | CatmullRom | BSpline
  deriving DecidableEq, Repr

/-- The operations of class `Image` (lib/include/cuttlefish/Image.h:47-463) that class `Texture`
uses.  All functions act on valid images. -/
structure ImageLib (Img : Type) where
  /-- `Image::width`, lib/src/Image.cpp:1004-1010 -/
  width : Img → Nat
  /-- `Image::height`, lib/src/Image.cpp:1012-1018 -/
  height : Img → Nat
  /-- `Image::format() == RGBAF`, lib/src/Image.cpp:980-986 -/
  isRGBAF : Img → Bool
  /-- `Image::colorSpace`, lib/src/Image.cpp:988-994 -/
  colorSpace : Img → ColorSpace
  /-- `Image::convert(Format::RGBAF)`, lib/src/Image.cpp:1130-1322; `none` if it fails -/
  toRGBAF : Img → Option Img
  /-- `Image::changeColorSpace`, lib/src/Image.cpp:1667-1712 -/
  changeColorSpace : Img → ColorSpace → Img
  /-- `Image::resize`, lib/src/Image.cpp:1324-1511; `none` if it fails -/
  resize : Img → Nat → Nat → ResizeFilter → Option Img
  /-- `generateMips3d` (lib/src/Texture.cpp:103-227) for one output slice: source slices,
  output width, height, depth, slice index, colour space, filter -/
  mip3d : List Img → Nat → Nat → Nat → Nat → ColorSpace → ResizeFilter → Img

/-- `Texture::ImageIndex`, lib/include/cuttlefish/Texture.h:242-300. -/
structure ImageIndex where
  cubeFace : CubeFace
  mipLevel : Nat
  depth : Nat
  deriving DecidableEq, Repr

/-- `Texture::CustomMipImage`, lib/include/cuttlefish/Texture.h:326-394: the image pointer may be
null (`none`) or point to an invalid image (`some none`). -/
structure CustomMip (Img : Type) where
  image : Option (Option Img)
  replacement : MipReplacement

/-- `customMip.second.image && *customMip.second.image`, the negation of the test at
lib/src/Texture.cpp:1335-1339. -/
def CustomMip.usable {Img : Type} (c : CustomMip Img) : Bool :=
  match c.image with
  | some (some _) => true
  | _ => false

/-- `Texture::CustomMipImages` (an `unordered_map`, lib/include/cuttlefish/Texture.h:400) as an
association list. -/
abbrev CustomMips (Img : Type) := List (ImageIndex × CustomMip Img)

/-- `customMipImages.find(index)`. -/
def CustomMips.find {Img : Type} (m : CustomMips Img) (i : ImageIndex) : Option (CustomMip Img) :=
  (List.find? (fun e => e.1 == i) m).map (·.2)

/-- `MipImageList` / `MipTextureList` (lib/src/Texture.cpp:231-238): level, depth, face. -/
abbrev Store (α : Type) := List (List (List α))

/-- `v[mip][depth][face]` on nested vectors. -/
def Store.get {α : Type} (s : Store α) (mip depth face : Nat) : Res α :=
  match s[mip]? with
  | none => .ub
  | some ds => match ds[depth]? with
    | none => .ub
    | some fs => match fs[face]? with
      | none => .ub
      | some a => .ok a

/-- `v[mip][depth][face] = a` on nested vectors. -/
def Store.set {α : Type} (s : Store α) (mip depth face : Nat) (a : α) : Res (Store α) :=
  match s[mip]? with
  | none => .ub
  | some ds => match ds[depth]? with
    | none => .ub
    | some fs => if face < fs.length then .ok (List.set s mip (List.set ds depth (List.set fs face a))) else .ub

/-- `std::vector::resize`: cut off or append value-initialised elements. -/
def vresize {α : Type} (l : List α) (n : Nat) (dflt : α) : List α :=
  l.take n ++ List.replicate (n - l.length) dflt

/-- `Texture::Impl`, lib/src/Texture.cpp:240-256. -/
structure TexImpl (Img : Type) where
  dimension : Dimension
  colorSpace : ColorSpace
  width : Nat
  height : Nat
  depth : Nat
  mipLevels : Nat
  faces : Nat
  images : Store (Option Img)
  format : Format := .Unknown
  type : TType := .UNorm
  alphaType : Alpha := .Standard
  colorMask : ColorMask := {}
  textures : Store (List UInt8) := []

/-- A `Texture` object: the `m_impl` pointer, possibly null. -/
abbrev Tex (Img : Type) := Option (TexImpl Img)

section
variable {Img : Type}

/-- `Texture::initialize`, lib/src/Texture.cpp:1136-1163. The previous state is discarded by
`reset()`. -/
def Tex.initialize (_old : Tex Img) (dimension : Dimension) (width height depth mipLevels : Nat)
    (colorSpace : ColorSpace) : Bool × Tex Img :=
  if width = 0 ∨ height = 0 ∨ (dimension = .Dim3D ∧ depth = 0) then (false, none)
  else
    let mips := min (max mipLevels 1) (maxMipmapLevels dimension width height depth)
    let faces := if dimension = .Cube then 6 else 1
    (true, some {
      dimension, colorSpace, width, height, depth
      mipLevels := mips
      faces
      images := List.replicate mips (List.replicate (max depth 1) (List.replicate faces none)) })

/-- `Texture::reset`, lib/src/Texture.cpp:1165-1168. -/
def Tex.reset (_old : Tex Img) : Tex Img := none

/-- `Texture::isArray`, lib/src/Texture.cpp:1186-1189. -/
def Tex.isArray : Tex Img → Bool
  | none => false
  | some t => t.dimension ≠ .Dim3D ∧ t.depth > 0

/-- `std::max(extent >> mipLevel, 1U)`. -/
def mipExtent (extent mip : Nat) : Res Nat := do
  let s ← shr32 extent mip
  pure (max s 1)

/-- `Texture::width(mipLevel)`, lib/src/Texture.cpp:1191-1197. -/
def Tex.widthAt : Tex Img → Nat → Res Nat
  | none, _ => .ok 0
  | some t, mip => if mip ≥ t.mipLevels then .ok 0 else mipExtent t.width mip

/-- `Texture::height(mipLevel)`, lib/src/Texture.cpp:1199-1205. -/
def Tex.heightAt : Tex Img → Nat → Res Nat
  | none, _ => .ok 0
  | some t, mip => if mip ≥ t.mipLevels then .ok 0 else mipExtent t.height mip

/-- `Texture::depth(mipLevel)`, lib/src/Texture.cpp:1207-1216. -/
def Tex.depthAt : Tex Img → Nat → Res Nat
  | none, _ => .ok 0
  | some t, mip =>
    if mip ≥ t.mipLevels then .ok 0
    else if t.dimension = .Dim3D then mipExtent t.depth mip
    else .ok (max t.depth 1)

/-- `Texture::mipLevelCount`, lib/src/Texture.cpp:1218-1224. -/
def Tex.mipLevelCount : Tex Img → Nat
  | none => 0
  | some t => t.mipLevels

/-- `Texture::faceCount`, lib/src/Texture.cpp:1226-1232. -/
def Tex.faceCount : Tex Img → Nat
  | none => 0
  | some t => t.faces

/-- The face index used by the overload without a face (`none`: index 0, only if `faces == 1`) and
by the overload with a face (only if `faces == 6` or the face is `PosX`); `none` if the guard
rejects.  lib/src/Texture.cpp:1237, 1246, 1255, 1287. -/
def faceIndex (faces : Nat) : Option CubeFace → Option Nat
  | none => if faces ≠ 1 then none else some 0
  | some f => if faces ≠ 6 ∧ f ≠ .PosX then none else some f.toNat

/-- `Texture::getImage` (both overloads), lib/src/Texture.cpp:1234-1250. -/
def Tex.getImage (t : Tex Img) (face : Option CubeFace) (mip depth : Nat) : Res (Option Img) := do
  let d ← t.depthAt mip
  if depth ≥ d then pure none
  else match t with
    | none => .ub   -- null dereference of m_impl
    | some i => match faceIndex i.faces face with
      | none => pure none
      | some f => i.images.get mip depth f

/-- `image.width()` of a possibly invalid image, lib/src/Image.cpp:1004-1010. -/
def ImageLib.widthO (L : ImageLib Img) : Option Img → Nat
  | none => 0
  | some i => L.width i

/-- `image.height()` of a possibly invalid image, lib/src/Image.cpp:1012-1018. -/
def ImageLib.heightO (L : ImageLib Img) : Option Img → Nat
  | none => 0
  | some i => L.height i

/-- `image.convert(RGBAF)` of a possibly invalid image, lib/src/Image.cpp:1130-1141. -/
def ImageLib.toRGBAFO (L : ImageLib Img) : Option Img → Option Img
  | none => none
  | some i => L.toRGBAF i

/-- `Texture::setImage` (all four overloads), lib/src/Texture.cpp:1252-1318.  `move` selects the
rvalue overloads, which keep an image that is already RGBAF.  Returns the boolean result and the
new state. -/
def Tex.setImage (L : ImageLib Img) (t : Tex Img) (img : Option Img) (move : Bool)
    (face : Option CubeFace) (mip depth : Nat) : Res (Bool × Tex Img) := do
  let d ← t.depthAt mip
  if depth ≥ d then pure (false, t)
  else
    let w ← t.widthAt mip
    let h ← t.heightAt mip
    if L.widthO img ≠ w ∨ L.heightO img ≠ h then pure (false, t)
    else match t with
      | none => .ub   -- null dereference of m_impl
      | some i => match faceIndex i.faces face with
        | none => pure (false, t)
        | some f =>
          let conv := match img with
            | none => none
            | some g => if move ∧ L.isRGBAF g then some g else L.toRGBAF g
          let stored := conv.map (fun g => L.changeColorSpace g i.colorSpace)
          let images ← i.images.set mip depth f stored
          pure (stored.isSome, some { i with images })

/-- `image.resize(...)` of a possibly invalid image, lib/src/Image.cpp:1324-1328. -/
def ImageLib.resizeO (L : ImageLib Img) (i : Option Img) (w h : Nat) (filter : ResizeFilter) :
    Option Img :=
  match i with
  | none => none
  | some g => L.resize g w h filter

/-- A custom mip image brought to the size and format of its level,
lib/src/Texture.cpp:1424-1428 and 1498-1505. -/
def customResult (L : ImageLib Img) (c : CustomMip Img) (w h : Nat) (filter : ResizeFilter) :
    Option Img :=
  let r := match c.image with
    | none => none
    | some i => L.resizeO i w h filter
  match r with
  | none => none
  | some g => if L.isRGBAF g then some g else L.toRGBAF g

/-- The generated image of a level: resize of `prevImage` if it is valid, of the previous level
otherwise, lib/src/Texture.cpp:1476-1485. -/
def genMipImage (L : ImageLib Img) (images : Store (Option Img)) (prevImage : Option Img)
    (d f mip mipWidth mipHeight : Nat) (filter : ResizeFilter) : Res (Option Img) :=
  match prevImage with
  | some p => .ok (L.resize p mipWidth mipHeight filter)
  | none => do
    let src ← images.get (mip - 1) d f
    pure (L.resizeO src mipWidth mipHeight filter)

/-- Body of the innermost loop of `generateMipmaps` for non-3D textures (one level `mip` of one
face and layer), lib/src/Texture.cpp:1463-1508.  The state is the image store and `prevImage`. -/
def genMipStep (L : ImageLib Img) (t : TexImpl Img) (filter : ResizeFilter)
    (custom : CustomMips Img) (d f mip : Nat) (face : CubeFace)
    (st : Store (Option Img) × Option Img) : Res (Store (Option Img) × Option Img) := do
  let mipWidth ← Tex.widthAt (some t) mip
  let mipHeight ← Tex.heightAt (some t) mip
  match CustomMips.find custom ⟨face, mip, d⟩ with
  | none => do
    -- customMip = restoreState = false
    let curMip ← genMipImage L st.1 st.2 d f mip mipWidth mipHeight filter
    let images' ← st.1.set mip d f curMip
    pure (images', none)
  | some c =>
    if c.replacement = .Once then do
      -- restoreState: `curMip` is moved into `prevImage`
      let curMip ← genMipImage L st.1 st.2 d f mip mipWidth mipHeight filter
      let images' ← st.1.set mip d f (customResult L c mipWidth mipHeight filter)
      pure (images', curMip)
    else do
      let images' ← st.1.set mip d f (customResult L c mipWidth mipHeight filter)
      pure (images', none)

/-- `static_cast<CubeFace>(f)`. -/
def CubeFace.ofIndex : Nat → CubeFace
  | 0 => .PosX | 1 => .NegX | 2 => .PosY | 3 => .NegY | 4 => .PosZ | _ => .NegZ

/-- `for (x : xs) st = body(st, x)` with undefined behaviour propagated. -/
def forRes {α σ : Type} : List α → (α → σ → Res σ) → σ → Res σ
  | [], _, s => .ok s
  | x :: xs, body, s => body x s >>= forRes xs body

/-- `for (mip = 1; mip < levels; ++mip)`: the values of the loop variable. -/
def mipRange (levels : Nat) : List Nat := (List.range levels).drop 1

/-- The storage set-up and the three nested loops for non-3D textures,
lib/src/Texture.cpp:1443-1511. -/
def genMipsFlat (L : ImageLib Img) (t : TexImpl Img) (filter : ResizeFilter)
    (custom : CustomMips Img) : Res (Store (Option Img)) := do
  let depth := max t.depth 1
  let images := t.images.mapIdx (fun mip ds =>
    if mip = 0 then ds
    else (vresize ds depth []).map (fun fs => vresize fs t.faces none))
  let r ← forRes (List.range depth) (fun d => forRes (List.range t.faces) (fun f =>
      forRes (mipRange t.mipLevels) (fun mip => genMipStep L t filter custom d f mip (CubeFace.ofIndex f))))
    (images, none)
  pure r.1

/-- The loop over slices that looks for custom mips of one level of a 3D texture,
lib/src/Texture.cpp:1357-1376.  `none` means `return false`; otherwise the flags `customMips` and
`replacement`. -/
def customScan3d (custom : CustomMips Img) (mip : Nat) : List Nat → Bool × MipReplacement →
    Option (Bool × MipReplacement)
  | [], s => some s
  | d :: ds, (customMips, replacement) =>
    match CustomMips.find custom ⟨.PosX, mip, d⟩ with
    | none => if customMips then none else customScan3d custom mip ds (customMips, replacement)
    | some c =>
      if d = 0 then customScan3d custom mip ds (true, c.replacement)
      else if !customMips || replacement ≠ c.replacement then none
      else customScan3d custom mip ds (customMips, replacement)

/-- `generateMips3d`, lib/src/Texture.cpp:103-227: reads a scanline of every source slice, so an
invalid slice is undefined behaviour. -/
def generateMips3d (L : ImageLib Img) (prev : List (Option Img)) (w h d : Nat) (cs : ColorSpace)
    (filter : ResizeFilter) : Res (List (Option Img)) :=
  if prev.all Option.isSome ∧ prev ≠ [] then
    let src := prev.filterMap id
    .ok ((List.range d).map (fun i => some (L.mip3d src w h d i cs filter)))
  else .ub

/-- `for (x : xs) out.push_back(f(x))` with undefined behaviour propagated. -/
def mapRes {α β : Type} (f : α → Res β) : List α → Res (List β)
  | [] => .ok []
  | x :: xs => do
    let y ← f x
    let ys ← mapRes f xs
    pure (y :: ys)

/-- The inputs of the reduction: the slices of the previous level (or the saved `inputImages`)
resized to the level's size, lib/src/Texture.cpp:1387-1400. -/
def inputs3d (L : ImageLib Img) (images : Store (Option Img)) (inputImages : List (Option Img))
    (mip mipWidth mipHeight : Nat) (filter : ResizeFilter) : Res (List (Option Img)) :=
  if inputImages.isEmpty then
    match images[mip - 1]? with
    | none => .ub
    | some ds => mapRes (fun fs => match fs with
        | [] => Res.ub
        | i :: _ => .ok (L.resizeO i mipWidth mipHeight filter)) ds
  else .ok (inputImages.map (fun i => L.resizeO i mipWidth mipHeight filter))

/-- The generated slices of one level, lib/src/Texture.cpp:1382-1404. -/
def genSlices3d (L : ImageLib Img) (t : TexImpl Img) (images : Store (Option Img))
    (inputImages : List (Option Img)) (mip mipWidth mipHeight mipDepth : Nat)
    (filter : ResizeFilter) : Res (List (Option Img)) := do
  let inputs ← inputs3d L images inputImages mip mipWidth mipHeight filter
  generateMips3d L inputs mipWidth mipHeight mipDepth t.colorSpace filter

/-- The custom slices of one level, lib/src/Texture.cpp:1417-1430. -/
def customSlices3d (L : ImageLib Img) (custom : CustomMips Img) (mip mipWidth mipHeight mipDepth : Nat)
    (filter : ResizeFilter) : Res (List (Option Img)) :=
  mapRes (fun d => match CustomMips.find custom ⟨.PosX, mip, d⟩ with
    | none => Res.ub   -- dereference of the end iterator
    | some c => .ok (customResult L c mipWidth mipHeight filter)) (List.range mipDepth)

/-- Move the slices of one level into the texture, lib/src/Texture.cpp:1432-1439. -/
def putSlices3d (images : Store (Option Img)) (mip : Nat) (slices : List (Option Img)) :
    Res (Store (Option Img)) :=
  if mip < images.length then .ok (List.set images mip (slices.map (fun i => [i]))) else .ub

/-- Body of the loop over levels of a 3D texture, lib/src/Texture.cpp:1351-1440.  The state is
the image store and `inputImages`; `none` in the result means `return false`. -/
def genMip3dStep (L : ImageLib Img) (t : TexImpl Img) (filter : ResizeFilter)
    (custom : CustomMips Img) (mip : Nat) (images : Store (Option Img))
    (inputImages : List (Option Img)) :
    Res (Option (Store (Option Img) × List (Option Img))) := do
  let mipWidth ← Tex.widthAt (some t) mip
  let mipHeight ← Tex.heightAt (some t) mip
  let mipDepth ← Tex.depthAt (some t) mip
  match customScan3d custom mip (List.range mipDepth) (false, .Once) with
  | none => pure none
  | some (false, _) => do
    let slices ← genSlices3d L t images inputImages mip mipWidth mipHeight mipDepth filter
    let images' ← putSlices3d images mip slices
    pure (some (images', []))
  | some (true, replacement) => do
    -- restoreState: the generated slices are moved into `inputImages`
    let inputs' ← if replacement = .Once ∧ mip < t.mipLevels - 1 then
        genSlices3d L t images inputImages mip mipWidth mipHeight mipDepth filter
      else Res.ok []
    let slices ← customSlices3d L custom mip mipWidth mipHeight mipDepth filter
    let images' ← putSlices3d images mip slices
    pure (some (images', inputs'))

/-- The loop over levels of a 3D texture, lib/src/Texture.cpp:1346-1441.  Returns the boolean
result and the image store at the time of return. -/
def genMips3dLoop (L : ImageLib Img) (t : TexImpl Img) (filter : ResizeFilter)
    (custom : CustomMips Img) : List Nat → Store (Option Img) → List (Option Img) →
    Res (Bool × Store (Option Img))
  | [], images, _ => .ok (true, images)
  | mip :: mips, images, inputs => do
    match ← genMip3dStep L t filter custom mip images inputs with
    | none => pure (false, images)
    | some (images', inputs') => genMips3dLoop L t filter custom mips images' inputs'

/-- `Texture::generateMipmaps`, lib/src/Texture.cpp:1320-1514. -/
def Tex.generateMipmaps (L : ImageLib Img) (t : Tex Img) (filter : ResizeFilter) (mipLevels : Nat)
    (custom : CustomMips Img) : Res (Bool × Tex Img) :=
  match t with
  | none => .ok (false, none)
  | some i =>
    match i.images[0]? with
    | none => .ub
    | some level0 =>
      if level0.any (fun fs => fs.any Option.isNone) then .ok (false, t)
      else if custom.any (fun e => !e.2.usable) then .ok (false, t)
      else do
        let w ← Tex.widthAt t 0
        let h ← Tex.heightAt t 0
        let d ← Tex.depthAt t 0
        let levels := min (max mipLevels 1) (maxMipmapLevels i.dimension w h d)
        let i' := { i with mipLevels := levels, images := vresize i.images levels [] }
        if i.dimension = .Dim3D then do
          let (ok, images) ← genMips3dLoop L i' filter custom (mipRange levels) i'.images []
          pure (ok, some { i' with images })
        else do
          let images ← genMipsFlat L i' filter custom
          pure (true, some { i' with images })

/-- `Texture::imagesComplete`, lib/src/Texture.cpp:1516-1534. -/
def Tex.imagesComplete : Tex Img → Bool
  | none => false
  | some i => i.images.all (fun ds => ds.all (fun fs => fs.all Option.isSome))

end
end Cuttlefish
