import Verif.Model.SaveTables
import Verif.Model.TextureConvert
import Verif.Model.Num
/-
Saving a converted texture: `Texture::save`, `saveKtx`, `saveDds`, `savePvr`, `fileType` and
`readStreamData`.

A saver is a fixed sequence of stream operations: writes, and tests of `stream.good()` that return
`WriteError`.  The model first computes that sequence from the texture (`Act`) and then runs it on
a stream (`runActs`).  Simplification: undefined behaviour while computing a later operation is
attributed to the whole call even if an earlier write fails.
-/
namespace Cuttlefish

/-! ### Output streams -/

/-- The device behind an output stream: given the bytes accepted so far and the next chunk,
`none` means the chunk is accepted, `some k` means that only the first `k` bytes are accepted and
the stream goes bad.  Any behaviour is allowed. -/
abbrev Device := List UInt8 → List UInt8 → Option Nat

/-- The device that never fails. -/
def Device.perfect : Device := fun _ _ => none

/-- A `std::ostream`: the bytes accepted so far and `good()`. -/
structure OStream where
  bytes : List UInt8
  good : Bool
  deriving DecidableEq, Repr

/-- `stream.write(data, size)` and `stream.put(c)`: nothing happens if the stream is not good. -/
def OStream.write (D : Device) (s : OStream) (chunk : List UInt8) : OStream :=
  if s.good then
    match D s.bytes chunk with
    | none => ⟨s.bytes ++ chunk, true⟩
    | some k => ⟨s.bytes ++ chunk.take k, false⟩
  else s

/-- One operation of a saver. -/
inductive Act where
  | write (bytes : List UInt8)
  /-- `if (!stream.good()) return WriteError;` -/
  | check
  deriving DecidableEq, Repr

/-- Running the operations; at the end the saver returns `Success`. -/
def runActs (D : Device) : List Act → OStream → SaveResult × OStream
  | [], s => (.Success, s)
  | .write bs :: as, s => runActs D as (s.write D bs)
  | .check :: as, s => if s.good then runActs D as s else (.WriteError, s)

/-- `if (!write(stream, value)) return WriteError;` for bytes `bs`, lib/src/Shared.h:39-44. -/
def emit (bs : List UInt8) : List Act := [.write bs, .check]

/-- The same for a 32-bit value; the host is little endian. -/
def emit32 (n : Nat) : List Act := emit (leBytes 4 n)

/-- `FOURCC`, lib/src/Shared.h:24-25. -/
def fourCC (a b c d : Nat) : Nat := a ||| (b <<< 8) ||| (c <<< 16) ||| (d <<< 24)

section
variable {Img : Type}

/-- The bytes `data(face, level, depth)` points to, `dataSize(face, level, depth)` of them (none for
the null pointer). -/
def surfaceBytes (t : Tex Img) (face level depth : Nat) : Res (List UInt8) := do
  let b ← t.data (some (CubeFace.ofIndex face)) level depth
  pure (b.getD [])

/-- `for (x : xs) acts += body(x)`. -/
def actsFor {α : Type} (xs : List α) (body : α → Res (List Act)) : Res (List Act) := do
  let ys ← mapRes body xs
  pure ys.flatten

/-! ### KTX -/

/-- `header`, lib/src/SaveKtx.cpp:193-196. -/
def ktxHeader : List UInt8 := [0xAB, 0x4B, 0x54, 0x58, 0x20, 0x31, 0x31, 0xBB, 0x0D, 0x0A, 0x1A, 0x0A]

/-- The accumulation `imageSize += x` over the depth of a level, in 32 bits. -/
def sumSizes : List Nat → Nat → Nat
  | [], acc => acc
  | x :: xs, acc => sumSizes xs (u32 (acc + x))

/-- `imageSize` of a level, lib/src/SaveKtx.cpp:1228-1246. -/
def ktxImageSize (t : Tex Img) (compressed : Bool) (formatSize level : Nat) : Res Nat := do
  let depth ← t.depthAt level
  let sizes ← mapRes (fun _ =>
    if compressed then t.dataSize (some .PosX) level 0
    else do
      let w ← t.widthAt level
      let h ← t.heightAt level
      pure (u32 (u32 (u32 (u32 (w * formatSize) + 3) / 4 * 4) * h))) (List.range depth)
  let total := sumSizes sizes 0
  pure (if t.isArray then u32 (total * t.faceCount) else total)

/-- The rows of one uncompressed surface, lib/src/SaveKtx.cpp:1269-1283: `rowSize` bytes from the
running pointer (reading past the end is undefined), padding, then the test of the stream. -/
def ktxRows (data : List UInt8) (rowSize padding height : Nat) : Res (List Act) :=
  actsFor (List.range height) (fun y =>
    if (y + 1) * rowSize ≤ data.length then
      .ok ([.write ((data.drop (y * rowSize)).take rowSize)] ++
        List.replicate padding (.write [0]) ++ [.check])
    else .ub)

/-- One surface, lib/src/SaveKtx.cpp:1254-1285. -/
def ktxSurface (t : Tex Img) (compressed : Bool) (formatSize level depth face : Nat) :
    Res (List Act) := do
  let data ← surfaceBytes t face level depth
  if compressed then pure (emit data)
  else
    let w ← t.widthAt level
    let h ← t.heightAt level
    let rowSize := u32 (w * formatSize)
    let padding := if rowSize % 4 ≠ 0 then 4 - rowSize % 4 else 0
    ktxRows data rowSize padding h

/-- One level, lib/src/SaveKtx.cpp:1225-1287. -/
def ktxLevel (t : Tex Img) (compressed : Bool) (formatSize level : Nat) : Res (List Act) := do
  let imageSize ← ktxImageSize t compressed formatSize level
  let depth ← t.depthAt level
  let body ← actsFor (List.range depth) (fun d =>
    actsFor (List.range t.faceCount) (fun face => ktxSurface t compressed formatSize level d face))
  pure (emit32 imageSize ++ body)

/-- Reading a variable; reading one that was never assigned is undefined. -/
def assigned : Option Nat → Res Nat
  | some x => .ok x
  | none => .ub

/-- `saveKtx` once the format is accepted, lib/src/SaveKtx.cpp:1197-1290. -/
def ktxActs (info : KtxInfo) (t : Tex Img) : Res (List Act) := do
  let format ← assigned info.format
  let w ← t.widthAt 0
  let h ← t.heightAt 0
  let d ← t.depthAt 0
  let levels ← actsFor (List.range t.mipLevelCount)
    (ktxLevel t (1 < blockWidth t.format) (blockSize t.format))
  pure (emit ktxHeader ++ emit32 0x04030201 ++
    emit (leBytes 4 info.type ++ leBytes 4 info.typeSize ++ leBytes 4 format ++
      leBytes 4 info.internalFormat ++ leBytes 4 info.baseInternalFormat) ++
    emit32 w ++ emit32 (if t.dimension = .Dim1D then 0 else h) ++
    emit32 (if t.dimension = .Dim3D then d else 0) ++ emit32 (if t.isArray then d else 0) ++
    emit32 t.faceCount ++ emit32 t.mipLevelCount ++ emit32 0 ++ levels)

/-- `saveKtx`, lib/src/SaveKtx.cpp:1189-1290. -/
def saveKtx (D : Device) (t : Tex Img) (s : OStream) : Res (SaveResult × OStream) :=
  match ktxInfo t.format t.type t.colorSpace with
  | none => .ok (.Unsupported, s)
  | some info => do
    let acts ← ktxActs info t
    pure (runActs D acts s)

/-- `isValidForKtx`, lib/src/SaveKtx.cpp:1183-1187. -/
def isValidForKtx (f : Format) (t : TType) : Bool := (ktxInfo f t .Linear).isSome

/-! ### DDS -/

/-- `computePitch`, lib/src/SaveDds.cpp:553-558. -/
def computePitch (t : Tex Img) : Res Nat := do
  let w ← t.widthAt 0
  pure (u32 (u32 (w + blockWidth t.format - 1) / blockWidth t.format * blockSize t.format))

/-- The bytes of the `DdsHeader`, lib/src/SaveDds.cpp:575-614. -/
def ddsHeaderBytes (t : Tex Img) : Res (List UInt8) := do
  let w ← t.widthAt 0
  let h ← t.heightAt 0
  let d ← t.depthAt 0
  let pitch ← computePitch t
  let flags := 0x1 ||| 0x2 ||| 0x4 ||| 0x1000 ||| 0x20000 ||| 0x8 |||
    (if t.dimension = .Dim3D then 0x800000 else 0)
  let caps := 0x1000 ||| (if t.mipLevelCount > 1 then 0x400000 else 0) |||
    (if t.mipLevelCount > 1 ∨ t.dimension = .Dim3D ∨ t.dimension = .Dim3D ∨ t.isArray then 0x8 else 0)
  let caps2 := if t.dimension = .Cube then 0xFE00 else if t.dimension = .Dim3D then 0x200000 else 0
  pure (leBytes 4 124 ++ leBytes 4 flags ++ leBytes 4 h ++ leBytes 4 w ++ leBytes 4 pitch ++
    leBytes 4 (if t.dimension = .Dim3D then d else 0) ++ leBytes 4 t.mipLevelCount ++
    List.replicate 44 0 ++
    (leBytes 4 32 ++ leBytes 4 0x4 ++ leBytes 4 (fourCC 'D'.toNat 'X'.toNat '1'.toNat '0'.toNat) ++
      List.replicate 20 0) ++
    leBytes 4 caps ++ leBytes 4 caps2 ++ List.replicate 12 0)

/-- `resourceDimension`, lib/src/SaveDds.cpp:619-637. -/
def ddsDimension : Dimension → Nat
  | .Dim1D => 2
  | .Dim2D => 3
  | .Dim3D => 4
  | .Cube => 3

/-- `miscFlags2`, lib/src/SaveDds.cpp:639-658. -/
def ddsAlphaMode (f : Format) (al : Alpha) : Nat :=
  if hasAlpha f then
    match al with
    | .None => 3
    | .Standard => 1
    | .PreMultiplied => 2
    | .Encoded => 4
  else 3

/-- The bytes of the `DdsHeaderDxt10`, lib/src/SaveDds.cpp:616-660. -/
def ddsHeader10Bytes (format : Nat) (t : Tex Img) : Res (List UInt8) := do
  let d ← t.depthAt 0
  pure (leBytes 4 format ++ leBytes 4 (ddsDimension t.dimension) ++
    leBytes 4 (if t.dimension = .Cube then 0x4 else 0) ++
    leBytes 4 (if t.dimension = .Dim3D then 1 else d) ++ leBytes 4 (ddsAlphaMode t.format t.alphaType))

/-- The surfaces, lib/src/SaveDds.cpp:662-683. -/
def ddsSurfaces (t : Tex Img) : Res (List Act) := do
  let d ← t.depthAt 0
  let elements := if t.isArray then d else 1
  actsFor (List.range elements) (fun element =>
    actsFor (List.range t.faceCount) (fun face =>
      actsFor (List.range t.mipLevelCount) (fun level => do
        let dl ← t.depthAt level
        let volumes := if t.dimension = .Dim3D then dl else 1
        actsFor (List.range volumes) (fun volume => do
          let b ← surfaceBytes t face level (u32 (volume + element))
          pure (emit b)))))

/-- `saveDds` once the format is accepted, lib/src/SaveDds.cpp:572-685. -/
def ddsActs (format : Nat) (t : Tex Img) : Res (List Act) := do
  let h ← ddsHeaderBytes t
  let h10 ← ddsHeader10Bytes format t
  let body ← ddsSurfaces t
  pure (emit32 0x20534444 ++ emit h ++ emit h10 ++ body)

/-- `saveDds`, lib/src/SaveDds.cpp:565-686. -/
def saveDds (D : Device) (t : Tex Img) (s : OStream) : Res (SaveResult × OStream) :=
  if ddsFormat t.format t.type t.colorSpace = DXGI_UNKNOWN then .ok (.Unsupported, s)
  else do
    let acts ← ddsActs (ddsFormat t.format t.type t.colorSpace) t
    pure (runActs D acts s)

/-- `isValidForDds`, lib/src/SaveDds.cpp:560-563. -/
def isValidForDds (f : Format) (t : TType) : Bool := ddsFormat f t .Linear ≠ DXGI_UNKNOWN

/-! ### PVR -/

/-- One metadata entry: `CTFS`, a key, the size 4 and four zero bytes,
lib/src/SavePvr.cpp:541-580. -/
def pvrMeta (key : Nat) : List Act :=
  emit32 (fourCC 'C'.toNat 'T'.toNat 'F'.toNat 'S'.toNat) ++ emit32 key ++ emit32 4 ++ emit32 0

/-- The metadata block with its size, lib/src/SavePvr.cpp:522-587. -/
def pvrMetadata (t : Tex Img) : List Act :=
  let bc1 := t.format = .BC1_RGB ∨ t.format = .BC1_RGBA
  if bc1 ∨ t.isArray ∨ t.dimension = .Dim1D then
    emit32 ((if bc1 then 16 else 0) + (if t.isArray then 16 else 0) +
      (if t.dimension = .Dim1D then 16 else 0)) ++
    (if bc1 then
      pvrMeta (if t.format = .BC1_RGBA then fourCC 'B'.toNat 'C'.toNat '1'.toNat 'A'.toNat
        else fourCC 'B'.toNat 'C'.toNat '1'.toNat 0)
    else []) ++
    (if t.isArray then pvrMeta (fourCC 'A'.toNat 'R'.toNat 'R'.toNat 'Y'.toNat) else []) ++
    (if t.dimension = .Dim1D then pvrMeta (fourCC 'D'.toNat 'I'.toNat 'M'.toNat '1'.toNat) else [])
  else emit32 0

/-- `savePvr` once the format is accepted, lib/src/SavePvr.cpp:487-606. -/
def pvrActs (pixelFormat : Nat) (t : Tex Img) : Res (List Act) := do
  let w ← t.widthAt 0
  let h ← t.heightAt 0
  let d ← t.depthAt 0
  let body ← actsFor (List.range t.mipLevelCount) (fun level => do
    let dl ← t.depthAt level
    actsFor (List.range dl) (fun depth =>
      actsFor (List.range t.faceCount) (fun face => do
        let b ← surfaceBytes t face level depth
        pure (emit b))))
  pure (emit32 (fourCC 'P'.toNat 'V'.toNat 'R'.toNat 3) ++
    emit32 (if t.alphaType = .PreMultiplied then 0x2 else 0) ++
    emit (leBytes 8 pixelFormat) ++ emit32 (if t.colorSpace = .sRGB then 1 else 0) ++
    emit32 (pvrChannelType t.format t.type) ++ emit32 h ++ emit32 w ++
    emit32 (if t.dimension = .Dim3D then d else 1) ++ emit32 (if t.isArray then d else 1) ++
    emit32 t.faceCount ++ emit32 t.mipLevelCount ++ pvrMetadata t ++ body)

/-- `savePvr`, lib/src/SavePvr.cpp:478-607. -/
def savePvr (D : Device) (t : Tex Img) (s : OStream) : Res (SaveResult × OStream) :=
  match pvrPixelFormat t.format t.alphaType with
  | none => .ok (.Unsupported, s)
  | some pf => do
    let acts ← pvrActs pf t
    pure (runActs D acts s)

/-- `isValidForPvr`, lib/src/SavePvr.cpp:472-476. -/
def isValidForPvr (f : Format) (_t : TType) : Bool := (pvrPixelFormat f .Standard).isSome

/-! ### `Texture::save` -/

/-- `Texture::isFormatValid(format, type, fileType)`, lib/src/Texture.cpp:403-419. -/
def isFormatValidFile (c : Features) (f : Format) (t : TType) (ft : FileType) : Bool :=
  if !isFormatValid c f t then false
  else match ft with
    | .DDS => isValidForDds f t
    | .KTX => isValidForKtx f t
    | .PVR => isValidForPvr f t
    | .Auto => false

/-- `Texture::save(stream, fileType)`, lib/src/Texture.cpp:1651-1667. -/
def Tex.save (D : Device) (t : Tex Img) (ft : FileType) (s : OStream) : Res (SaveResult × OStream) :=
  if !t.converted then .ok (.Invalid, s)
  else match ft with
    | .DDS => saveDds D t s
    | .KTX => saveKtx D t s
    | .PVR => savePvr D t s
    | .Auto => .ok (.UnknownFormat, s)

/-- `tolower` of the C locale on one byte. -/
def lowerAscii (b : UInt8) : UInt8 := if 65 ≤ b.toNat ∧ b.toNat ≤ 90 then b + 32 else b

/-- `strcasecmp(a, b) == 0` in the C locale; strings are given without the terminating zero. -/
def strcaseEq : List UInt8 → List UInt8 → Bool
  | [], [] => true
  | a :: as, b :: bs => lowerAscii a == lowerAscii b && strcaseEq as bs
  | _, _ => false

/-- `len >= extLen && strcasecmp(fileName + len - extLen, ext) == 0`,
lib/src/Texture.cpp:949-953. -/
def endsWithCase (name ext : List UInt8) : Bool :=
  ext.length ≤ name.length && strcaseEq (name.drop (name.length - ext.length)) ext

/-- `Texture::fileType`, lib/src/Texture.cpp:939-957. -/
def fileType (name : List UInt8) : FileType :=
  if endsWithCase name [0x2E, 0x64, 0x64, 0x73] then .DDS
  else if endsWithCase name [0x2E, 0x6B, 0x74, 0x78] then .KTX
  else if endsWithCase name [0x2E, 0x70, 0x76, 0x72] then .PVR
  else .Auto

/-- The file system as `std::ofstream` sees it: which names can be opened for writing, the buffered
output device, and how many of the accepted bytes are in the file after the destructor has flushed
and closed it (whose errors nobody sees). -/
structure FileSys where
  opens : List UInt8 → Bool
  dev : Device
  close : List UInt8 → Nat

/-- `Texture::save(fileName, fileType)`, lib/src/Texture.cpp:1638-1649: the result, and the content
of the file if it was opened (opening empties it). -/
def Tex.saveFile (F : FileSys) (t : Tex Img) (name : Option (List UInt8)) (ft : FileType) :
    Res (SaveResult × Option (List UInt8)) :=
  match name with
  | none => .ok (.Invalid, none)
  | some n =>
    if !t.converted then .ok (.Invalid, none)
    else
      let ft' := if ft = .Auto then fileType n else ft
      if !F.opens n then .ok (.WriteError, none)
      else do
        let r ← t.save F.dev ft' ⟨[], true⟩
        pure (r.1, some (r.2.bytes.take (F.close r.2.bytes)))

end

/-! ### Input streams -/

/-- A `std::istream`: its whole content, the read position, whether it can be positioned, and the
state bits. -/
structure IStream where
  content : List UInt8
  pos : Nat
  seekable : Bool
  eof : Bool
  fail : Bool
  deriving DecidableEq, Repr

/-- `stream.seekg(offset, end/beg)`: clears `eofbit`; does nothing if the stream failed; sets
`failbit` if the stream cannot be positioned.  `atEnd` selects `std::ios_base::end`. -/
def IStream.seekg (s : IStream) (atEnd : Bool) : IStream :=
  if s.fail then { s with eof := false }
  else if s.seekable then { s with eof := false, pos := if atEnd then s.content.length else 0 }
  else { s with eof := false, fail := true }

/-- `stream.tellg()`: `none` is -1. -/
def IStream.tellg (s : IStream) : Option Nat :=
  if s.fail then none else if s.seekable then some s.pos else none

/-- `stream.read(buffer, n)` and `gcount()`: nothing if the stream is not good; otherwise the next
bytes, and `eofbit` and `failbit` if there are fewer than `n`. -/
def IStream.read (s : IStream) (n : Nat) : List UInt8 × IStream :=
  if s.eof || s.fail then ([], { s with fail := true })
  else
    let got := (s.content.drop s.pos).take n
    if got.length < n then
      (got, { s with pos := s.pos + got.length, eof := true, fail := true })
    else (got, { s with pos := s.pos + got.length })

/-- The reading loop of the fall-back, lib/src/Shared.cpp:36-47, with at most `fuel` rounds
(`none`: not finished). -/
def readLoop : Nat → IStream → List UInt8 → Option (List UInt8 × IStream)
  | 0, _, _ => none
  | fuel + 1, s, out =>
    let (got, s') := s.read 4096
    if got.length = 0 then some (out, s') else readLoop fuel s' (out ++ got)

/-- `readStreamData`, lib/src/Shared.cpp:23-56. -/
def readStreamData (fuel : Nat) (s : IStream) : Option (List UInt8 × IStream) :=
  let s1 := s.seekg true
  match s1.tellg with
  | none => readLoop fuel { s1 with eof := false, fail := false } []
  | some size =>
    let s2 := s1.seekg false
    -- `resize` zero-fills, `read` overwrites the part it got
    let (got, s3) := s2.read size
    some (got ++ List.replicate (size - got.length) 0, s3)

/-- `Texture::save(outData, fileType)`, lib/src/Texture.cpp:1669-1683: a memory stream accepts
everything and can be positioned. -/
def Tex.saveVector {Img : Type} (t : Tex Img) (ft : FileType) (out : List UInt8) :
    Res (SaveResult × List UInt8) := do
  let r ← t.save Device.perfect ft ⟨[], true⟩
  if r.1 = .Success then
    match readStreamData 1 ⟨r.2.bytes, 0, true, false, false⟩ with
    | none => .ub
    | some d => pure (r.1, d.1)
  else pure (r.1, out)

end Cuttlefish
