import Verif.Model.Load
import Verif.Model.Save
/-
Loading images from memory and from streams, and saving them to streams (lib/src/Image.cpp:209-291, 882-958).

FreeImage reads and writes through four functions (`FreeImageIO`).  A function of FreeImage is modelled as a program that
calls them any number of times and goes on with their results (`IOProg`); which program it is, is a parameter.
-/
namespace Cuttlefish

/-- A program over the functions of `FreeImageIO`: `read_proc` (size of an item, number of items; it gets the bytes in the
buffer and the result), `write_proc` (the bytes, size of an item, number of items; it gets the result), `seek_proc`
(offset and origin; it gets the result) and `tell_proc`. -/
inductive IOProg (α : Type) where
  | done (a : α)
  | read (size count : Nat) (k : List UInt8 → Nat → IOProg α)
  | write (bytes : List UInt8) (size count : Nat) (k : Nat → IOProg α)
  | seek (offset : Int) (origin : Nat) (k : Int → IOProg α)
  | tell (k : Int → IOProg α)

/-! ### `std::istream` -/

/-- `stream.tellg()`: needs a good stream (the sentry sets `failbit` otherwise); -1 if it failed or cannot be
positioned. -/
def IStream.tell (s : IStream) : Int × IStream :=
  if s.eof || s.fail then (-1, { s with fail := true })
  else if s.seekable then (s.pos, s) else (-1, s)

/-- `stream.seekg(offset, dir)`; `base` is where the offset is counted from.  Clears `eofbit`, does nothing if the stream
failed, and fails outside of the content (as memory streams do). -/
def IStream.seekTo (s : IStream) (base : Nat) (offset : Int) : IStream :=
  if s.fail then { s with eof := false }
  else if s.seekable ∧ 0 ≤ base + offset ∧ base + offset ≤ s.content.length then
    { s with eof := false, pos := (base + offset).toNat }
  else { s with eof := false, fail := true }

/-- `readIStream`, lib/src/Image.cpp:209-214: the number of bytes is computed with 32 bits, the result is the number of
bytes that were read. -/
def readIStream (s : IStream) (size count : Nat) : List UInt8 × Nat × IStream :=
  let r := s.read (u32 (size * count))
  (r.1, u32 r.1.length, r.2)

/-- `seekIStream`, lib/src/Image.cpp:221-241; `SEEK_SET`, `SEEK_CUR` and `SEEK_END` are 0, 1 and 2. -/
def seekIStream (s : IStream) (offset : Int) (origin : Nat) : Int × IStream :=
  let go (base : Nat) : Int × IStream :=
    let s' := s.seekTo base offset
    (if s'.eof || s'.fail then -1 else 0, s')
  match origin with
  | 0 => go 0
  | 1 => go s.pos
  | 2 => go s.content.length
  | _ => (-1, s)

/-- A program with `istreamIO`, lib/src/Image.cpp:209-249; `writeIStream` returns 0. -/
def IOProg.onIStream {α : Type} : IOProg α → IStream → α × IStream
  | .done a, s => (a, s)
  | .read size count k, s =>
    let r := readIStream s size count
    (k r.1 r.2.1).onIStream r.2.2
  | .write _ _ _ k, s => (k 0).onIStream s
  | .seek offset origin k, s =>
    let r := seekIStream s offset origin
    (k r.1).onIStream r.2
  | .tell k, s =>
    let r := s.tell
    (k r.1).onIStream r.2

/-! ### Memory -/

/-- The memory streams of FreeImage (`FreeImage_OpenMemory`), which read as the functions of the C library do: whole
items are counted, positions are not negative. -/
def IOProg.onMemory {α : Type} (data : List UInt8) : IOProg α → Nat → α × Nat
  | .done a, pos => (a, pos)
  | .read size count k, pos =>
    let got := (data.drop pos).take (size * count)
    (k got (got.length / size)).onMemory data (pos + got.length)
  | .write _ _ _ k, pos => (k 0).onMemory data pos
  | .seek offset origin k, pos =>
    let target : Int := (if origin = 0 then 0 else if origin = 1 then (pos : Int) else data.length) + offset
    if 0 ≤ target ∧ origin ≤ 2 then (k 0).onMemory data target.toNat else (k (-1)).onMemory data pos
  | .tell k, pos => (k pos).onMemory data pos

/-! ### Loading -/

/-- `FreeImage_GetFileTypeFromHandle` (or `FromMemory`; `none`: `FIF_UNKNOWN`) and `FreeImage_LoadFromHandle` (or
`FromMemory`). -/
structure Decoder (N F : Type) where
  fileType : IOProg (Option F)
  load : F → IOProg (Option (FIBitmap N))

variable {N F : Type}

/-- `Image::load(data, size, colorSpace)`, lib/src/Image.cpp:903-922: the object afterwards.  The size is cut to 32 bits
(`DWORD`).  Simplified: opening the memory does not fail. -/
def loadMemory (FP : FromPalette N) (lib : Decoder N F) (data : List UInt8) (cs : ColorSpace) :
    Option (Image N × PixelInfo) :=
  let data := data.take (u32 data.length)
  let r := lib.fileType.onMemory data 0
  match r.1 with
  | none => none
  | some f => createImpl FP ((lib.load f).onMemory data r.2).1 cs .Invalid

/-- `Image::load(stream, colorSpace)`, lib/src/Image.cpp:882-901: the object afterwards (`fuel` bounds the rounds of the
loop of `readStreamData`; the outer `none`: not finished). -/
def loadStream (fuel : Nat) (FP : FromPalette N) (lib : Decoder N F) (s : IStream) (cs : ColorSpace) :
    Option (Option (Image N × PixelInfo)) :=
  let t := s.tell
  if t.1 < 0 then (readStreamData fuel t.2).map (fun d => loadMemory FP lib d.1 cs)
  else
    let r := lib.fileType.onIStream t.2
    match r.1 with
    | none => some none
    | some f => some (createImpl FP ((lib.load f).onIStream r.2).1 cs .Invalid)

/-! ### `std::ostream` and saving -/

/-- A `std::ostream`: what it holds, the position of the next byte, whether it failed, and how many bytes there is room
for (`none`: any number). -/
structure WStream where
  content : List UInt8
  pos : Nat
  fail : Bool
  room : Option Nat
  deriving DecidableEq, Repr

/-- Put bytes at a position of a list that is at least as long. -/
def overwrite (content : List UInt8) (pos : Nat) (bytes : List UInt8) : List UInt8 :=
  content.take pos ++ bytes ++ content.drop (pos + bytes.length)

/-- `stream.write`: nothing if the stream failed; if there is not enough room, what fits is written and the stream
fails. -/
def WStream.write (s : WStream) (bytes : List UInt8) : WStream :=
  if s.fail then s
  else
    let fit := match s.room with
      | none => bytes
      | some n => bytes.take (n - s.pos)
    { s with
      content := overwrite s.content s.pos fit
      pos := s.pos + fit.length
      fail := decide (fit.length < bytes.length) }

/-- `writeOStream`, lib/src/Image.cpp:256-261: the buffer has at least `size*count` bytes; the result does not depend on
what the stream does. -/
def writeOStream (s : WStream) (bytes : List UInt8) (size count : Nat) : Nat × WStream :=
  (u32 (count * size), s.write (bytes.take (u32 (size * count))))

/-- `seekOStream`, lib/src/Image.cpp:263-283: `seekp` does nothing if the stream failed, and fails outside of the content
(as memory streams do). -/
def seekOStream (s : WStream) (offset : Int) (origin : Nat) : Int × WStream :=
  let go (base : Nat) : Int × WStream :=
    if s.fail then (-1, s)
    else if 0 ≤ base + offset ∧ base + offset ≤ s.content.length then (0, { s with pos := (base + offset).toNat })
    else (-1, { s with fail := true })
  match origin with
  | 0 => go 0
  | 1 => go s.pos
  | 2 => go s.content.length
  | _ => (-1, s)

/-- `tellOStream`, lib/src/Image.cpp:285-289. -/
def tellOStream (s : WStream) : Int := if s.fail then -1 else s.pos

/-- A program with `ostreamIO`, lib/src/Image.cpp:251-291; `readOStream` returns 0. -/
def IOProg.onWStream {α : Type} : IOProg α → WStream → α × WStream
  | .done a, s => (a, s)
  | .read _ _ k, s => (k [] 0).onWStream s
  | .write bytes size count k, s =>
    let r := writeOStream s bytes size count
    (k r.1).onWStream r.2
  | .seek offset origin k, s =>
    let r := seekOStream s offset origin
    (k r.1).onWStream r.2
  | .tell k, s => (k (tellOStream s)).onWStream s

/-- `FreeImage_GetFIFFromFilename` and `FreeImage_SaveToHandle`. -/
structure ImageWriter (N F : Type) where
  fileType : List UInt8 → Option F
  save : F → Bitmap N → IOProg Bool

/-- `Image::save(stream, fileName)`, lib/src/Image.cpp:936-946. -/
def saveStream (lib : ImageWriter N F) (i : Img? N) (s : WStream) (name : List UInt8) : Bool × WStream :=
  match i with
  | none => (false, s)
  | some i =>
    match lib.fileType name with
    | none => (false, s)
    | some f => (lib.save f i.bmp).onWStream s

/-- `Image::save(outData, fileName)`, lib/src/Image.cpp:948-958: the result and the data afterwards.  The get position of
the `stringstream` is still 0. -/
def saveVector (fuel : Nat) (lib : ImageWriter N F) (i : Img? N) (out : List UInt8) (name : List UInt8) :
    Option (Bool × List UInt8) :=
  let r := saveStream lib i ⟨[], 0, false, none⟩ name
  if r.1 then (readStreamData fuel ⟨r.2.content, 0, true, false, r.2.fail⟩).map (fun d => (true, d.1))
  else some (false, out)

end Cuttlefish
