import Verif.Model.ImageStreams
/-
Loading from an open file, and which readers a stream adapter can serve.
-/
namespace Cuttlefish.Spec
open Cuttlefish
variable {N F α β : Type}

/-- One program after another. -/
def andThen (p : IOProg α) (q : α → IOProg β) : IOProg β :=
  match p with
  | .done a => q a
  | .read size count k => .read size count (fun bs n => andThen (k bs n) q)
  | .write bs size count k => .write bs size count (fun n => andThen (k n) q)
  | .seek offset origin k => .seek offset origin (fun n => andThen (k n) q)
  | .tell k => .tell (fun n => andThen (k n) q)

/-- Find out the file type and load the bitmap. -/
def readImage (lib : Decoder N F) : IOProg (Option (FIBitmap N)) :=
  andThen lib.fileType (fun f? => match f? with
    | none => .done none
    | some f => lib.load f)

/-- The image that the bytes hold, from a position on, with the functions of the C library. -/
def imageIn (FP : FromPalette N) (lib : Decoder N F) (bytes : List UInt8) (pos : Nat) (cs : ColorSpace) :
    Option (Image N × PixelInfo) :=
  createImpl FP ((readImage lib).onMemory bytes pos).1 cs .Invalid

/-- The program asks for blocks of less than 4 GiB, does not care whether the result of a read counts bytes or items, goes
only to places within the content, and does not ask for a position or go elsewhere once it has met the end (`ended`). -/
def Plain (content : List UInt8) : IOProg α → Bool → Nat → Prop
  | .done _, _, _ => True
  | .read size count k, ended, pos =>
    let got := (content.drop pos).take (size * count)
    size * count < 2 ^ 32 ∧ k got got.length = k got (got.length / size) ∧
      Plain content (k got (got.length / size)) (ended || decide (got.length < size * count)) (pos + got.length)
  | .write _ _ _ k, ended, pos => Plain content (k 0) ended pos
  | .seek offset origin k, ended, pos =>
    let target : Int := (if origin = 0 then 0 else if origin = 1 then (pos : Int) else content.length) + offset
    ended = false ∧ origin ≤ 2 ∧ 0 ≤ target ∧ target ≤ content.length ∧ Plain content (k 0) false target.toNat
  | .tell k, ended, pos => ended = false ∧ Plain content (k pos) false pos

end Cuttlefish.Spec

namespace Cuttlefish.Spec
open Cuttlefish
variable {α : Type}

/-- The bytes of a file after some bytes are put at a position; a gap is filled with zeros. -/
def putAt (content : List UInt8) (pos : Nat) (bytes : List UInt8) : List UInt8 :=
  content.take pos ++ List.replicate (pos - content.length) 0 ++ bytes ++ content.drop (pos + bytes.length)

/-- What a program does to a file that is open at a position, with the functions of the C library: its result, the bytes
of the file and the position afterwards. -/
def onFile : IOProg α → List UInt8 → Nat → α × List UInt8 × Nat
  | .done a, content, pos => (a, content, pos)
  | .read size count k, content, pos =>
    let got := (content.drop pos).take (size * count)
    onFile (k got (got.length / size)) content (pos + got.length)
  | .write bytes size count k, content, pos =>
    let bs := bytes.take (size * count)
    onFile (k count) (putAt content pos bs) (pos + bs.length)
  | .seek offset origin k, content, pos =>
    let target : Int := (if origin = 0 then 0 else if origin = 1 then (pos : Int) else content.length) + offset
    if 0 ≤ target ∧ origin ≤ 2 then onFile (k 0) content target.toNat else onFile (k (-1)) content pos
  | .tell k, content, pos => onFile (k pos) content pos

/-- The program only writes blocks of less than 4 GiB, does not care whether the result of a write counts bytes or items,
and goes only to places within what is there. -/
def PlainWriter : IOProg α → List UInt8 → Nat → Prop
  | .done _, _, _ => True
  | .read _ _ _, _, _ => False
  | .write bytes size count k, content, pos =>
    let bs := bytes.take (size * count)
    size * count < 2 ^ 32 ∧ k (count * size) = k count ∧ PlainWriter (k count) (putAt content pos bs) (pos + bs.length)
  | .seek offset origin k, content, pos =>
    let target : Int := (if origin = 0 then 0 else if origin = 1 then (pos : Int) else content.length) + offset
    origin ≤ 2 ∧ 0 ≤ target ∧ target ≤ content.length ∧ PlainWriter (k 0) content target.toNat
  | .tell k, content, pos => PlainWriter (k pos) content pos

end Cuttlefish.Spec
