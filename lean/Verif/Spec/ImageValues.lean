import Verif.Model.ImageObjects
/-
Image variables as values: nothing is shared, nothing has to be freed.
-/
namespace Cuttlefish.Spec
open Cuttlefish
variable {N : Type}

/-- What a valid image shows: its bitmap, its format and its colour space. -/
abbrev ImgVal (N : Type) := FIBitmap N × IFormat × ColorSpace

/-- The image made of a bitmap, if any: a palette is replaced by its colours (with alpha if something is transparent);
the format is the one asked for, or the one of the bitmap. -/
def made (FP : FromPalette N) (r : Option (FIBitmap N)) (cs : ColorSpace) (format : IFormat) : Option (ImgVal N) :=
  (r.bind fun b => if b.color = .Palette then (if b.transparent then FP.to32 b else FP.to24 b) else some b).bind fun b =>
    let f := if format = .Invalid then getFormat b else format
    if f = .Invalid then none else some (b, f, cs)

/-- The variables of a program: no object, or an object that holds an image or not. -/
abbrev ImgVals (N : Type) := Nat → Option (Option (ImgVal N))

/-- One operation (`none`: the program uses an object that it did not construct, or constructs one twice). -/
def ImgVals.step (FP : FromPalette N) (s : ImgVals N) : ImgOp N → Option (ImgVals N)
  | .construct v => match s v with
    | none => some (fput s v (some none))
    | some _ => none
  | .destroy v => (s v).map fun _ => fput s v none
  | .reset v => (s v).map fun _ => fput s v (some none)
  | .load v r cs => (s v).map fun _ => fput s v (some (made FP r cs .Invalid))
  | .initialize v r format cs => (s v).map fun _ => fput s v (some (made FP r cs format))
  | .copyCtor dst src clone => match s dst, s src with
    | none, some x => some (fput s dst (some (x.bind fun i => made FP (if clone then some i.1 else none) i.2.2 i.2.1)))
    | _, _ => none
  | .moveCtor dst src => match s dst, s src with
    | none, some x => some (fput (fput s src (some none)) dst (some x))
    | _, _ => none
  | .copyAssign dst src clone => match s dst, s src with
    | some _, some x => some (if dst = src then s
        else fput s dst (some (x.bind fun i => made FP (if clone then some i.1 else none) i.2.2 i.2.1)))
    | _, _ => none
  | .moveAssign dst src => match s dst, s src with
    | some _, some x => some (if dst = src then s else fput (fput s src (some none)) dst (some x))
    | _, _ => none
  | .derive dst src f format => match s dst, s src with
    | none, some x => some (fput s dst (some (x.bind fun i => made FP (f i.1) i.2.2 format)))
    | _, _ => none
  | .change v f cs => (s v).map fun x =>
    fput s v (some (x.map fun i => ({ i.1 with pixels := f i.1.pixels }, i.2.1, cs i.2.2)))

/-- A history of operations. -/
def ImgVals.run (FP : FromPalette N) : ImgVals N → List (ImgOp N) → Option (ImgVals N)
  | s, [] => some s
  | s, o :: os => (s.step FP o).bind fun s' => ImgVals.run FP s' os

/-- The variables that an operation changes. -/
def imgChanges : ImgOp N → List Nat
  | .construct v | .destroy v | .reset v | .load v _ _ | .initialize v _ _ _ | .change v _ _ => [v]
  | .copyCtor dst _ _ | .copyAssign dst _ _ | .derive dst _ _ _ => [dst]
  | .moveCtor dst src | .moveAssign dst src => [dst, src]

end Cuttlefish.Spec
