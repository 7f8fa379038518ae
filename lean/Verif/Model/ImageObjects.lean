import Verif.Model.Load
import Verif.Model.Objects
/-
Objects of class `Image` and the bitmaps of FreeImage that they own (lib/src/Image.cpp:707-858).

A bitmap is a handle; `FreeImage_Unload` gives it back.  What the functions of FreeImage return (a bitmap or null) is
part of an operation, so that statements hold for every result.  Simplified: the `Impl` that holds the handle lives as
long as the `unique_ptr` is not null, so it is part of the variable.
-/
namespace Cuttlefish
variable {N : Type}

/-- What `Image::Impl` keeps beside the bitmap, lib/src/Image.cpp:784-797 (masks and sizes are computed from the bitmap,
`Model/Load`). -/
structure ImgRef where
  handle : Nat
  format : IFormat
  colorSpace : ColorSpace

/-- Image variables (`none`: no object, `some none`: `m_impl` is null), the bitmaps that are alive, and the next handle
that FreeImage gives out. -/
structure ImgMem (N : Type) where
  vars : Nat → Option (Option ImgRef)
  heap : Nat → Option (FIBitmap N)
  next : Nat

/-- A function of FreeImage returns a new bitmap. -/
def ImgMem.alloc (m : ImgMem N) (b : FIBitmap N) : Nat × ImgMem N :=
  (m.next, { m with heap := fput m.heap m.next (some b), next := m.next + 1 })

/-- `FreeImage_Unload`: undefined if the bitmap is not alive. -/
def ImgMem.unload (m : ImgMem N) (h : Nat) : Res (ImgMem N) :=
  match m.heap h with
  | none => .ub
  | some _ => .ok { m with heap := fput m.heap h none }

/-- A function of FreeImage is called on a bitmap: undefined if the bitmap is not alive. -/
def ImgMem.get (m : ImgMem N) (h : Nat) : Res (FIBitmap N) :=
  match m.heap h with
  | none => .ub
  | some b => .ok b

/-- `m_impl.reset()` and `~Impl`, lib/src/Image.cpp:775-779. -/
def ImgMem.release (m : ImgMem N) : Option ImgRef → Res (ImgMem N)
  | none => .ok m
  | some r => m.unload r.handle

/-- `Impl::create`, lib/src/Image.cpp:709-740, with the bitmaps it takes and gives back; `r` is what FreeImage
returned. -/
def ImgMem.create (FP : FromPalette N) (m : ImgMem N) (r : Option (FIBitmap N)) (cs : ColorSpace) (format : IFormat) :
    Res (Option ImgRef × ImgMem N) :=
  match r with
  | none => .ok (none, m)
  | some b => do
    let a := m.alloc b
    let image ← a.2.get a.1
    let c : Option Nat × ImgMem N ←
      if image.color = .Palette then
        let new := if image.transparent then FP.to32 image else FP.to24 image
        match new with
        | none => do
          let m' ← a.2.unload a.1
          pure (none, m')
        | some b' => do
          let a' := a.2.alloc b'
          let m' ← a'.2.unload a.1
          pure (some a'.1, m')
      else pure (some a.1, a.2)
    match c.1 with
    | none => pure (none, c.2)
    | some h => do
      let image ← c.2.get h
      let f := if format = .Invalid then getFormat image else format
      if f = .Invalid then do
        let m' ← c.2.unload h
        pure (none, m')
      else pure (some ⟨h, f, cs⟩, c.2)

/-- Operations on image variables.  `load`: what the reader returns; `initialize`: what the allocation returns (null also
for a format that is refused); copies: whether `FreeImage_Clone` succeeds; `derive`: what the function of FreeImage makes
of the bitmap (`convert`, `resize`, `rotate` and `createNormalMap` return a new object); `change`: a method that works on
the pixels in place and may set the colour space. -/
inductive ImgOp (N : Type) where
  | construct (v : Nat)
  | destroy (v : Nat)
  | reset (v : Nat)
  | load (v : Nat) (r : Option (FIBitmap N)) (cs : ColorSpace)
  | initialize (v : Nat) (r : Option (FIBitmap N)) (format : IFormat) (cs : ColorSpace)
  | copyCtor (dst src : Nat) (clone : Bool)
  | moveCtor (dst src : Nat)
  | copyAssign (dst src : Nat) (clone : Bool)
  | moveAssign (dst src : Nat)
  | derive (dst src : Nat) (f : FIBitmap N → Option (FIBitmap N)) (format : IFormat)
  | change (v : Nat) (f : Bitmap N → Bitmap N) (cs : ColorSpace → ColorSpace)

/-- `reset()` followed by `m_impl.reset(Impl::create(r, cs, format))` on the variable `v` with the pointer `old`:
`load` and `initialize`, lib/src/Image.cpp:870-973. -/
def ImgMem.remake (FP : FromPalette N) (m : ImgMem N) (v : Nat) (old : Option ImgRef) (r : Option (FIBitmap N))
    (cs : ColorSpace) (format : IFormat) : Res (ImgMem N) := do
  let m1 ← m.release old
  let c ← ImgMem.create FP { m1 with vars := fput m1.vars v (some none) } r cs format
  pure { c.2 with vars := fput c.2.vars v (some c.1) }

/-- `FreeImage_Clone(other.m_impl->image)` and `Impl::create` into the variable `dst`, whose pointer is null:
lib/src/Image.cpp:833-838 and 850-854. -/
def ImgMem.cloneInto (FP : FromPalette N) (m : ImgMem N) (dst : Nat) (src : Option ImgRef)
    (f : FIBitmap N → Option (FIBitmap N)) (format : Option IFormat) : Res (ImgMem N) :=
  match src with
  | none => .ok { m with vars := fput m.vars dst (some none) }
  | some q => do
    let b ← m.get q.handle
    let c ← ImgMem.create FP { m with vars := fput m.vars dst (some none) } (f b) q.colorSpace (format.getD q.format)
    pure { c.2 with vars := fput c.2.vars dst (some c.1) }

/-- One operation on image objects, lib/src/Image.cpp:800-858: the move functions are defaulted and move the
`unique_ptr`. -/
def ImgMem.step (FP : FromPalette N) (m : ImgMem N) : ImgOp N → Res (ImgMem N)
  | .construct v =>
    match m.vars v with
    | some _ => .ub
    | none => .ok { m with vars := fput m.vars v (some none) }
  | .destroy v =>
    match m.vars v with
    | none => .ub
    | some p => do
      let m' ← m.release p
      pure { m' with vars := fput m'.vars v none }
  | .reset v =>
    match m.vars v with
    | none => .ub
    | some p => do
      let m' ← m.release p
      pure { m' with vars := fput m'.vars v (some none) }
  | .load v r cs =>
    match m.vars v with
    | none => .ub
    | some p => m.remake FP v p r cs .Invalid
  | .initialize v r format cs =>
    match m.vars v with
    | none => .ub
    | some p => m.remake FP v p r cs format
  | .copyCtor dst src clone =>
    match m.vars dst, m.vars src with
    | none, some q => m.cloneInto FP dst q (fun b => if clone then some b else none) none
    | _, _ => .ub
  | .moveCtor dst src =>
    match m.vars dst, m.vars src with
    | none, some q => .ok { m with vars := fput (fput m.vars src (some none)) dst (some q) }
    | _, _ => .ub
  | .copyAssign dst src clone =>
    match m.vars dst, m.vars src with
    | some p, some q =>
      if dst = src then .ok m
      else do
        let m1 ← m.release p
        ({ m1 with vars := fput m1.vars dst (some none) } : ImgMem N).cloneInto FP dst q
          (fun b => if clone then some b else none) none
    | _, _ => .ub
  | .moveAssign dst src =>
    match m.vars dst, m.vars src with
    | some p, some q =>
      -- `release()` empties the source, then `reset` frees the old target
      if dst = src then .ok m
      else do
        let m' ← ({ m with vars := fput m.vars src (some none) } : ImgMem N).release p
        pure { m' with vars := fput m'.vars dst (some q) }
    | _, _ => .ub
  | .derive dst src f format =>
    match m.vars dst, m.vars src with
    | none, some q => m.cloneInto FP dst q f (some format)
    | _, _ => .ub
  | .change v f cs =>
    match m.vars v with
    | none => .ub
    | some none => .ok m
    | some (some r) => do
      let b ← m.get r.handle
      pure { m with
        heap := fput m.heap r.handle (some { b with pixels := f b.pixels })
        vars := fput m.vars v (some (some { r with colorSpace := cs r.colorSpace })) }

/-- A history of operations on image objects. -/
def ImgMem.run (FP : FromPalette N) : ImgMem N → List (ImgOp N) → Res (ImgMem N)
  | m, [] => .ok m
  | m, o :: os => do
    let m' ← m.step FP o
    ImgMem.run FP m' os

/-- Memory at program start. -/
def ImgMem.init (N : Type) : ImgMem N := ⟨fun _ => none, fun _ => none, 0⟩

/-- What an image variable shows: the bitmap, the format and the colour space of the image it holds. -/
def ImgMem.value (m : ImgMem N) (v : Nat) : Res (Option (FIBitmap N × IFormat × ColorSpace)) :=
  match m.vars v with
  | none => .ub
  | some none => .ok none
  | some (some r) => do
    let b ← m.get r.handle
    pure (some (b, r.format, r.colorSpace))

end Cuttlefish
