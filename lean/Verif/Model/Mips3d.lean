import Verif.Model.Image
/-
`generateMips3d` (lib/src/Texture.cpp:103-227): the reduction of a 3D texture along its depth.
-/
namespace Cuttlefish
variable {N : Type}

/-- Column `x` of `image.scanline(y)` of an RGBAF image, lib/src/Image.cpp:1084-1098: `scanline` is null
beyond the height, and nothing checks the column. -/
def Image.scan (A : Arith N) (i : Image N) (y x : Nat) : Res (Color N) :=
  if y < i.bmp.height then i.get A (i.bmp.height - y - 1) x else .ub

/-- The colour that is averaged: floats, in linear space, lib/src/Texture.cpp:136-143 and 190-197. -/
def linearSource (A : Arith N) (cs : ColorSpace) (c : Color N) : Color N :=
  if cs = .sRGB then
    ⟨A.single (A.sRGBToLinear c.r), A.single (A.sRGBToLinear c.g), A.single (A.sRGBToLinear c.b), c.a⟩
  else c

/-- The colour of slice `i` of the previous level, lib/src/Texture.cpp:132-143 and 186-197. -/
def sliceSource (A : Arith N) (prev : List (Image N)) (cs : ColorSpace) (y x i : Nat) : Res (Color N) :=
  match prev[i]? with
  | none => .ub
  | some src => do
    let c ← src.scan A y x
    .ok (linearSource A cs c)

/-- The colour that is stored, lib/src/Texture.cpp:152-162 and 206-216. -/
def storedResult (A : Arith N) (cs : ColorSpace) (c : Color N) : Color N :=
  let c : Color N := ⟨A.single c.r, A.single c.g, A.single c.b, A.single c.a⟩
  if cs = .sRGB then
    ⟨A.single (A.linearToSRGB c.r), A.single (A.linearToSRGB c.g), A.single (A.linearToSRGB c.b), c.a⟩
  else c

/-- One pixel of an output slice with the box filter, lib/src/Texture.cpp:116-163.  The offset of the
window is not halved here. -/
def boxPixel3d (A : Arith N) (prev : List (Image N)) (depth : Nat) (cs : ColorSpace) (d y x : Nat) :
    Res (Color N) := do
  let (inv, off, scale) := axis A prev.length depth
  let center := centerOf A d inv
  let (start, stop) ← window A center off prev.length
  let (color, total) ← loop (steps start stop) (fun i s =>
    if A.lt (A.lit 0.5) (distanceTo A i center scale) then .ok s
    else do
      let c ← sliceSource A prev cs y x i
      .ok (addColor A s.1 c, u32 (s.2 + 1))) (zeroColor A, 0)
  .ok (storedResult A cs (divColor A color (A.lit total)))

/-- One pixel of an output slice with the linear filter, lib/src/Texture.cpp:173-217. -/
def linearPixel3d (A : Arith N) (prev : List (Image N)) (depth : Nat) (cs : ColorSpace) (d y x : Nat) :
    Res (Color N) := do
  let (inv, off, scale) := axis A prev.length depth
  let center := centerOf A d inv
  let (start, stop) ← window A center off prev.length
  let (color, total) ← loop (steps start stop) (fun i s =>
    let w := A.max (A.sub (A.lit 1) (distanceTo A i center scale)) (A.lit 0)
    if A.eq w (A.lit 0) then .ok s
    else do
      let c ← sliceSource A prev cs y x i
      .ok (addScaled A s.1 c w, A.add s.2 w)) (zeroColor A, A.lit 0)
  .ok (storedResult A cs (divColor A color total))

/-- One pixel with either filter, lib/src/Texture.cpp:112 and 168: filters other than `Box` are linear
here. -/
def pixel3d (A : Arith N) (prev : List (Image N)) (depth : Nat) (cs : ColorSpace) (filter : ResizeFilter)
    (d y x : Nat) : Res (Color N) :=
  if filter = .Box then boxPixel3d A prev depth cs d y x else linearPixel3d A prev depth cs d y x

/-- One output slice, lib/src/Texture.cpp:112-226: writes through `scanline` pointers, so an image that
could not be allocated is undefined behaviour. -/
def mipSlice3d (A : Arith N) (FI : FreeImage N) (prev : List (Image N)) (w h depth : Nat) (cs : ColorSpace)
    (filter : ResizeFilter) (d : Nat) : Res (Image N) :=
  match Image.new FI .RGBAF w h cs with
  | none => .ub
  | some dst =>
    loop (steps 0 h) (fun y dst => loop (steps 0 w) (fun x dst => do
      let c ← pixel3d A prev depth cs filter d y x
      dst.put (dst.bmp.height - y - 1) x (.nums [c.r, c.g, c.b, c.a])) dst) dst

end Cuttlefish
