import Verif.Model.Image
/-
`Texture::adjustImageValueRange` (lib/src/Texture.cpp:959-1086).
-/
namespace Cuttlefish
variable {N : Type}

/-- The original formats whose values are adjusted, lib/src/Texture.cpp:969-978. -/
def adjusts : IFormat → Bool
  | .Gray8 | .Gray16 | .RGB5 | .RGB565 | .RGB8 | .RGB16 | .RGBA8 | .RGBA16 => true
  | _ => false

/-- The floating point format the values are adjusted in, lib/src/Texture.cpp:981-1015; `none` for the
formats that are left alone. -/
def adjustedFormat : IFormat → Option IFormat
  | .Gray8 | .Gray16 | .Double | .Float => some .Float
  | .RGB5 | .RGB565 | .RGB8 | .RGB16 | .Complex | .RGBF => some .RGBF
  | .RGBA8 | .RGBA16 | .RGBAF => some .RGBAF
  | _ => none

/-- Whether the image is converted to that format first, lib/src/Texture.cpp:981-1015. -/
def adjustConverts : IFormat → Bool
  | .Float | .RGBF | .RGBAF => false
  | _ => true

/-- `multiply`, lib/src/Texture.cpp:1028-1064. -/
def adjustMultiply (orig : IFormat) (c : Nat) : ℚ :=
  match orig, c with
  | .Gray8, _ | .RGB8, _ | .RGBA8, _ => 255
  | .Gray16, _ | .RGB16, _ | .RGBA16, _ => 65535
  | .RGB5, 0 | .RGB5, 1 | .RGB5, 2 => 31
  | .RGB565, 0 | .RGB565, 2 => 31
  | .RGB565, 1 => 63
  | _, _ => 0

/-- `offset`, lib/src/Texture.cpp:1029-1064. -/
def adjustOffset (orig : IFormat) (type : TType) (c : Nat) : ℚ :=
  if type = .Int then
    match orig, c with
    | .Gray8, _ | .RGB8, _ | .RGBA8, _ => -128
    | .Gray16, _ | .RGB16, _ | .RGBA16, _ => -32768
    | .RGB5, 0 | .RGB5, 1 | .RGB5, 2 => -16
    | .RGB565, 0 | .RGB565, 2 => -16
    | .RGB565, 1 => -32
    | _, _ => 0
  else 0

variable (A : Arith N) (FI : FreeImage N)

/-- The new value of component `c`: `v*2.0f - 1.0f` (lib/src/Texture.cpp:1023) or
`std::round(v*multiply[c] + offset[c])` (lines 1073-1076). -/
def adjustValue (orig : IFormat) (type : TType) (c : Nat) (v : N) : N :=
  if type = .SNorm then A.addS (A.mulS v (A.lit 2)) (A.lit (-1))
  else A.round (A.addS (A.mulS v (A.lit (adjustMultiply orig c))) (A.lit (adjustOffset orig type c)))

/-- The components of a floating point pixel from component `c` on. -/
def adjustValues (orig : IFormat) (type : TType) : Nat → List N → List N
  | _, [] => []
  | c, v :: vs => adjustValue A orig type c v :: adjustValues orig type (c + 1) vs

/-- A pixel seen as an array of floats. -/
def adjustPx (orig : IFormat) (type : TType) : Px N → Res (Px N)
  | .nums vs => .ok (.nums (adjustValues A orig type 0 vs))
  | .ints _ => .ub

/-- The loops over the scanlines, lib/src/Texture.cpp:1018-1025 and 1068-1079.  Simplification: a
pixel has as many components as its format, which is the `channelCount` of the code. -/
def adjustLoop (orig : IFormat) (type : TType) (i : Image N) : Res (Image N) :=
  loop (steps 0 i.bmp.height) (fun y j => loop (steps 0 i.bmp.width) (fun x j => do
    let p ← j.bmp.read y x
    let p ← adjustPx A orig type p
    j.put y x p) j) i

/-- The image the loops work on. -/
def adjustSource (i : Image N) (f : IFormat) : Res (Img? N) :=
  if adjustConverts i.format then i.convert A FI f true else .ok (some i)

/-- The loops on a valid image; an invalid image has no scanlines. -/
def adjustAll (orig : IFormat) (type : TType) : Img? N → Res (Img? N)
  | none => .ok none
  | some j => do
    let j ← adjustLoop A orig type j
    .ok (some j)

/-- `Texture::adjustImageValueRange` on a valid image, lib/src/Texture.cpp:959-1086.  The result is the
image afterwards, `none` if it is invalid because the conversion failed. -/
def adjustImageValueRange (i : Image N) (type : TType) (orig : IFormat) : Res (Img? N) :=
  let orig := if orig = .Invalid then i.format else orig
  if (type = .SNorm ∨ type = .UInt ∨ type = .Int) ∧ adjusts orig = true then
    match adjustedFormat i.format with
    | none => .ok (some i)
    | some f => do
      let j ← adjustSource A FI i f
      adjustAll A orig type j
  else .ok (some i)

end Cuttlefish
