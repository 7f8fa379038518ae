import Verif.Model.Image
/-
Specification of images: which pixels a format can hold, what FreeImage is assumed to do, and the
geometric operations on coordinates counted from the top left corner.
-/
namespace Cuttlefish.Spec
variable {N : Type}

/-- A component is an integer in range. -/
def Upto (m : Int) (v : Int) : Prop := 0 ≤ v ∧ v ≤ m

/-- The pixels a format can hold. -/
def PxOk (A : Arith N) : IFormat → Px N → Prop
  | .Gray8, .ints [v] => Upto 255 v
  | .Gray16, .ints [v] => Upto 65535 v
  | .RGB5, .ints [w] => Upto 65535 w
  | .RGB565, .ints [w] => Upto 65535 w
  | .RGB8, .ints [r, g, b] => Upto 255 r ∧ Upto 255 g ∧ Upto 255 b
  | .RGB16, .ints [r, g, b] => Upto 65535 r ∧ Upto 65535 g ∧ Upto 65535 b
  | .RGBF, .nums [r, g, b] => A.single r = r ∧ A.single g = g ∧ A.single b = b
  | .RGBA8, .ints [r, g, b, a] => Upto 255 r ∧ Upto 255 g ∧ Upto 255 b ∧ Upto 255 a
  | .RGBA16, .ints [r, g, b, a] => Upto 65535 r ∧ Upto 65535 g ∧ Upto 65535 b ∧ Upto 65535 a
  | .RGBAF, .nums [r, g, b, a] => A.single r = r ∧ A.single g = g ∧ A.single b = b ∧ A.single a = a
  | .Int16, .ints [v] => -2 ^ 15 ≤ v ∧ v ≤ 2 ^ 15 - 1
  | .UInt16, .ints [v] => Upto 65535 v
  | .Int32, .ints [v] => -2 ^ 31 ≤ v ∧ v ≤ 2 ^ 31 - 1
  | .UInt32, .ints [v] => Upto (2 ^ 32 - 1) v
  | .Float, .nums [v] => A.single v = v
  | .Double, .nums [_] => True
  | .Complex, .nums [_, _] => True
  | _, _ => False

/-- All pixels of the bitmap are pixels of the format. -/
def BmpOk (A : Arith N) (f : IFormat) (b : Bitmap N) : Prop :=
  ∀ y x, y < b.height → x < b.width → PxOk A f (b.px y x)

/-- All pixels of the image are pixels of its format. -/
def ImgOk (A : Arith N) (i : Image N) : Prop := BmpOk A i.format i.bmp

/-- Assumptions about FreeImage: its functions, if they do not fail, do what its documentation says
(rotation is counter-clockwise, scanlines are counted from the bottom). -/
structure LawfulFI (A : Arith N) (FI : FreeImage N) : Prop where
  alloc : ∀ f w h b, FI.alloc f w h = some b → b.width = w ∧ b.height = h ∧ BmpOk A f b
  clone : ∀ b b', FI.clone b = some b' → b' = b
  rotate90 : ∀ b b', FI.rotate b 90 = some b' → b'.width = b.height ∧ b'.height = b.width ∧
    ∀ y x, y < b.height → x < b.width → b'.px x (b.height - 1 - y) = b.px y x
  rotate180 : ∀ b b', FI.rotate b 180 = some b' → b'.width = b.width ∧ b'.height = b.height ∧
    ∀ y x, y < b.height → x < b.width → b'.px (b.height - 1 - y) (b.width - 1 - x) = b.px y x
  rotate270 : ∀ b b', FI.rotate b 270 = some b' → b'.width = b.height ∧ b'.height = b.width ∧
    ∀ y x, y < b.height → x < b.width → b'.px (b.width - 1 - x) y = b.px y x
  flipHorizontal : ∀ b, (FI.flipHorizontal b).2.width = b.width ∧
    (FI.flipHorizontal b).2.height = b.height ∧
    ∀ y x, y < b.height → x < b.width → (FI.flipHorizontal b).2.px y x =
      if (FI.flipHorizontal b).1 then b.px y (b.width - 1 - x) else b.px y x
  flipVertical : ∀ b, (FI.flipVertical b).2.width = b.width ∧
    (FI.flipVertical b).2.height = b.height ∧
    ∀ y x, y < b.height → x < b.width → (FI.flipVertical b).2.px y x =
      if (FI.flipVertical b).1 then b.px (b.height - 1 - y) x else b.px y x
  rescale : ∀ b w h filter b', FI.rescale b w h filter = some b' → b'.width = w ∧ b'.height = h ∧
    ∀ f, BmpOk A f b → BmpOk A f b'
  convert : ∀ f b g b', FI.convert f b g = some b' → b'.width = b.width ∧ b'.height = b.height ∧
    BmpOk A g b'

/-- Assumptions about the arithmetic: a stored value is read and stored again without change. -/
structure LawfulArith (A : Arith N) : Prop where
  /-- normalised integers -/
  norm : ∀ top m v : Nat, m ∈ [31, 63, 255, 65535] → v ≤ m → m ≤ top →
    A.toNorm top m (A.fromNorm m v) = .ok v
  /-- integers of at most 32 bits -/
  int : ∀ lo hi v : Int, lo ≤ v → v ≤ hi → |v| ≤ 2 ^ 32 → A.cast lo hi (A.lit v) = .ok v
  /-- a stored normalised integer is in range -/
  normRange : ∀ (top m : Nat) d v, m ∈ [31, 63, 255, 65535] → m ≤ top → A.toNorm top m d = .ok v →
    0 ≤ v ∧ v ≤ m
  /-- a stored integer is in range -/
  cast : ∀ lo hi d v, A.cast lo hi d = .ok v → lo ≤ v ∧ v ≤ hi
  /-- floats -/
  single : ∀ v, A.single (A.single v) = A.single v

/-- A rotation or a flip. -/
inductive Move where
  | turn (angle : RotateAngle)
  | mirrorX
  | mirrorY
  deriving DecidableEq, Repr

/-- A size and a position in it, counted from the top left corner: `(width, height)` and `(x, y)`. -/
abbrev Place := (Nat × Nat) × (Nat × Nat)

/-- The quarter turn clockwise: the top left corner goes to the top right. -/
def quarter (s : Place) : Place := ((s.1.2, s.1.1), (s.1.2 - 1 - s.2.2, s.2.1))

/-- Where a rotation or a flip moves a pixel. -/
def Move.place : Move → Place → Place
  | .turn .CW90, s | .turn .CCW270, s => quarter s
  | .turn .CW180, s | .turn .CCW180, s => quarter (quarter s)
  | .turn .CW270, s | .turn .CCW90, s => quarter (quarter (quarter s))
  | .mirrorX, s => (s.1, (s.1.1 - 1 - s.2.1, s.2.2))
  | .mirrorY, s => (s.1, (s.2.1, s.1.2 - 1 - s.2.2))

/-- Where a sequence of them moves a pixel. -/
def place (ms : List Move) (s : Place) : Place := ms.foldl (fun s m => m.place s) s

/-- Call `rotate`, `flipHorizontal` or `flipVertical`; `none` if it fails. -/
def runMove (A : Arith N) (FI : FreeImage N) (i : Image N) : Move → Res (Img? N)
  | .turn a => i.rotate A FI a
  | .mirrorX => .ok (if (i.flipHorizontal FI).1 then some (i.flipHorizontal FI).2 else none)
  | .mirrorY => .ok (if (i.flipVertical FI).1 then some (i.flipVertical FI).2 else none)

/-- Perform a sequence of them; `none` if one fails. -/
def runMoves (A : Arith N) (FI : FreeImage N) : List Move → Image N → Res (Img? N)
  | [], i => .ok (some i)
  | m :: ms, i => do
    match ← runMove A FI i m with
    | none => .ok none
    | some j => runMoves A FI ms j

end Cuttlefish.Spec
