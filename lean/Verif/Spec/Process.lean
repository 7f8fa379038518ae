import Verif.Model.CommandLine
import Verif.Spec.Adjust
import Verif.Spec.Normal
import Verif.Spec.Resize
import Verif.Spec.Swizzle
import Verif.Spec.Tone
/-
What the tool does with an input image: where it moves the pixels, and what it does with their colours, in exact
arithmetic.
-/
namespace Cuttlefish.Spec
variable {H : Type}

/-- The size of a mip level. -/
def levelSize (s : ℕ × ℕ) (level : ℕ) : ℕ × ℕ := (max (s.1 / 2 ^ level) 1, max (s.2 / 2 ^ level) 1)

/-- The rotation of a job. -/
def jobTurn (c : Cmd H) : List Move := if c.rotate then [.turn c.rotateAngle] else []

/-- The flips of a job. -/
def jobFlips (c : Cmd H) : List Move := (if c.flipX then [.mirrorX] else []) ++ if c.flipY then [.mirrorY] else []

/-- The rotation and the flips of a job, in the order they are done. -/
def jobMoves (c : Cmd H) : List Move := jobTurn c ++ jobFlips c

/-- The size of the images of a job for a mip level of a texture of size `s` (before the rotation). -/
def imageSize (c : Cmd H) (s : ℕ × ℕ) (level : ℕ) : ℕ × ℕ :=
  (place (jobMoves c) (levelSize s level, (0, 0))).1

/-- A quarter or three quarters of a turn. -/
def quarterTurn (c : Cmd H) : Prop := c.rotate = true ∧ c.rotateAngle ∉ [.CW180, .CCW180]

/-- The image has the colour space, the floating point format and the size a job asks for, for a mip level of a texture
of size `s` (before the rotation). -/
def AsAsked {N : Type} (c : Cmd H) (s : ℕ × ℕ) (level : ℕ) (j : Image N) : Prop :=
  j.colorSpace = c.textureColorSpace ∧ j.format = (if c.normalMap then .RGBF else .RGBAF) ∧
    (j.bmp.width, j.bmp.height) = imageSize c s level

/-- The exception: a smaller mip level of a normal map that is turned by a quarter. -/
def TurnedMip (c : Cmd H) (s : ℕ × ℕ) (level : ℕ) : Prop :=
  c.normalMap = true ∧ quarterTurn c ∧ levelSize s level ≠ s

/-- Assumption about `Image::load`: it gives images whose pixels are pixels of their format, with the colour space that
is asked for, and whose pixels can be counted with 32 bits. -/
def LoadsWell {N : Type} (A : Arith N) (read : Str → ColorSpace → Img? N) : Prop :=
  ∀ path cs i, read path cs = some i → ImgOk A i ∧ i.colorSpace = cs ∧ Countable i

/-- Sizes that are given as a number are positive `int`s. -/
def GivenSizes (c : Cmd H) : Prop :=
  ∀ o ∈ [sizeOfInt c.width, sizeOfInt c.height], ∀ n, o = .exact n → 0 < n ∧ n < 2 ^ 31

/-- The sizes are values of the type `int` (negative ones and 0 too). -/
def IntSizes (c : Cmd H) : Prop := ∀ v ∈ [c.width, c.height], -2 ^ 31 ≤ v ∧ v < 2 ^ 31

/-- The pixels of an image of this size can be counted with 32 bits (if there are any). -/
def Counts (s : ℕ × ℕ) : Prop := s.1 < 2 ^ 31 ∧ s.2 < 2 ^ 31 ∧ s.1 * s.2 < 2 ^ 32

/-- Assumption about FreeImage: it does not run out of memory. -/
def EnoughMemory {N : Type} (FI : FreeImage N) : Prop :=
  (∀ f w h, f ≠ .Invalid → FI.alloc f w h ≠ none) ∧ ∀ b, FI.clone b ≠ none

/-- Images are resized with a filter of the code, or FreeImage does it (for images that are not empty). -/
def CanResize {N : Type} (FI : FreeImage N) (filter : ResizeFilter) : Prop :=
  filter = .Box ∨ filter = .Linear ∨ ∀ b w h, 0 < b.width → 0 < b.height → FI.rescale b w h filter ≠ none

noncomputable section

/-- The nearest integer, away from 0 between two. -/
def away (v : ℝ) : ℝ := if 0 ≤ v then (⌊v + 1 / 2⌋ : ℝ) else -(⌊-v + 1 / 2⌋ : ℝ)

/-- Channel number `k` of an image that came from the format `orig`, for a texture of a type: integers in [0, 1] become
[-1, 1] for `SNorm`, and integers again for `UInt` and `Int`; for `Int` they start at the lowest one. -/
def inRange (type : TType) (orig : IFormat) (k : ℕ) (v : ℝ) : ℝ :=
  if orig ∉ sources then v
  else match type with
    | .SNorm => 2 * v - 1
    | .UInt | .Int => match largest orig k with
      | some m => away (v * m + lowest type m)
      | none => 0
    | _ => v

/-- What happens to a colour after the change of the colour space and resizing: grayscale, the choice of channels,
pre-multiplied alpha and the range of the type, in this order, each if it is asked for. -/
def finishedColor (c : Cmd H) (orig : IFormat) (v : Color ℝ) : Color ℝ :=
  let v := if c.grayscale then greyed c.textureColorSpace v else v
  let v := if c.swizzle then
      Selection.apply 0 1 ⟨c.redSwzl, c.greenSwzl, c.blueSwzl, c.alphaSwzl⟩ v
    else v
  let v := if c.preMultiply then multiplied c.textureColorSpace v else v
  ⟨inRange c.type orig 0 v.r, inRange c.type orig 1 v.g, inRange c.type orig 2 v.b, inRange c.type orig 3 v.a⟩

/-- The colour of a pixel of the input in the colour space of the texture. -/
def inTexture (c : Cmd H) (v : Color ℝ) : Color ℝ := onColor (transfer c.imageColorSpace c.textureColorSpace) v

/-- The height of a normal map at a pixel of the input is the red channel of this colour. -/
def heightColor (c : Cmd H) (v : Color ℝ) : Color ℝ :=
  if c.grayscale then greyed c.textureColorSpace (inTexture c v) else inTexture c v

/-- The colour of a normal, which has no alpha: between -1 and 1 for signed textures or if the options say so, else
between 0 and 1; then the choice of channels. -/
def normalColor (c : Cmd H) (n : Color ℝ) : Color ℝ :=
  let n := if c.normalOptions.keepSign = true ∨ c.type ∈ [.SNorm, .Int, .Float] then n else onColor toUnsigned n
  if c.swizzle then
    { Selection.apply 0 1 ⟨c.redSwzl, c.greenSwzl, c.blueSwzl, c.alphaSwzl⟩ n with a := 1 }
  else n

/-- Assumption about FreeImage: its conversions to floating point colours, where they work, keep the colours. -/
def KeepsColors (FI : FreeImage ℝ) : Prop :=
  ∀ f b b', BmpOk Arith.exact f b → FI.convert f b .RGBAF = some b' → ∀ y x, y < b.height → x < b.width →
    getPixelImpl Arith.exact .RGBAF (b'.px y x) = getPixelImpl Arith.exact f (b.px y x)

/-- Assumption about FreeImage: flipping does not run out of memory. -/
def FlipsWork {N : Type} (FI : FreeImage N) : Prop :=
  ∀ b, (FI.flipHorizontal b).1 = true ∧ (FI.flipVertical b).1 = true

end
end Cuttlefish.Spec
