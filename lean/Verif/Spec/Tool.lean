import Mathlib.Data.Nat.Digits.Defs
import Verif.Model.CommandLine
import Verif.Spec.Image
/-
Specifications for the command line tool.
-/
namespace Cuttlefish.Spec

/-- The decimal digits of a number, most significant first. -/
def digitText (n : ℕ) : Str :=
  if n = 0 then [48] else (Nat.digits 10 n).reverse.map (fun d => UInt8.ofNat (48 + d))

/-- The decimal text of an integer. -/
def decimal (n : ℤ) : Str := if n < 0 then 45 :: digitText n.natAbs else digitText n.natAbs

/-- What the rotation of a command line does with a position in an image. -/
def turned {H : Type} (c : Cmd H) (s : Place) : Place :=
  if c.rotate then Move.place (.turn c.rotateAngle) s else s

/-- The number that the C library reads in the text, if there is one, is below 2^61. -/
def SmallNumber (a : Str) : Prop := ∀ v, strtoulAll a = some v → v < 2 ^ 61

/-- An option is among the arguments, in its short or long form. -/
def Uses (argv : List Str) (short long : String) : Prop := cstr short ∈ argv ∨ cstr long ∈ argv

/-- The input options that can write behind the end of a list of images from a file are not combined
with such a list. -/
def NoMix (argv : List Str) : Prop :=
  ¬ Uses argv "-I" "--input-list" ∨ (¬ Uses argv "-c" "--cube" ∧ ¬ Uses argv "-C" "--cube-array")

/-- Custom mips of 3D textures have levels below 32: there is no 3D texture, or all levels are given
on the command line and are below 32 (as 32-bit numbers). -/
def SmallLevels (argv : List Str) : Prop :=
  cstr "3" ∉ argv ∨ (cstr "--custom-mip-list" ∉ argv ∧
    ∀ i o a v, argv[i]? = some o → matchesArg o "-M" "--custom-mip" = true → argv[i + 1]? = some a →
      strtoulAll a = some v → v % 2 ^ 32 < 32)

/-- A complete and consistent job for the tool. -/
structure ValidJob {H : Type} (f : Features) (c : Cmd H) : Prop where
  /-- there is an image, and every image has a name -/
  images : c.images ≠ []
  names : ∀ n ∈ c.images, n ≠ []
  output : ∃ o, c.output = some o
  format : c.format ≠ .Unknown
  /-- the file type is known and can store the format and type -/
  file : c.fileType ≠ .Auto
  supported : isFormatValidFile f c.format c.type c.fileType = true
  srgb : c.textureColorSpace = .sRGB → hasNativeSRGB c.format c.type = true
  /-- the number of images fits the kind of texture -/
  one : c.imageType = .Image → c.images.length = 1
  cube : c.imageType = .Cube → c.images.length = 6
  cubes : c.imageType = .CubeArray → 6 ∣ c.images.length
  kind : c.dimension = .Cube ↔ c.imageType = .Cube ∨ c.imageType = .CubeArray

/-- The number of slices or layers of a level of the texture. -/
def mipDepth {H : Type} (c : Cmd H) (level : ℕ) : ℕ :=
  match c.dimension with
  | .Dim3D => max (c.images.length / 2 ^ level) 1
  | .Cube => c.images.length / 6
  | _ => c.images.length

end Cuttlefish.Spec
