import Verif.Spec.Job
import Verif.Spec.Tool
/-
The options of the tool as its help text describes them (tool/CommandLine.cpp:131-271): how each of them is
written, and what it changes.
-/
namespace Cuttlefish.Spec

/-! ### Words and numbers -/

/-- Two characters that are the same letter, in upper or lower case, or the same character. -/
def sameLetter (a b : UInt8) : Prop :=
  a = b ∨ (∃ k < 26, (a.toNat = 65 + k ∧ b.toNat = 97 + k) ∨ (a.toNat = 97 + k ∧ b.toNat = 65 + k))

/-- The text is the word, ignoring the case. -/
def Word (word : String) (a : Str) : Prop := List.Forall₂ sameLetter a (cstr word)

/-- The C library reads the whole text as a whole number (the empty text counts as 0). -/
def IsNumber (a : Str) : Prop := (scanNumber a).isSome

/-- A number that may be omitted. -/
def maybeNumber (n : Option ℕ) : List Str := (n.map fun k : ℕ => decimal (k : ℤ)).toList

/-- A word that may be omitted. -/
def MaybeWord {α : Type} (name : α → String) : Option α → List Str → Prop
  | none, ws => ws = []
  | some a, ws => ∃ w, Word (name a) w ∧ ws = [w]

def faceName : CubeFace → String
  | .PosX => "+x" | .NegX => "-x" | .PosY => "+y" | .NegY => "-y" | .PosZ => "+z" | .NegZ => "-z"

def faceSlot : CubeFace → ℕ
  | .PosX => 0 | .NegX => 1 | .PosY => 2 | .NegY => 3 | .PosZ => 4 | .NegZ => 5

def replaceName : MipReplacement → String
  | .Once => "once" | .Continue => "continue"

def filterName : ResizeFilter → String
  | .Box => "box" | .Linear => "linear" | .Cubic => "cubic" | .CatmullRom => "catmull-rom"
  | .BSpline => "b-spline"

def listName : ImageType → String
  | .Image => "image" | .Array => "array" | .Cube => "cube" | .CubeArray => "cube-array"

def typeName : TType → String
  | .UNorm => "unorm" | .SNorm => "snorm" | .UInt => "uint" | .Int => "int" | .UFloat => "ufloat"
  | .Float => "float"

def alphaName : Alpha → String
  | .None => "none" | .Standard => "standard" | .PreMultiplied => "pre-multiplied" | .Encoded => "encoded"

def qualityName : Quality → String
  | .Lowest => "lowest" | .Low => "low" | .Normal => "normal" | .High => "high" | .Highest => "highest"

/-- Wrap along X, along Y. -/
def wrapName : Bool × Bool → String
  | (true, true) => "wrap" | (true, false) => "wrapx" | (false, true) => "wrapy" | (false, false) => ""

/-- The container formats that can be asked for. -/
def fileName : FileType → String
  | .DDS => "dds" | .KTX => "ktx" | .PVR => "pvr" | .Auto => ""

def formatName : Format → String
  | .Unknown => ""
  | .R4G4 => "R4G4"
  | .R4G4B4A4 => "R4G4B4A4"
  | .B4G4R4A4 => "B4G4R4A4"
  | .A4R4G4B4 => "A4R4G4B4"
  | .R5G6B5 => "R5G6B5"
  | .B5G6R5 => "B5G6R5"
  | .R5G5B5A1 => "R5G5B5A1"
  | .B5G5R5A1 => "B5G5R5A1"
  | .A1R5G5B5 => "A1R5G5B5"
  | .R8 => "R8"
  | .R8G8 => "R8G8"
  | .R8G8B8 => "R8G8B8"
  | .B8G8R8 => "B8G8R8"
  | .R8G8B8A8 => "R8G8B8A8"
  | .B8G8R8A8 => "B8G8R8A8"
  | .A8B8G8R8 => "A8B8G8R8"
  | .A2R10G10B10 => "A2R10G10B10"
  | .A2B10G10R10 => "A2B10G10R10"
  | .R16 => "R16"
  | .R16G16 => "R16G16"
  | .R16G16B16 => "R16G16B16"
  | .R16G16B16A16 => "R16G16B16A16"
  | .R32 => "R32"
  | .R32G32 => "R32G32"
  | .R32G32B32 => "R32G32B32"
  | .R32G32B32A32 => "R32G32B32A32"
  | .B10G11R11_UFloat => "B10G11R11_UFloat"
  | .E5B9G9R9_UFloat => "E5B9G9R9_UFloat"
  | .BC1_RGB => "BC1_RGB"
  | .BC1_RGBA => "BC1_RGBA"
  | .BC2 => "BC2"
  | .BC3 => "BC3"
  | .BC4 => "BC4"
  | .BC5 => "BC5"
  | .BC6H => "BC6H"
  | .BC7 => "BC7"
  | .ETC1 => "ETC1"
  | .ETC2_R8G8B8 => "ETC2_R8G8B8"
  | .ETC2_R8G8B8A1 => "ETC2_R8G8B8A1"
  | .ETC2_R8G8B8A8 => "ETC2_R8G8B8A8"
  | .EAC_R11 => "EAC_R11"
  | .EAC_R11G11 => "EAC_R11G11"
  | .ASTC_4x4 => "ASTC_4x4"
  | .ASTC_5x4 => "ASTC_5x4"
  | .ASTC_5x5 => "ASTC_5x5"
  | .ASTC_6x5 => "ASTC_6x5"
  | .ASTC_6x6 => "ASTC_6x6"
  | .ASTC_8x5 => "ASTC_8x5"
  | .ASTC_8x6 => "ASTC_8x6"
  | .ASTC_8x8 => "ASTC_8x8"
  | .ASTC_10x5 => "ASTC_10x5"
  | .ASTC_10x6 => "ASTC_10x6"
  | .ASTC_10x8 => "ASTC_10x8"
  | .ASTC_10x10 => "ASTC_10x10"
  | .ASTC_12x10 => "ASTC_12x10"
  | .ASTC_12x12 => "ASTC_12x12"
  | .PVRTC1_RGB_2BPP => "PVRTC1_RGB_2BPP"
  | .PVRTC1_RGBA_2BPP => "PVRTC1_RGBA_2BPP"
  | .PVRTC1_RGB_4BPP => "PVRTC1_RGB_4BPP"
  | .PVRTC1_RGBA_4BPP => "PVRTC1_RGBA_4BPP"
  | .PVRTC2_RGBA_2BPP => "PVRTC2_RGBA_2BPP"
  | .PVRTC2_RGBA_4BPP => "PVRTC2_RGBA_4BPP"

/-- The texture formats that are part of the build. -/
def inBuild (F : Features) : Format → Prop
  | .Unknown => False
  | .BC1_RGB | .BC1_RGBA | .BC2 | .BC3 | .BC4 | .BC5 | .BC6H | .BC7 => F.s3tc = true
  | .ETC1 | .ETC2_R8G8B8 | .ETC2_R8G8B8A1 | .ETC2_R8G8B8A8 | .EAC_R11 | .EAC_R11G11 => F.etc = true
  | .ASTC_4x4 | .ASTC_5x4 | .ASTC_5x5 | .ASTC_6x5 | .ASTC_6x6 | .ASTC_8x5 | .ASTC_8x6 | .ASTC_8x8
  | .ASTC_10x5 | .ASTC_10x6 | .ASTC_10x8 | .ASTC_10x10 | .ASTC_12x10 | .ASTC_12x12 => F.astc = true
  | .PVRTC1_RGB_2BPP | .PVRTC1_RGBA_2BPP | .PVRTC1_RGB_4BPP | .PVRTC1_RGBA_4BPP | .PVRTC2_RGBA_2BPP
  | .PVRTC2_RGBA_4BPP => F.pvrtc = true
  | _ => True

/-- A size: a number of pixels, or one of the words. -/
def SizeText : SizeOpt → Str → Prop
  | .original, _ => False
  | .nextPO2, a => Word "nextpo2" a
  | .nearestPO2, a => Word "nearestpo2" a
  | .width, a => Word "width" a
  | .widthNextPO2, a => Word "width-nextpo2" a
  | .widthNearestPO2, a => Word "width-nearestpo2" a
  | .height, a => Word "height" a
  | .heightNextPO2, a => Word "height-nextpo2" a
  | .heightNearestPO2, a => Word "height-nearestpo2" a
  | .min, a => Word "min" a
  | .minNextPO2, a => Word "min-nextpo2" a
  | .minNearestPO2, a => Word "min-nearestpo2" a
  | .max, a => Word "max" a
  | .maxNextPO2, a => Word "max-nextpo2" a
  | .maxNearestPO2, a => Word "max-nearestpo2" a
  | .exact n, a => 0 ≤ n ∧ n < 2 ^ 31 ∧ a = decimal n

/-- The letter of a channel in a swizzle, in lower and upper case. -/
def channelLetters : Channel → List Char
  | .Red => ['r', 'R'] | .Green => ['g', 'G'] | .Blue => ['b', 'B'] | .Alpha => ['a', 'A']
  | .None => ['x', 'X']

def ChannelLetter (c : Channel) (b : UInt8) : Prop := ∃ l ∈ channelLetters c, b.toNat = l.toNat

/-! ### Custom mip images -/

/-- One custom mip image: the level, and depth, face and replacement if they are given. -/
structure MipEntry where
  level : ℕ
  depth : Option ℕ
  face : Option CubeFace
  replace : Option MipReplacement
  file : Str

/-- The words in front of the file name. -/
def MipWords (e : MipEntry) (ws : List Str) : Prop :=
  e.level < 2 ^ 32 ∧ (∀ d ∈ e.depth, d < 2 ^ 32) ∧
  ∃ fs rs, MaybeWord faceName e.face fs ∧ MaybeWord replaceName e.replace rs ∧
    ws = decimal e.level :: maybeNumber e.depth ++ fs ++ rs

/-- The beginning of the file name is not taken for one of the optional words. -/
def Unambiguous (e : MipEntry) (start : Str) : Prop :=
  (e.depth = none → e.face = none → e.replace = none → ¬ IsNumber start) ∧
  (e.face = none → e.replace = none → ∀ f, ¬ Word (faceName f) start) ∧
  (e.replace = none → ∀ r, ¬ Word (replaceName r) start)

/-- The characters that separate words. -/
def blank (b : UInt8) : Prop := b.toNat = 9 ∨ b.toNat = 11 ∨ b.toNat = 12 ∨ b.toNat = 32

/-- The characters that end lines. -/
def lineEnd (b : UInt8) : Prop := b.toNat = 10 ∨ b.toNat = 13

instance (b : UInt8) : Decidable (blank b) := by unfold blank; infer_instance
instance (b : UInt8) : Decidable (lineEnd b) := by unfold lineEnd; infer_instance

/-- Words, each of them followed by blanks, and then the file name. -/
inductive Spaced (file : Str) : List Str → Str → Prop
  | file : Spaced file [] file
  | word (w gap ws l) : gap ≠ [] → (∀ b ∈ gap, blank b) → Spaced file ws l →
      Spaced file (w :: ws) (w ++ gap ++ l)

/-- A line of a file with custom mip images.  The name of the file does not begin with a blank and contains no
line end and no zero. -/
def MipLine (e : MipEntry) (line : Str) : Prop :=
  (∃ ws, MipWords e ws ∧ Spaced e.file ws line) ∧
  (∃ b bs, e.file = b :: bs ∧ ¬ blank b) ∧ (∀ b ∈ e.file, ¬ lineEnd b ∧ b ≠ 0) ∧
  Unambiguous e (e.file.takeWhile fun b => ¬ blank b)

/-- The text of a file with custom mip images: one per line, with blank lines in between and blanks in front. -/
inductive MipText : List MipEntry → Str → Prop
  | done : MipText [] []
  | skip (b es s) : blank b ∨ lineEnd b → MipText es s → MipText es (b :: s)
  | last (e line) : MipLine e line → MipText [e] line
  | line (e line b es s) : MipLine e line → lineEnd b → MipText es s →
      MipText (e :: es) (line ++ b :: s)

/-- The lines of a file with image names, without empty lines. -/
def imageLines (text : Str) : List Str :=
  (text.splitOnP fun b => lineEnd b).filter fun l => l ≠ []

/-! ### Options -/

/-- The options of the tool. -/
inductive Opt (H : Type) where
  | jobs (n : Option ℕ)
  | quiet
  | verbose
  | input (file : Str)
  | array (n : Option ℕ) (file : Str)
  | cube (face : CubeFace) (file : Str)
  | cubeArray (n : ℕ) (face : CubeFace) (file : Str)
  | inputList (kind : ImageType) (list : Str)
  | resize (w h : SizeOpt) (filter : Option ResizeFilter)
  | mipmap (levels : Option ℕ) (filter : Option ResizeFilter)
  | customMip (e : MipEntry)
  | customMipList (list : Str) (es : List MipEntry)
  | flipX
  | flipY
  | rotate (degrees : ℤ)
  | normalMap (wrap : Option (Bool × Bool)) (height : Option H)
  | grayscale
  | swizzle (r g b a : Channel)
  | srgb
  | preMultiply
  | dimension (d : Dimension)
  | format (f : Format)
  | type (t : TType)
  | alpha (a : Alpha)
  | quality (q : Quality)
  | output (file : Str)
  | fileFormat (f : FileType)
  | createDir

variable {H : Type}

/-- The names of an option. -/
def Opt.names : Opt H → List String
  | .jobs _ => ["-j", "--jobs"]
  | .quiet => ["-q", "--quiet"]
  | .verbose => ["-v", "--verbose"]
  | .input _ => ["-i", "--input"]
  | .array _ _ => ["-a", "--array"]
  | .cube _ _ => ["-c", "--cube"]
  | .cubeArray _ _ _ => ["-C", "--cube-array"]
  | .inputList _ _ => ["-I", "--input-list"]
  | .resize _ _ _ => ["-r", "--resize"]
  | .mipmap _ _ => ["-m", "--mipmap"]
  | .customMip _ => ["-M", "--custom-mip"]
  | .customMipList _ _ => ["--custom-mip-list"]
  | .flipX => ["--flipx"]
  | .flipY => ["--flipy"]
  | .rotate _ => ["--rotate"]
  | .normalMap _ _ => ["-n", "--normalmap"]
  | .grayscale => ["-g", "--grayscale"]
  | .swizzle _ _ _ _ => ["-s", "--swizzle"]
  | .srgb => ["--srgb"]
  | .preMultiply => ["--pre-multiply"]
  | .dimension _ => ["-d", "--dimension"]
  | .format _ => ["-f", "--format"]
  | .type _ => ["-t", "--type"]
  | .alpha _ => ["--alpha"]
  | .quality _ => ["-Q", "--quality"]
  | .output _ => ["-o", "--output"]
  | .fileFormat _ => ["--file-format"]
  | .createDir => ["--create-dir"]

/-- All names of options. -/
def optionNames : List String :=
  ["-j", "--jobs", "-q", "--quiet", "-v", "--verbose", "-i", "--input", "-a", "--array", "-c", "--cube", "-C",
    "--cube-array", "-I", "--input-list", "-r", "--resize", "-m", "--mipmap", "-M", "--custom-mip",
    "--custom-mip-list", "--flipx", "--flipy", "--rotate", "-n", "--normalmap", "-g", "--grayscale", "-s",
    "--swizzle", "--srgb", "--pre-multiply", "-d", "--dimension", "-f", "--format", "-t", "--type", "--alpha",
    "-Q", "--quality", "-o", "--output", "--file-format", "--create-dir"]

/-- The arguments of an option. -/
def Opt.Args (E : CmdEnv H) : Opt H → List Str → Prop
  | .jobs n, ws => (∀ k ∈ n, k < 2 ^ 32) ∧ ws = maybeNumber n
  | .input f, ws => ws = [f]
  | .array n f, ws => (n = none → ¬ IsNumber f) ∧ (∀ k ∈ n, k < 2 ^ 61) ∧ ws = maybeNumber n ++ [f]
  | .cube face f, ws => ∃ w, Word (faceName face) w ∧ ws = [w, f]
  | .cubeArray n face f, ws => n < 2 ^ 61 ∧ ∃ w, Word (faceName face) w ∧ ws = [decimal n, w, f]
  | .inputList t f, ws => (∀ text, E.files f = some text → imageLines text ≠ []) ∧
      ∃ w, Word (listName t) w ∧ ws = [w, f]
  | .resize w h filter, ws => ∃ a b fs, SizeText w a ∧ SizeText h b ∧ MaybeWord filterName filter fs ∧
      ws = a :: b :: fs
  | .mipmap n filter, ws => (∀ k ∈ n, k < 2 ^ 32) ∧ ∃ fs, MaybeWord filterName filter fs ∧
      ws = maybeNumber n ++ fs
  | .customMip e, ws => ∃ ms, MipWords e ms ∧ Unambiguous e e.file ∧ ws = ms ++ [e.file]
  | .customMipList f es, ws => (∃ text, E.files f = some text ∧ MipText es text) ∧ ws = [f]
  | .rotate d, ws => -2 ^ 63 ≤ d ∧ d < 2 ^ 63 ∧ ws = [decimal d]
  | .normalMap wrap none, ws => wrap ≠ some (false, false) ∧ MaybeWord wrapName wrap ws
  | .normalMap wrap (some h), ws => wrap ≠ some (false, false) ∧ ∃ us a, MaybeWord wrapName wrap us ∧
      E.strtod a = some h ∧ (∀ x, ¬ Word (wrapName x) a) ∧ ws = us ++ [a]
  | .swizzle r g b a, ws => ∃ l1 l2 l3 l4, ChannelLetter r l1 ∧ ChannelLetter g l2 ∧ ChannelLetter b l3 ∧
      ChannelLetter a l4 ∧ ws = [[l1, l2, l3, l4]]
  | .dimension d, ws => (d = .Dim1D ∧ ws = [decimal 1]) ∨ (d = .Dim2D ∧ ws = [decimal 2]) ∨
      (d = .Dim3D ∧ ws = [decimal 3])
  | .format f, ws => inBuild E.feat f ∧ ∃ w, Word (formatName f) w ∧ ws = [w]
  | .type t, ws => ∃ w, Word (typeName t) w ∧ ws = [w]
  | .alpha a, ws => ∃ w, Word (alphaName a) w ∧ ws = [w]
  | .quality q, ws => ∃ w, Word (qualityName q) w ∧ ws = [w]
  | .output f, ws => ws = [f]
  | .fileFormat f, ws => f ≠ .Auto ∧ ∃ w, Word (fileName f) w ∧ ws = [w]
  | _, ws => ws = []

/-- The text cannot be taken for an optional argument. -/
def Separate (E : CmdEnv H) (a : Str) : Prop :=
  ¬ IsNumber a ∧ (∀ f, ¬ Word (filterName f) a) ∧ (∀ x, ¬ Word (wrapName x) a) ∧ E.strtod a = none

/-- The texts that write an option. -/
def Opt.Spells (E : CmdEnv H) (o : Opt H) (ws : List Str) : Prop :=
  ∃ name ∈ o.names, ∃ args, o.Args E args ∧ ws = cstr name :: args

/-! ### Effects -/

/-- The value of a size on the command line (tool/CommandLine.h:41-58). -/
def sizeCode : SizeOpt → ℤ
  | .original => -1
  | .nextPO2 => -2
  | .nearestPO2 => -3
  | .width => -4
  | .widthNextPO2 => -5
  | .widthNearestPO2 => -6
  | .height => -7
  | .heightNextPO2 => -8
  | .heightNearestPO2 => -9
  | .min => -10
  | .minNextPO2 => -11
  | .minNearestPO2 => -12
  | .max => -13
  | .maxNextPO2 => -14
  | .maxNearestPO2 => -15
  | .exact n => n

/-- A name for image number `k`, in a list that has room for at least `n` images if it has to grow: the image
may not have a name already.  Images without a name have the empty name. -/
def giveName (images : List Str) (n k : ℕ) (file : Str) : Option (List Str) :=
  let room := images ++ List.replicate (n - images.length) []
  if room[k]? = some [] then some (room.set k file) else none

/-- The kinds of inputs cannot be mixed. -/
def mayAdd (c : Cmd H) (t : ImageType) : Prop := c.images = [] ∨ c.imageType = t

instance (c : Cmd H) (t : ImageType) : Decidable (mayAdd c t) := by unfold mayAdd; infer_instance

/-- A custom mip image is added, if there is none yet for the level, depth and face. -/
def addMip (m : CustomMipFiles) (e : MipEntry) : Option CustomMipFiles :=
  let key : ImageIndex := ⟨e.face.getD .PosX, e.level, e.depth.getD 0⟩
  if key ∈ m.map (·.1) then none else some (m ++ [(key, e.file, e.replace.getD .Continue)])

def addMips (m : CustomMipFiles) : List MipEntry → Option CustomMipFiles
  | [] => some m
  | e :: es => (addMip m e).bind fun m' => addMips m' es

/-- The rotation by a number of degrees, if it is a multiple of 90: clockwise if positive. -/
def turnOf (d : ℤ) : Option (Option RotateAngle) :=
  if d % 90 ≠ 0 then none
  else if d % 360 = 0 then some none
  else if 0 < d then
    some (some (if d % 360 = 90 then .CW90 else if d % 360 = 180 then .CW180 else .CW270))
  else
    some (some (if -d % 360 = 90 then .CCW90 else if -d % 360 = 180 then .CCW180 else .CCW270))

/-- What an option changes; nothing if it is refused. -/
def Opt.effect (E : CmdEnv H) (c : Cmd H) : Opt H → Option (Cmd H)
  | .jobs n => some { c with jobs := n.getD (2 ^ 32 - 1) }
  | .quiet => some { c with log := .Quiet }
  | .verbose => some { c with log := .Verbose }
  | .input f => if c.images = [] then some { c with imageType := .Image, images := [f] } else none
  | .array n f =>
    let k := n.getD c.images.length
    if mayAdd c .Array ∧ (c.images.length ≤ k → k < E.maxImages) then
      (giveName c.images (k + 1) k f).map fun l => { c with imageType := .Array, images := l }
    else none
  | .cube face f =>
    if mayAdd c .Cube then
      (giveName c.images (if c.images = [] then 6 else 0) (faceSlot face) f).map fun l =>
        { c with imageType := .Cube, images := l }
    else none
  | .cubeArray n face f =>
    if mayAdd c .CubeArray ∧ (c.images.length ≤ n * 6 → (n + 1) * 6 ≤ E.maxImages) then
      (giveName c.images (if c.images.length ≤ n * 6 then (n + 1) * 6 else 0) (n * 6 + faceSlot face) f).map
        fun l => { c with imageType := .CubeArray, images := l }
    else none
  | .inputList t f =>
    if c.images = [] then
      (E.files f).map fun text => { c with imageType := t, images := imageLines text }
    else none
  | .resize w h filter => some { c with
      width := sizeCode w, height := sizeCode h, resizeFilter := filter.getD c.resizeFilter }
  | .mipmap n filter => some { c with
      mipLevels := n.getD (2 ^ 32 - 1), mipFilter := filter.getD c.mipFilter }
  | .customMip e => (addMip c.customMips e).map fun m => { c with customMips := m }
  | .customMipList _ es => (addMips c.customMips es).map fun m => { c with customMips := m }
  | .flipX => some { c with flipX := true }
  | .flipY => some { c with flipY := true }
  | .rotate d => (turnOf d).map fun r =>
      match r with
      | none => { c with rotate := false }
      | some a => { c with rotate := true, rotateAngle := a }
  | .normalMap wrap h => some { c with
      normalMap := true
      normalOptions := (wrap.map fun w => { wrapX := w.1, wrapY := w.2 }).getD c.normalOptions
      normalHeight := h.getD c.normalHeight }
  | .grayscale => some { c with grayscale := true }
  | .swizzle r g b a =>
    let mask : ColorMask := { r := c.colorMask.r && decide (r ≠ .None), g := c.colorMask.g && decide (g ≠ .None),
                              b := c.colorMask.b && decide (b ≠ .None), a := c.colorMask.a && decide (a ≠ .None) }
    some { c with
      swizzle := true, redSwzl := r, greenSwzl := g, blueSwzl := b, alphaSwzl := a, colorMask := mask
      alpha := if c.alphaSet = false ∧ mask.a = false then .None else c.alpha }
  | .srgb => some { c with imageColorSpace := .sRGB, textureColorSpace := .sRGB }
  | .preMultiply => some { c with
      preMultiply := true
      alpha := if c.alphaSet = false ∧ c.colorMask.a = true then .PreMultiplied else c.alpha }
  | .dimension d => some { c with dimension := d }
  | .format f => some { c with
      format := f
      type := if f = .B10G11R11_UFloat ∨ f = .E5B9G9R9_UFloat ∨ f = .BC6H then .UFloat else c.type }
  | .type t => some { c with type := t }
  | .alpha a => some { c with alpha := a, alphaSet := true }
  | .quality q => some { c with quality := q }
  | .output f => if c.output = none then some { c with output := some f } else none
  | .fileFormat f => some { c with fileType := f }
  | .createDir => some { c with createOutputDir := true }

/-- The options from left to right. -/
def effects (E : CmdEnv H) (c : Cmd H) : List (Opt H) → Option (Cmd H)
  | [] => some c
  | o :: os => (o.effect E c).bind fun c' => effects E c' os

/-- The settings before the first option. -/
def noOptions (E : CmdEnv H) : Cmd H := { normalHeight := E.one }

/-- The arguments that write a list of options. -/
def argvOf (prog : Str) (opts : List (List Str × Opt H)) : List Str := prog :: (opts.map (·.1)).flatten

/-- A list of options as the help text describes them; none of the arguments asks for help. -/
def Proper (E : CmdEnv H) (opts : List (List Str × Opt H)) : Prop :=
  ∀ p ∈ opts, p.2.Spells E p.1 ∧ cstr "-h" ∉ p.1 ∧ cstr "--help" ∉ p.1

/-- The surroundings of the parser: there is no room for 2^61 images, files are shorter than that, and the names
of options are not numbers. -/
structure Ordinary (E : CmdEnv H) : Prop where
  room : E.maxImages < 2 ^ 61
  files : ∀ n t, E.files n = some t → t.length < 2 ^ 61
  names : ∀ n ∈ optionNames, E.strtod (cstr n) = none

/-- The settings that are used: the file type is known, cube maps have their own dimension, and the texture is
not sRGB if the format cannot be. -/
def finished (c : Cmd H) (ft : FileType) : Cmd H :=
  { c with
    fileType := ft
    dimension := if c.imageType = .Cube ∨ c.imageType = .CubeArray then .Cube else c.dimension
    textureColorSpace :=
      if c.textureColorSpace = .sRGB ∧ hasNativeSRGB c.format c.type = false then .Linear
      else c.textureColorSpace }

/-- The name of a file ends with this extension, ignoring the case. -/
def Extension (ext : String) (name : Str) : Prop := ∃ stem e, name = stem ++ e ∧ Word ext e

/-- The type of file that goes with a name. -/
inductive NamedType (name : Str) : FileType → Prop
  | dds (h : Extension ".dds" name) : NamedType name .DDS
  | ktx (h : Extension ".ktx" name) : NamedType name .KTX
  | pvr (h : Extension ".pvr" name) : NamedType name .PVR

/-- The type of the output file: as asked for, or by the name. -/
def OutputType (c : Cmd H) (o : Str) (ft : FileType) : Prop :=
  if c.fileType = .Auto then NamedType o ft else ft = c.fileType

/-- Nothing is missing in the settings.  (Layers of cube maps with custom mip images are compared with the
number of all faces, see C33.) -/
structure Complete (F : Features) (c : Cmd H) (ft : FileType) : Prop where
  images : c.images ≠ []
  names : ∀ n ∈ c.images, n ≠ []
  output : ∃ o, c.output = some o ∧ OutputType c o ft
  format : c.format ≠ .Unknown
  supported : isFormatValidFile F c.format c.type ft = true
  one : c.imageType = .Image → c.images.length = 1
  cube : c.imageType = .Cube → c.images.length = 6
  cubes : c.imageType = .CubeArray → 6 ∣ c.images.length
  flat : c.imageType = .Cube ∨ c.imageType = .CubeArray → c.dimension = .Dim2D
  /-- There are fewer than 2^32 images. -/
  few : c.images.length < 2 ^ 32 ∧ c.customMips.length < 2 ^ 32
  /-- Custom mip images are for mips. -/
  mips : c.customMips ≠ [] → 1 < c.mipLevels
  levels : ∀ e ∈ c.customMips, 1 ≤ e.1.mipLevel
  /-- Custom mip images are for layers that exist. -/
  layers : c.dimension ≠ .Dim3D → ∀ e ∈ c.customMips, e.1.depth < c.images.length
  /-- Custom mip images of 3D textures are for all the slices of a level. -/
  slices : c.dimension = .Dim3D → ∀ e ∈ c.customMips, e.1.mipLevel < 32 ∧ e.1.cubeFace = .PosX ∧
    e.1.depth < max (c.images.length / 2 ^ e.1.mipLevel) 1 ∧
    ∀ slice < max (c.images.length / 2 ^ e.1.mipLevel) 1,
      ∃ e' ∈ c.customMips, e'.1 = ⟨.PosX, e.1.mipLevel, slice⟩

end Cuttlefish.Spec
