import Verif.Model.Tool
import Verif.Model.Save
import Verif.Model.Image
/-
The command line of the tool (tool/CommandLine.cpp, tool/CommandLine.h).

Strings are lists of bytes without the terminating zero.  Reading an argument outside of `argv`,
indexing a vector outside of its bounds, shifting by 32 or more bits, and a loop that does not end
are undefined behaviour (`Res.ub`).  Messages on the streams are not modelled, except that reading
the program name for a message is.
-/
namespace Cuttlefish

/-- A C string or a `std::string`. -/
abbrev Str := List UInt8

/-- A string literal (ASCII). -/
def cstr (s : String) : Str := s.toList.map (fun c => UInt8.ofNat c.toNat)

/-- `std::string::c_str()` read as a C string: up to the first zero. -/
def cString (s : Str) : Str := s.takeWhile (fun b => b != 0)

/-! ### Numbers -/

/-- `isspace` of the C locale. -/
def isSpaceByte (b : UInt8) : Bool := (9 ≤ b.toNat && b.toNat ≤ 13) || b.toNat == 32

/-- `isdigit`. -/
def isDigitByte (b : UInt8) : Bool := 48 ≤ b.toNat && b.toNat ≤ 57

/-- The value of a sequence of digits. -/
def digitsValue (ds : Str) : Nat := ds.foldl (fun v b => 10 * v + (b.toNat - 48)) 0

/-- The sign of a number and the rest. -/
def splitSign : Str → Bool × Str
  | b :: bs => if b.toNat == 45 then (true, bs) else if b.toNat == 43 then (false, bs) else (false, b :: bs)
  | [] => (false, [])

/-- The grammar of `strtol`/`strtoul` with base 10: white space, a sign, digits.  Sign and magnitude
if the number ends at the end of the string; `some (false, 0)` for the empty string, where `endPtr`
is the end as well. -/
def scanNumber (s : Str) : Option (Bool × Nat) :=
  if s.isEmpty then some (false, 0)
  else
    let r := splitSign (s.dropWhile isSpaceByte)
    if r.2.isEmpty || !r.2.all isDigitByte then none else some (r.1, digitsValue r.2)

/-- `strtoul(s, &endPtr, 10)` when `endPtr` is the end of the string: saturated, negative numbers
modulo 2^64. -/
def strtoulAll (s : Str) : Option Nat :=
  match scanNumber s with
  | none => none
  | some (neg, v) =>
    some (if 2 ^ 64 ≤ v then 2 ^ 64 - 1 else if neg then (2 ^ 64 - v) % 2 ^ 64 else v)

/-- `strtol(s, &endPtr, 10)` when `endPtr` is the end of the string: saturated. -/
def strtolAll (s : Str) : Option Int :=
  match scanNumber s with
  | none => none
  | some (neg, v) =>
    some (if neg then (if 2 ^ 63 < v then -(2 ^ 63 : Int) else -(v : Int))
      else if 2 ^ 63 ≤ v then (2 ^ 63 - 1 : Int) else (v : Int))

/-- `static_cast<unsigned int>` of a `long`. -/
def toU32 (v : Int) : Nat := (v % 4294967296).toNat

/-- `static_cast<int>` of a `long` (two's complement). -/
def toI32 (v : Int) : Int := (v + 2147483648) % 4294967296 - 2147483648

/-! ### The parsed command line -/

/-- `CommandLine::ImageType`, tool/CommandLine.h:26-32. -/
inductive ImageType where
  | Image | Array | Cube | CubeArray
  deriving DecidableEq, Repr

/-- `CommandLine::Log`, tool/CommandLine.h:34-39. -/
inductive Log where
  | Normal | Quiet | Verbose
  deriving DecidableEq, Repr

/-- `CommandLine::CustomMipImages`, tool/CommandLine.h:60-73 (an `unordered_map`): an association
list with one entry for each key, in the order of insertion. -/
abbrev CustomMipFiles := List (ImageIndex × Str × MipReplacement)

/-- `CommandLine`, tool/CommandLine.h:24-113, with the local variables `success` and `alphaSet` of
`parse` (tool/CommandLine.cpp:816-819; the variables `imageFile` and `typeSet` are never set).  `H`
is the type of `double` values. -/
structure Cmd (H : Type) where
  jobs : Nat := 1
  log : Log := .Normal
  imageType : ImageType := .Image
  images : List Str := []
  width : Int := -1
  height : Int := -1
  resizeFilter : ResizeFilter := .CatmullRom
  mipLevels : Nat := 1
  mipFilter : ResizeFilter := .CatmullRom
  customMips : CustomMipFiles := []
  flipX : Bool := false
  flipY : Bool := false
  rotate : Bool := false
  rotateAngle : RotateAngle := .CW90
  normalMap : Bool := false
  normalOptions : NormalOptions := {}
  normalHeight : H
  grayscale : Bool := false
  swizzle : Bool := false
  redSwzl : Channel := .Red
  greenSwzl : Channel := .Green
  blueSwzl : Channel := .Blue
  alphaSwzl : Channel := .Alpha
  colorMask : ColorMask := {}
  imageColorSpace : ColorSpace := .Linear
  textureColorSpace : ColorSpace := .Linear
  preMultiply : Bool := false
  dimension : Dimension := .Dim2D
  format : Format := .Unknown
  type : TType := .UNorm
  alpha : Alpha := .Standard
  quality : Quality := .Normal
  output : Option Str := none
  fileType : FileType := .Auto
  createOutputDir : Bool := false
  success : Bool := true
  alphaSet : Bool := false

/-- What the parser gets from its surroundings: the enabled formats, the contents of the files that
can be opened, `strtod` where it consumes the whole string, 1.0, and how many strings a vector can
hold (beyond, `resize` throws, which ends the program). -/
structure CmdEnv (H : Type) where
  feat : Features
  files : Str → Option Str
  strtod : Str → Option H
  one : H
  maxImages : Nat

/-- What an option does: continue after the argument with index `i`, leave the loop, or end the
program by an exception. -/
inductive StepOut (H : Type) where
  | next (i : Nat) (c : Cmd H)
  | stop (c : Cmd H)
  | abort

section
variable {H : Type}

/-- `success = false; break;` -/
def Cmd.fail (c : Cmd H) : Res (StepOut H) := .ok (.stop { c with success := false })

/-- `argv[i]`. -/
def argAt (argv : List Str) (i : Nat) : Res Str :=
  match argv[i]? with
  | some a => .ok a
  | none => .ub

/-- `matches`, tool/CommandLine.cpp:274-277. -/
def matchesArg (a : Str) (short long : String) : Bool := a == cstr short || a == cstr long

/-- `strcasecmp(a, text) == 0`. -/
def isWord (a : Str) (text : String) : Bool := strcaseEq a (cstr text)

/-- The first entry of a table whose name is `a`, ignoring the case; chains of `strcasecmp`. -/
def lookupWord {α : Type} (a : Str) (table : List (String × α)) : Option α :=
  (table.find? (fun e => isWord a e.1)).map (·.2)

/-- `readIndex`, tool/CommandLine.cpp:279-293: the value and the new `i`, or nothing (then `i` and
the variable keep their values). -/
def readIndex (argv : List Str) (i : Nat) : Res (Option (Nat × Nat)) :=
  if argv.length ≤ i + 1 then .ok none
  else do
    let a ← argAt argv (i + 1)
    .ok ((strtoulAll a).map (fun v => (v, i + 1)))

/-- `strToCubeFace`, tool/CommandLine.cpp:295-312. -/
def cubeFaces : List (String × CubeFace) :=
  [("+x", .PosX), ("-x", .NegX), ("+y", .PosY), ("-y", .NegY), ("+z", .PosZ), ("-z", .NegZ)]

/-- `strToMipReplace`, tool/CommandLine.cpp:329-338. -/
def mipReplacements : List (String × MipReplacement) := [("once", .Once), ("continue", .Continue)]

/-- `readFilter`, tool/CommandLine.cpp:509-529. -/
def filterNames : List (String × ResizeFilter) :=
  [("box", .Box), ("linear", .Linear), ("cubic", .Cubic), ("catmull-rom", .CatmullRom),
    ("b-spline", .BSpline)]

/-- `readCubeFace`, `readMipReplace` and `readFilter`, tool/CommandLine.cpp:314-349, 509-529: if the
next argument is one of the words, its value and the new `i`. -/
def readWord {α : Type} (argv : List Str) (i : Nat) (table : List (String × α)) :
    Res (Option (α × Nat)) :=
  if argv.length ≤ i + 1 then .ok none
  else do
    let a ← argAt argv (i + 1)
    .ok ((lookupWord a table).map (fun v => (v, i + 1)))

/-- The words of `readSize`, tool/CommandLine.cpp:436-463, with the values of
tool/CommandLine.h:41-58. -/
def sizeNames : List (String × Int) :=
  [("nextpo2", -2), ("nearestpo2", -3), ("width", -4), ("width-nextpo2", -5),
    ("width-nearestpo2", -6), ("height", -7), ("height-nextpo2", -8), ("height-nearestpo2", -9),
    ("min", -10), ("min-nextpo2", -11), ("min-nearestpo2", -12), ("max", -13), ("max-nextpo2", -14),
    ("max-nearestpo2", -15)]

/-- One size argument, tool/CommandLine.cpp:436-477. -/
def sizeArg (a : Str) : Option Int :=
  match lookupWord a sizeNames with
  | some v => some v
  | none => (strtolAll a).map toI32

/-- `readSize`, tool/CommandLine.cpp:430-478; `none` is failure. -/
def readSize (argv : List Str) (i : Nat) : Res (Option (Int × Nat)) :=
  if argv.length ≤ i + 1 then .ok none
  else do
    let a ← argAt argv (i + 1)
    .ok ((sizeArg a).map (fun v => (v, i + 1)))

/-- The `int` of a size option as `getDimension` (tool/main.cpp:108-145) reads it. -/
def sizeOfInt (v : Int) : SizeOpt :=
  if v = -1 then .original else if v = -2 then .nextPO2 else if v = -3 then .nearestPO2
  else if v = -4 then .width else if v = -5 then .widthNextPO2 else if v = -6 then .widthNearestPO2
  else if v = -7 then .height else if v = -8 then .heightNextPO2
  else if v = -9 then .heightNearestPO2
  else if v = -10 then .min else if v = -11 then .minNextPO2 else if v = -12 then .minNearestPO2
  else if v = -13 then .max else if v = -14 then .maxNextPO2 else if v = -15 then .maxNearestPO2
  else .exact v

/-- `readChannel`, tool/CommandLine.cpp:480-507. -/
def readChannel (b : UInt8) : Option Channel :=
  if b.toNat = 114 ∨ b.toNat = 82 then some .Red
  else if b.toNat = 103 ∨ b.toNat = 71 then some .Green
  else if b.toNat = 98 ∨ b.toNat = 66 then some .Blue
  else if b.toNat = 97 ∨ b.toNat = 65 then some .Alpha
  else if b.toNat = 120 ∨ b.toNat = 88 then some .None
  else none

/-! ### List files -/

/-- A `std::ifstream` on a regular file: the bytes not read yet, and `good()`. -/
structure TextStream where
  rest : Str
  good : Bool := true

/-- `stream.get()`: at the end of the file the stream is no longer good and the result is `EOF`
(`none`). -/
def TextStream.get (s : TextStream) : Option UInt8 × TextStream :=
  if !s.good then (none, s)
  else match s.rest with
    | [] => (none, ⟨[], false⟩)
    | b :: bs => (some b, ⟨bs, true⟩)

/-- `isCharInStr`, tool/CommandLine.cpp:382-390. -/
def isCharInStr (b : UInt8) (cs : Str) : Bool := cs.contains b

/-- `readUntilChar`, tool/CommandLine.cpp:392-402: appends to `out` up to a delimiter; the delimiter
or `EOF` (`none`) is the result. -/
def readUntilChar (fuel : Nat) (out : Str) (s : TextStream) (delims : Str) :
    Res (Option UInt8 × Str × TextStream) :=
  match fuel with
  | 0 => .ub
  | fuel + 1 =>
    match s.get with
    | (none, s') => .ok (none, out, s')
    | (some b, s') =>
      if isCharInStr b delims then .ok (some b, out, s')
      else readUntilChar fuel (out ++ [b]) s' delims

/-- The loop of `readNextToken`, tool/CommandLine.cpp:419-427. -/
def nextTokenLoop (fuel : Nat) (out : Str) (s : TextStream) (delims terms : Str)
    (last : Option UInt8) : Res (Option UInt8 × Str × TextStream) :=
  match fuel with
  | 0 => .ub
  | fuel + 1 =>
    match last with
    | none => .ok (none, out, s)
    | some l =>
      if !s.good || isCharInStr l terms then .ok (some l, out, s)
      else do
        let r ← readUntilChar (s.rest.length + 1) out s delims
        if !r.2.1.isEmpty then .ok r
        else nextTokenLoop fuel r.2.1 r.2.2 delims terms r.1

/-- The beginning of `readNextToken`, tool/CommandLine.cpp:409-418: what is kept of the string. -/
def tokenStart (out : Str) (delims : Str) (last : Option UInt8) (append : Bool) : Str :=
  if append then
    match last with
    | some l => if !out.isEmpty && !isCharInStr l delims then out ++ [l] else out
    | none => out
  else []

/-- `readNextToken`, tool/CommandLine.cpp:404-428.  `lastDelim` is 0 by default. -/
def readNextToken (out : Str) (s : TextStream) (delims terms : Str) (last : Option UInt8 := some 0)
    (append : Bool := false) : Res (Option UInt8 × Str × TextStream) :=
  nextTokenLoop (s.rest.length + 2) (tokenStart out delims last append) s delims terms last

/-- `"\n\r"`. -/
def newlines : Str := [10, 13]

/-- `"\t\n\v\f\r "`. -/
def whitespace : Str := [9, 10, 11, 12, 13, 32]

/-- The loop of `readImageList`, tool/CommandLine.cpp:540-547. -/
def imageListLoop (fuel : Nat) (images : List Str) (s : TextStream) : Res (List Str) :=
  match fuel with
  | 0 => .ub
  | fuel + 1 =>
    if !s.good then .ok images
    else do
      let r ← readUntilChar (s.rest.length + 1) [] s newlines
      imageListLoop fuel (if r.2.1.isEmpty then images else images ++ [r.2.1]) r.2.2

/-- `readImageList`, tool/CommandLine.cpp:531-550; `none` if the file cannot be opened. -/
def readImageList (files : Str → Option Str) (images : List Str) (name : Str) :
    Res (Option (List Str)) :=
  match files name with
  | none => .ok none
  | some content => do
    let l ← imageListLoop (content.length + 2) images ⟨content, true⟩
    .ok (some l)

/-- `customMipImages.emplace(index, image).second`: `none` if the key is there already. -/
def CustomMipFiles.emplace (m : CustomMipFiles) (index : ImageIndex) (file : Str)
    (r : MipReplacement) : Option CustomMipFiles :=
  if m.any (fun e => e.1 == index) then none else some (m ++ [(index, file, r)])

/-- Reading an optional token, tool/CommandLine.cpp:581-599: if it has a value, go on to the next
token. -/
def optionalToken {α : Type} (v : Option α) (dflt : α) (out : Str) (s : TextStream)
    (last : Option UInt8) : Res (α × Option UInt8 × Str × TextStream) :=
  match v with
  | none => .ok (dflt, last, out, s)
  | some a => do
    let r ← readNextToken out s whitespace newlines last
    .ok (a, r)

/-- One line of a custom mip list after the level, tool/CommandLine.cpp:579-618; `none` is
failure. -/
def customMipLine (m : CustomMipFiles) (level : Nat) (out : Str) (s : TextStream)
    (last : Option UInt8) : Res (Option (CustomMipFiles × TextStream)) := do
  let r ← readNextToken out s whitespace newlines last
  let d ← optionalToken (strtoulAll r.2.1) 0 r.2.1 r.2.2 r.1
  let f ← optionalToken (lookupWord (cString d.2.2.1) cubeFaces) .PosX d.2.2.1 d.2.2.2 d.2.1
  let p ← optionalToken (lookupWord (cString f.2.2.1) mipReplacements) .Continue f.2.2.1 f.2.2.2
    f.2.1
  let n ← readNextToken p.2.2.1 p.2.2.2 newlines newlines p.2.1 true
  if n.2.1.isEmpty then .ok none
  else .ok ((m.emplace ⟨f.1, u32 level, u32 d.1⟩ n.2.1 p.1).map (fun m' => (m', n.2.2)))

/-- The loop of `readCustomMipList`, tool/CommandLine.cpp:564-619. -/
def customMipLoop (fuel : Nat) (m : CustomMipFiles) (s : TextStream) : Res (Option CustomMipFiles) :=
  match fuel with
  | 0 => .ub
  | fuel + 1 =>
    if !s.good then .ok (some m)
    else do
      let r ← readNextToken [] s whitespace newlines
      if r.2.1.isEmpty then customMipLoop fuel m r.2.2
      else match strtoulAll r.2.1 with
        | none => .ok none
        | some level => do
          match ← customMipLine m level r.2.1 r.2.2 r.1 with
          | none => .ok none
          | some (m', s') => customMipLoop fuel m' s'

/-- `readCustomMipList`, tool/CommandLine.cpp:552-622; `none` is failure. -/
def readCustomMipList (files : Str → Option Str) (m : CustomMipFiles) (name : Str) :
    Res (Option CustomMipFiles) :=
  match files name with
  | none => .ok none
  | some content => customMipLoop (content.length + 2) m ⟨content, true⟩

/-! ### Options -/

variable (E : CmdEnv H) (argv : List Str)

/-- `-j`, tool/CommandLine.cpp:823-836. -/
def optJobs (i : Nat) (c : Cmd H) : Res (StepOut H) :=
  if i + 1 < argv.length then do
    let a ← argAt argv (i + 1)
    match strtolAll a with
    | some v => .ok (.next (i + 1) { c with jobs := toU32 v })
    | none => .ok (.next i { c with jobs := pow32 - 1 })
  else .ok (.next i { c with jobs := pow32 - 1 })

/-- `-i`, tool/CommandLine.cpp:841-858. -/
def optInput (i : Nat) (c : Cmd H) : Res (StepOut H) :=
  if !c.images.isEmpty then c.fail
  else if i + 1 = argv.length then c.fail
  else do
    let a ← argAt argv (i + 1)
    .ok (.next (i + 1) { c with images := c.images ++ [a] })

/-- Storing one image: `resize(need)` if the vector is to grow, then the test and the assignment of
element `index`; tool/CommandLine.cpp:882-891, 964-978. -/
def putImage (c : Cmd H) (grow : Bool) (need index : Nat) (file : Str) (i : Nat) :
    Res (StepOut H) :=
  if grow && E.maxImages < need then .ok .abort
  else
    let images := if grow then vresize c.images need [] else c.images
    match images[index]? with
    | none => .ub
    | some old =>
      if !old.isEmpty then Cmd.fail { c with images }
      else .ok (.next i { c with images := images.set index file })

/-- The optional index of `-a`, tool/CommandLine.cpp:878-880. -/
def arrayIndex (i : Nat) (n : Nat) : Res (Nat × Nat) :=
  if i + 2 < argv.length then do
    match ← readIndex argv i with
    | none => .ok (n, i)
    | some r => .ok r
  else .ok (n, i)

/-- `-a`, tool/CommandLine.cpp:859-892; `index + 1` is a `std::size_t`. -/
def optArray (i : Nat) (c : Cmd H) : Res (StepOut H) :=
  if !c.images.isEmpty && c.imageType != .Array then c.fail
  else
    let c := if c.images.isEmpty then { c with imageType := .Array } else c
    if argv.length ≤ i + 1 then c.fail
    else do
      let r ← arrayIndex argv i c.images.length
      let a ← argAt argv (r.2 + 1)
      putImage E c (c.images.length ≤ r.1) ((r.1 + 1) % 2 ^ 64) r.1 a (r.2 + 1)

/-- `-c`, tool/CommandLine.cpp:893-931. -/
def optCube (i : Nat) (c : Cmd H) : Res (StepOut H) :=
  if !c.images.isEmpty && c.imageType != .Cube then c.fail
  else
    let c := if c.images.isEmpty then
      { c with imageType := .Cube, images := vresize c.images 6 [] } else c
    if argv.length ≤ i + 2 then c.fail
    else do
      match ← readWord argv i cubeFaces with
      | none => c.fail
      | some (face, i') => do
        let a ← argAt argv (i' + 1)
        putImage E c false 0 face.toNat a (i' + 1)

/-- `-C`, tool/CommandLine.cpp:932-979; `cubeIndex*6`, `(cubeIndex + 1)*6` and the index are
`std::size_t`. -/
def optCubeArray (i : Nat) (c : Cmd H) : Res (StepOut H) :=
  if !c.images.isEmpty && c.imageType != .CubeArray then c.fail
  else
    let c := if c.images.isEmpty then { c with imageType := .CubeArray } else c
    if argv.length ≤ i + 3 then c.fail
    else do
      match ← readIndex argv i with
      | none => c.fail
      | some (n, i1) => do
        match ← readWord argv i1 cubeFaces with
        | none => c.fail
        | some (face, i2) => do
          let a ← argAt argv (i2 + 1)
          putImage E c (c.images.length ≤ n * 6 % 2 ^ 64) ((n + 1) * 6 % 2 ^ 64)
            ((n * 6 + face.toNat) % 2 ^ 64) a (i2 + 1)

/-- The types of `-I`, tool/CommandLine.cpp:996-1010. -/
def listTypes : List (String × ImageType) :=
  [("image", .Image), ("array", .Array), ("cube", .Cube), ("cube-array", .CubeArray)]

/-- `-I`, tool/CommandLine.cpp:980-1017. -/
def optInputList (i : Nat) (c : Cmd H) : Res (StepOut H) :=
  if !c.images.isEmpty then c.fail
  else if argv.length ≤ i + 2 then c.fail
  else do
    let a ← argAt argv (i + 1)
    match lookupWord a listTypes with
    | none => c.fail
    | some t => do
      let name ← argAt argv (i + 2)
      match ← readImageList E.files c.images name with
      | none => Cmd.fail { c with imageType := t }
      | some images => .ok (.next (i + 2) { c with imageType := t, images })

/-- `-r`, tool/CommandLine.cpp:1018-1035. -/
def optResize (i : Nat) (c : Cmd H) : Res (StepOut H) :=
  if argv.length ≤ i + 2 then c.fail
  else do
    match ← readSize argv i with
    | none => c.fail
    | some (w, i1) => do
      match ← readSize argv i1 with
      | none => Cmd.fail { c with width := w }
      | some (h, i2) => do
        match ← readWord argv i2 filterNames with
        | none => .ok (.next i2 { c with width := w, height := h })
        | some (f, i3) => .ok (.next i3 { c with width := w, height := h, resizeFilter := f })

/-- The number of levels of `-m`, tool/CommandLine.cpp:1038-1042; `allMipLevels` is `UINT_MAX`. -/
def mipmapLevels (i : Nat) : Res (Nat × Nat) := do
  match ← readIndex argv i with
  | none => .ok (pow32 - 1, i)
  | some (v, i') => .ok (u32 v, i')

/-- `-m`, tool/CommandLine.cpp:1036-1044. -/
def optMipmap (i : Nat) (c : Cmd H) : Res (StepOut H) := do
  let l ← mipmapLevels argv i
  match ← readWord argv l.2 filterNames with
  | none => .ok (.next l.2 { c with mipLevels := l.1 })
  | some (f, i') => .ok (.next i' { c with mipLevels := l.1, mipFilter := f })

/-- An optional word or number: its value and the new `i`, or the default. -/
def orDefault {α : Type} (r : Res (Option (α × Nat))) (dflt : α) (i : Nat) : Res (α × Nat) := do
  match ← r with
  | none => .ok (dflt, i)
  | some v => .ok v

/-- `-M`, tool/CommandLine.cpp:1045-1092. -/
def optCustomMip (i : Nat) (c : Cmd H) : Res (StepOut H) :=
  if argv.length ≤ i + 2 then c.fail
  else do
    match ← readIndex argv i with
    | none => c.fail
    | some (level, i1) => do
      let d ← orDefault (readIndex argv i1) 0 i1
      let f ← orDefault (readWord argv d.2 cubeFaces) .PosX d.2
      let p ← orDefault (readWord argv f.2 mipReplacements) .Continue f.2
      if argv.length ≤ p.2 + 1 then c.fail
      else do
        let a ← argAt argv (p.2 + 1)
        match c.customMips.emplace ⟨f.1, u32 level, u32 d.1⟩ a p.1 with
        | none => c.fail
        | some m => .ok (.next (p.2 + 1) { c with customMips := m })

/-- `--custom-mip-list`, tool/CommandLine.cpp:1093-1108.  On failure the entries read so far are
kept, but then the command line is rejected and they are not used. -/
def optCustomMipList (i : Nat) (c : Cmd H) : Res (StepOut H) :=
  if i + 1 = argv.length then c.fail
  else do
    let a ← argAt argv (i + 1)
    match ← readCustomMipList E.files c.customMips a with
    | none => c.fail
    | some m => .ok (.next (i + 1) { c with customMips := m })

/-- The angle of `--rotate`, tool/CommandLine.cpp:1123-1163: `none` if it is not accepted, else the
rotation, if any.  `%` and `/` truncate. -/
def rotation (angle : Int) : Option (Option RotateAngle) :=
  if Int.tmod angle 90 ≠ 0 then none
  else
    let q := Int.tmod (Int.tdiv angle 90) 4
    if q = -3 then some (some .CCW270)
    else if q = -2 then some (some .CCW180)
    else if q = -1 then some (some .CCW90)
    else if q = 0 then some none
    else if q = 1 then some (some .CW90)
    else if q = 2 then some (some .CW180)
    else if q = 3 then some (some .CW270)
    else none

/-- The argument of `--rotate`, tool/CommandLine.cpp:1122-1129. -/
def rotateArg (a : Str) : Option (Option RotateAngle) :=
  match strtolAll a with
  | none => none
  | some v => rotation v

/-- `--rotate`, tool/CommandLine.cpp:1113-1164. -/
def optRotate (i : Nat) (c : Cmd H) : Res (StepOut H) :=
  if argv.length ≤ i + 1 then c.fail
  else do
    let a ← argAt argv (i + 1)
    match rotateArg a with
    | none => c.fail
    | some none => .ok (.next (i + 1) { c with rotate := false })
    | some (some r) => .ok (.next (i + 1) { c with rotate := true, rotateAngle := r })

/-- The words of `-n`, tool/CommandLine.cpp:1170-1184. -/
def wrapNames : List (String × NormalOptions) :=
  [("wrap", { wrapX := true, wrapY := true }), ("wrapx", { wrapX := true }),
    ("wrapy", { wrapY := true })]

/-- The height of `-n`, tool/CommandLine.cpp:1187-1196. -/
def readHeight (i : Nat) : Res (Option (H × Nat)) :=
  if i + 1 < argv.length then do
    let a ← argAt argv (i + 1)
    .ok ((E.strtod a).map (fun v => (v, i + 1)))
  else .ok none

/-- `-n`, tool/CommandLine.cpp:1165-1197. -/
def optNormalMap (i : Nat) (c : Cmd H) : Res (StepOut H) := do
  let w ← orDefault (readWord argv i wrapNames) c.normalOptions i
  let h ← orDefault (readHeight E argv w.2) c.normalHeight w.2
  .ok (.next h.2 { c with normalMap := true, normalOptions := w.1, normalHeight := h.1 })

/-- The argument of `-s`, tool/CommandLine.cpp:1209-1221. -/
def swizzleArg (a : Str) : Option (Channel × Channel × Channel × Channel) :=
  match a with
  | [r, g, b, al] => do
    let r ← readChannel r
    let g ← readChannel g
    let b ← readChannel b
    let al ← readChannel al
    some (r, g, b, al)
  | _ => none

/-- The new colour mask of `-s`, tool/CommandLine.cpp:1231-1238. -/
def maskAfter (m : ColorMask) (r g b a : Channel) : ColorMask :=
  { r := m.r && r != .None, g := m.g && g != .None, b := m.b && b != .None,
    a := m.a && a != .None }

/-- `-s`, tool/CommandLine.cpp:1200-1242.  On failure the fields are not used. -/
def optSwizzle (i : Nat) (c : Cmd H) : Res (StepOut H) :=
  if argv.length ≤ i + 1 then c.fail
  else do
    let s ← argAt argv (i + 1)
    match swizzleArg s with
    | none => c.fail
    | some (r, g, b, a) =>
      let mask := maskAfter c.colorMask r g b a
      .ok (.next (i + 1) { c with
        swizzle := true, redSwzl := r, greenSwzl := g, blueSwzl := b, alphaSwzl := a
        colorMask := mask
        alpha := if !c.alphaSet && !mask.a then .None else c.alpha })

/-- `--pre-multiply`, tool/CommandLine.cpp:1245-1250. -/
def optPreMultiply (i : Nat) (c : Cmd H) : Res (StepOut H) :=
  .ok (.next i { c with
    preMultiply := true
    alpha := if !c.alphaSet && c.colorMask.a then .PreMultiplied else c.alpha })

/-- An option with one argument that is looked up: `-d`, `-t`, `--alpha`, `-Q`, `--file-format`,
tool/CommandLine.cpp:1251-1273, 1311-1339, 1340-1365, 1366-1392, 1411-1433. -/
def optWord {α : Type} (i : Nat) (c : Cmd H) (find : Str → Option α) (set : α → Cmd H) :
    Res (StepOut H) :=
  if argv.length ≤ i + 1 then c.fail
  else do
    let a ← argAt argv (i + 1)
    match find a with
    | none => c.fail
    | some v => .ok (.next (i + 1) (set v))

/-- The values of `-d`, tool/CommandLine.cpp:1261-1266 (`strcmp`). -/
def dimensionArg (a : Str) : Option Dimension :=
  if a == cstr "1" then some .Dim1D
  else if a == cstr "2" then some .Dim2D
  else if a == cstr "3" then some .Dim3D
  else none

/-- The values of `-t`, tool/CommandLine.cpp:1321-1332. -/
def typeNames : List (String × TType) :=
  [("unorm", .UNorm), ("snorm", .SNorm), ("uint", .UInt), ("int", .Int), ("ufloat", .UFloat),
    ("float", .Float)]

/-- The values of `--alpha`, tool/CommandLine.cpp:1351-1358. -/
def alphaNames : List (String × Alpha) :=
  [("none", .None), ("standard", .Standard), ("pre-multiplied", .PreMultiplied),
    ("encoded", .Encoded)]

/-- The values of `-Q`, tool/CommandLine.cpp:1376-1385. -/
def qualityNames : List (String × Quality) :=
  [("lowest", .Lowest), ("low", .Low), ("normal", .Normal), ("high", .High), ("highest", .Highest)]

/-- The values of `--file-format`, tool/CommandLine.cpp:1421-1426. -/
def fileTypeNames : List (String × FileType) := [("dds", .DDS), ("ktx", .KTX), ("pvr", .PVR)]

/-- `formatMap`, tool/CommandLine.cpp:36-105. -/
def formatNames (f : Features) : List (String × Format) :=
  [("R4G4", .R4G4), ("R4G4B4A4", .R4G4B4A4), ("B4G4R4A4", .B4G4R4A4), ("A4R4G4B4", .A4R4G4B4),
    ("R5G6B5", .R5G6B5), ("B5G6R5", .B5G6R5), ("R5G5B5A1", .R5G5B5A1), ("B5G5R5A1", .B5G5R5A1),
    ("A1R5G5B5", .A1R5G5B5), ("R8", .R8), ("R8G8", .R8G8), ("R8G8B8", .R8G8B8),
    ("B8G8R8", .B8G8R8), ("R8G8B8A8", .R8G8B8A8), ("B8G8R8A8", .B8G8R8A8),
    ("A8B8G8R8", .A8B8G8R8), ("A2R10G10B10", .A2R10G10B10), ("A2B10G10R10", .A2B10G10R10),
    ("R16", .R16), ("R16G16", .R16G16), ("R16G16B16", .R16G16B16),
    ("R16G16B16A16", .R16G16B16A16), ("R32", .R32), ("R32G32", .R32G32),
    ("R32G32B32", .R32G32B32), ("R32G32B32A32", .R32G32B32A32),
    ("B10G11R11_UFloat", .B10G11R11_UFloat), ("E5B9G9R9_UFloat", .E5B9G9R9_UFloat)] ++
  (if f.s3tc then
    [("BC1_RGB", .BC1_RGB), ("BC1_RGBA", .BC1_RGBA), ("BC2", .BC2), ("BC3", .BC3), ("BC4", .BC4),
      ("BC5", .BC5), ("BC6H", .BC6H), ("BC7", .BC7)] else []) ++
  (if f.etc then
    [("ETC1", .ETC1), ("ETC2_R8G8B8", .ETC2_R8G8B8), ("ETC2_R8G8B8A1", .ETC2_R8G8B8A1),
      ("ETC2_R8G8B8A8", .ETC2_R8G8B8A8), ("EAC_R11", .EAC_R11),
      ("EAC_R11G11", .EAC_R11G11)] else []) ++
  (if f.astc then
    [("ASTC_4x4", .ASTC_4x4), ("ASTC_5x4", .ASTC_5x4), ("ASTC_5x5", .ASTC_5x5),
      ("ASTC_6x5", .ASTC_6x5), ("ASTC_6x6", .ASTC_6x6), ("ASTC_8x5", .ASTC_8x5),
      ("ASTC_8x6", .ASTC_8x6), ("ASTC_8x8", .ASTC_8x8), ("ASTC_10x5", .ASTC_10x5),
      ("ASTC_10x6", .ASTC_10x6), ("ASTC_10x8", .ASTC_10x8), ("ASTC_10x10", .ASTC_10x10),
      ("ASTC_12x10", .ASTC_12x10), ("ASTC_12x12", .ASTC_12x12)] else []) ++
  (if f.pvrtc then
    [("PVRTC1_RGB_2BPP", .PVRTC1_RGB_2BPP), ("PVRTC1_RGBA_2BPP", .PVRTC1_RGBA_2BPP),
      ("PVRTC1_RGB_4BPP", .PVRTC1_RGB_4BPP), ("PVRTC1_RGBA_4BPP", .PVRTC1_RGBA_4BPP),
      ("PVRTC2_RGBA_2BPP", .PVRTC2_RGBA_2BPP), ("PVRTC2_RGBA_4BPP", .PVRTC2_RGBA_4BPP)] else [])

/-- `-f`, tool/CommandLine.cpp:1274-1310: an unknown name keeps the format given before, if any. -/
def optFormat (i : Nat) (c : Cmd H) : Res (StepOut H) :=
  if argv.length ≤ i + 1 then c.fail
  else do
    let a ← argAt argv (i + 1)
    let format := (lookupWord a (formatNames E.feat)).getD c.format
    if format = .Unknown then c.fail
    else .ok (.next (i + 1) { c with
      format
      type := if format = .B10G11R11_UFloat ∨ format = .E5B9G9R9_UFloat ∨ format = .BC6H
        then .UFloat else c.type })

/-- `-o`, tool/CommandLine.cpp:1393-1410. -/
def optOutput (i : Nat) (c : Cmd H) : Res (StepOut H) :=
  if argv.length ≤ i + 1 then c.fail
  else if c.output.isSome then c.fail
  else do
    let a ← argAt argv (i + 1)
    .ok (.next (i + 1) { c with output := some a })

/-- The chain of options in the loop over the arguments, tool/CommandLine.cpp:823-1440: `a` is
`argv[i]`. -/
def parseBody (i : Nat) (c : Cmd H) (a : Str) : Res (StepOut H) :=
  if matchesArg a "-j" "--jobs" then optJobs argv i c
  else if matchesArg a "-q" "--quiet" then .ok (.next i { c with log := .Quiet })
  else if matchesArg a "-v" "--verbose" then .ok (.next i { c with log := .Verbose })
  else if matchesArg a "-i" "--input" then optInput argv i c
  else if matchesArg a "-a" "--array" then optArray E argv i c
  else if matchesArg a "-c" "--cube" then optCube E argv i c
  else if matchesArg a "-C" "--cube-array" then optCubeArray E argv i c
  else if matchesArg a "-I" "--input-list" then optInputList E argv i c
  else if matchesArg a "-r" "--resize" then optResize argv i c
  else if matchesArg a "-m" "--mipmap" then optMipmap argv i c
  else if matchesArg a "-M" "--custom-mip" then optCustomMip argv i c
  else if a == cstr "--custom-mip-list" then optCustomMipList E argv i c
  else if a == cstr "--flipx" then .ok (.next i { c with flipX := true })
  else if a == cstr "--flipy" then .ok (.next i { c with flipY := true })
  else if a == cstr "--rotate" then optRotate argv i c
  else if matchesArg a "-n" "--normalmap" then optNormalMap E argv i c
  else if matchesArg a "-g" "--grayscale" then .ok (.next i { c with grayscale := true })
  else if matchesArg a "-s" "--swizzle" then optSwizzle argv i c
  else if a == cstr "--srgb" then
    .ok (.next i { c with imageColorSpace := .sRGB, textureColorSpace := .sRGB })
  else if a == cstr "--pre-multiply" then optPreMultiply i c
  else if matchesArg a "-d" "--dimension" then
    optWord argv i c dimensionArg (fun v => { c with dimension := v })
  else if matchesArg a "-f" "--format" then optFormat E argv i c
  else if matchesArg a "-t" "--type" then
    optWord argv i c (lookupWord · typeNames) (fun v => { c with type := v })
  else if a == cstr "--alpha" then
    optWord argv i c (lookupWord · alphaNames) (fun v => { c with alpha := v, alphaSet := true })
  else if matchesArg a "-Q" "--quality" then
    optWord argv i c (lookupWord · qualityNames) (fun v => { c with quality := v })
  else if matchesArg a "-o" "--output" then optOutput argv i c
  else if a == cstr "--file-format" then
    optWord argv i c (lookupWord · fileTypeNames) (fun v => { c with fileType := v })
  else if a == cstr "--create-dir" then .ok (.next i { c with createOutputDir := true })
  else .ok (.next i { c with success := false })

/-- One pass of the loop over the arguments, tool/CommandLine.cpp:821-1441. -/
def parseStep (i : Nat) (c : Cmd H) : Res (StepOut H) := do
  let a ← argAt argv i
  parseBody E argv i c a

/-- The loop over the arguments, tool/CommandLine.cpp:821-1441; `none` if an exception ends the
program. -/
def parseLoop (fuel : Nat) (i : Nat) (c : Cmd H) : Res (Option (Cmd H)) :=
  if argv.length ≤ i then .ok (some c)
  else match fuel with
    | 0 => .ub
    | fuel + 1 => do
      match ← parseStep E argv i c with
      | .next i' c' => parseLoop fuel (i' + 1) c'
      | .stop c' => .ok (some c')
      | .abort => .ok none

/-! ### Validation -/

/-- The tests of the number of images, tool/CommandLine.cpp:632-674; `none` is failure. -/
def checkKind (c : Cmd H) : Option (Cmd H) :=
  match c.imageType with
  | .Image => if c.images.length ≠ 1 then none else some c
  | .Array => some c
  | .Cube =>
    if c.images.length ≠ 6 then none
    else if c.dimension ≠ .Dim2D then none
    else some { c with dimension := .Cube }
  | .CubeArray =>
    if c.images.length % 6 ≠ 0 then none
    else if c.dimension ≠ .Dim2D then none
    else some { c with dimension := .Cube }

/-- The output file type, tool/CommandLine.cpp:697-705. -/
def checkFileType (ft : FileType) (output : Str) : FileType :=
  if ft = .Auto then fileType output else ft

/-- `std::max(depth >> level, 1U)`, tool/CommandLine.cpp:766, 783. -/
def levelDepth (depth level : Nat) : Res Nat := do
  let d ← shr32 depth level
  .ok (max d 1)

/-- Counting one custom mip of a 3D texture, tool/CommandLine.cpp:767-769; `mipLevel + 1` is an
`unsigned int`. -/
def countLevel (counts : List Nat) (level : Nat) : Res (List Nat) :=
  let counts := if counts.length ≤ level then vresize counts (u32 (level + 1)) 0 else counts
  match counts[level]? with
  | none => .ub
  | some n => .ok (counts.set level (u32 (n + 1)))

/-- One custom mip of the first loop, tool/CommandLine.cpp:757-777: `none` is failure, else the new
counts. -/
def checkMip (dim : Dimension) (depth : Nat) (counts : List Nat) (i : ImageIndex) :
    Res (Option (List Nat)) :=
  if i.mipLevel = 0 then .ok none
  else if dim = .Dim3D then do
    let d ← levelDepth depth i.mipLevel
    let counts ← countLevel counts i.mipLevel
    .ok (if d ≤ i.depth then none else some counts)
  else .ok (if depth ≤ i.depth then none else some counts)

/-- The first loop over the custom mips, tool/CommandLine.cpp:755-778.  (The order of an
`unordered_map` is not specified; here it is the order of the list.) -/
def checkMips (dim : Dimension) (depth : Nat) : List ImageIndex → List Nat → Res (Option (List Nat))
  | [], counts => .ok (some counts)
  | i :: is, counts => do
    match ← checkMip dim depth counts i with
    | none => .ok none
    | some counts' => checkMips dim depth is counts'

/-- The second loop, tool/CommandLine.cpp:780-790. -/
def checkCounts (depth : Nat) : Nat → List Nat → Res Bool
  | _, [] => .ok true
  | i, n :: ns => do
    let d ← levelDepth depth i
    if 0 < n ∧ n ≠ d then .ok false else checkCounts depth (i + 1) ns

/-- The tests of the custom mips, tool/CommandLine.cpp:746-790. -/
def checkCustomMips (c : Cmd H) : Res Bool :=
  if c.mipLevels ≤ 1 && !c.customMips.isEmpty then .ok false
  else
    let depth := u32 c.images.length
    do
      match ← checkMips c.dimension depth (c.customMips.map (·.1)) [] with
      | none => .ok false
      | some counts => checkCounts depth 0 counts

/-- The format and colour space tests, tool/CommandLine.cpp:676-719: `none` is failure. -/
def checkOutput (c : Cmd H) : Option (Cmd H) :=
  if c.images.any List.isEmpty then none
  else if c.format = .Unknown then none
  else match c.output with
    | none => none
    | some o =>
      let ft := checkFileType c.fileType o
      if ft = .Auto then none
      else if !isFormatValidFile E.feat c.format c.type ft then none
      else some { c with
        fileType := ft
        textureColorSpace := if c.textureColorSpace = .sRGB && !hasNativeSRGB c.format c.type
          then .Linear else c.textureColorSpace }

/-- `validate`, tool/CommandLine.cpp:624-793: `none` is failure, else the adjusted command line. -/
def validate (c : Cmd H) : Res (Option (Cmd H)) :=
  if c.images.isEmpty then .ok none
  else match checkKind c with
    | none => .ok none
    | some c => match checkOutput E c with
      | none => .ok none
      | some c => do
        let good ← checkCustomMips c
        .ok (if good then some c else none)

/-- The end of `parse`, tool/CommandLine.cpp:1446-1448: the message of a failure names the program. -/
def parseEnd (r : Option (Cmd H)) : Res (Option (Option (Cmd H))) :=
  match r with
  | some c => .ok (some (some c))
  | none => do
    let _ ← argAt argv 0
    .ok (some none)

/-- `validate` after the loop if nothing failed, tool/CommandLine.cpp:1443-1444. -/
def parseValidate (c : Cmd H) : Res (Option (Cmd H)) :=
  if c.success then validate E c else .ok none

/-- `CommandLine::parse`, tool/CommandLine.cpp:797-1449.  `none`: an exception ends the program;
`some none`: failure; `some (some c)`: success with the command line `c`. -/
def parseCommandLine : Res (Option (Option (Cmd H))) :=
  if argv.length = 1 then parseEnd argv none
  else if (argv.drop 1).any (fun a => matchesArg a "-h" "--help") then parseEnd argv none
  else do
    match ← parseLoop E argv argv.length 1 { normalHeight := E.one } with
    | none => .ok none
    | some c => do
      let v ← parseValidate E c
      parseEnd argv v

end
end Cuttlefish
