import Verif.Model.Directory
import Verif.Model.Save
import Verif.Model.TextureConvert
/-
The main program of the tool (tool/main.cpp:275-442).  Messages are not modelled.
-/
namespace Cuttlefish

/-- The file system: which names can be opened for writing, the output device behind an `ofstream`, how
many of the accepted bytes reach the file when it is closed, the state after a file was opened (which
empties it) and left with some content, and `mkdir`. -/
structure Disk (σ : Type) where
  opens : σ → Str → Bool
  dev : σ → Device
  close : σ → List UInt8 → Nat
  write : σ → Str → List UInt8 → σ
  mkdir : σ → Str → σ × MkdirResult

/-- What the program gets from its surroundings: those of the command line and of textures, the file
system, and `loadAndProcessImage` (tool/main.cpp:147-273): from the arguments, a path, the target width and
height so far and a mip level to `none` if it fails, else the image (which may be invalid) and the target
size afterwards. -/
structure ToolEnv (Img H σ : Type) where
  cmd : CmdEnv H
  world : World Img
  disk : Disk σ
  load : Cmd H → Str → Nat → Nat → Nat → Res (Option (Option Img × Nat × Nat))

section
variable {Img H σ : Type}

/-- `unset`, tool/main.cpp:39. -/
def unset : Nat := pow32 - 1

/-- The first loop of `loadImages`, tool/main.cpp:282-288. -/
def loadMain (E : ToolEnv Img H σ) (args : Cmd H) :
    List Str → Nat → Nat → Res (Option (List (Option Img) × Nat × Nat))
  | [], w, h => .ok (some ([], w, h))
  | p :: ps, w, h => do
    match ← E.load args p w h 0 with
    | none => .ok none
    | some r => do
      match ← loadMain E args ps r.2.1 r.2.2 with
      | none => .ok none
      | some rs => .ok (some (r.1 :: rs.1, rs.2))

/-- The second loop of `loadImages`, tool/main.cpp:293-319, in the order of the list. -/
def loadCustom (E : ToolEnv Img H σ) (args : Cmd H) (mipLevels : Nat) :
    CustomMipFiles → Nat → Nat → Res (Option (CustomMips Img))
  | [], _, _ => .ok (some [])
  | e :: es, w, h =>
    if mipLevels ≤ e.1.mipLevel then .ok none
    else if e.1.cubeFace ≠ .PosX ∧ args.dimension ≠ .Cube then .ok none
    else do
      match ← E.load args e.2.1 w h e.1.mipLevel with
      | none => .ok none
      | some r => do
        match ← loadCustom E args mipLevels es r.2.1 r.2.2 with
        | none => .ok none
        | some ms => .ok (some ((e.1, ⟨some r.1, e.2.2⟩) :: ms))

/-- `loadImages`, tool/main.cpp:279-322. -/
def loadImages (E : ToolEnv Img H σ) (args : Cmd H) :
    Res (Option (List (Option Img) × CustomMips Img)) := do
  match ← loadMain E args args.images unset unset with
  | none => .ok none
  | some r => do
    let mipLevels := min args.mipLevels
      (maxMipmapLevels args.dimension r.2.1 r.2.2 (u32 r.1.length))
    match ← loadCustom E args mipLevels args.customMips r.2.1 r.2.2 with
    | none => .ok none
    | some ms => .ok (some (r.1, ms))

/-- The depth of the texture, tool/main.cpp:327-337. -/
def toolDepth (k : ImageType) (n : Nat) : Nat :=
  match k with
  | .Array => u32 n
  | .CubeArray => u32 (n / 6)
  | _ => 0

/-- Where image number `i` goes, tool/main.cpp:342-367: cube face, level and depth. -/
def toolPlace (k : ImageType) (i : Nat) : Option CubeFace × Nat × Nat :=
  match k with
  | .Image => (none, 0, 0)
  | .Array => (none, 0, i)
  | .Cube => (some (CubeFace.ofIndex i), 0, 0)
  | .CubeArray => (some (CubeFace.ofIndex (i % 6)), 0, i / 6)

/-- The loops over the images, tool/main.cpp:342-367, from image number `i` on.  For `Image` there is
only one.  (The index is an `unsigned int`; less than 2^32 images are assumed here.) -/
def putImages (E : ToolEnv Img H σ) (k : ImageType) : Nat → List (Option Img) → Tex Img → Res (Tex Img)
  | _, [], t => .ok t
  | i, g :: gs, t => do
    let p := toolPlace k i
    let r ← t.setImage E.world.lib g true p.1 p.2.1 p.2.2
    putImages E k (i + 1) gs r.2

/-- Mipmaps if asked for, tool/main.cpp:369-375; the result is ignored. -/
def toolMips (E : ToolEnv Img H σ) (args : Cmd H) (custom : CustomMips Img) (t : Tex Img) :
    Res (Tex Img) :=
  if 1 < args.mipLevels then do
    let r ← t.generateMipmaps E.world.lib args.mipFilter args.mipLevels custom
    .ok r.2
  else .ok t

/-- `texture.save(args.output, args.fileType)` on the disk.  Without an output name (which does not
happen, see C33) the string is empty. -/
def saveOnce (E : ToolEnv Img H σ) (args : Cmd H) (t : Tex Img) (s : σ) : Res (SaveResult × σ) := do
  let out := args.output.getD []
  let r ← t.saveFile ⟨E.disk.opens s, E.disk.dev s, E.disk.close s⟩ (some out) args.fileType
  match r.2 with
  | none => .ok (r.1, s)
  | some content => .ok (r.1, E.disk.write s out content)

/-- Trying again after a write error, tool/main.cpp:401-418. -/
def saveAgain (E : ToolEnv Img H σ) (args : Cmd H) (t : Tex Img) (s : σ) : Res (Bool × σ) :=
  if args.createOutputDir then do
    let d ← createParentDir E.disk.mkdir (args.output.getD []) s
    if d.1 then do
      let r ← saveOnce E args t d.2
      .ok (decide (r.1 = .Success), r.2)
    else .ok (false, d.2)
  else .ok (false, s)

/-- The switch over the result of saving, tool/main.cpp:388-421. -/
def saveAll (E : ToolEnv Img H σ) (args : Cmd H) (t : Tex Img) (s : σ) : Res (Bool × σ) := do
  let r ← saveOnce E args t s
  match r.1 with
  | .Success => .ok (true, r.2)
  | .WriteError => saveAgain E args t r.2
  | _ => .ok (false, r.2)

/-- `saveTexture`, tool/main.cpp:324-422. -/
def saveTexture (E : ToolEnv Img H σ) (args : Cmd H) (images : List (Option Img))
    (custom : CustomMips Img) (s : σ) : Res (Bool × σ) :=
  match images with
  | [] => .ub
  | first :: _ => do
    let t := (Tex.initialize none args.dimension (E.world.lib.widthO first) (E.world.lib.heightO first)
      (toolDepth args.imageType images.length) 1 args.textureColorSpace).2
    let t ← putImages E args.imageType 0 images t
    let t ← toolMips E args custom t
    let r ← t.convert E.world.feat E.world.hw E.world.enc args.format args.type args.quality args.alpha
      args.colorMask args.jobs
    if r.1 then saveAll E args r.2 s else .ok (false, s)

/-- `main`, tool/main.cpp:427-442: the exit code (`none` if an exception ended the program) and the state
of the disk. -/
def toolMain (E : ToolEnv Img H σ) (argv : List Str) (s : σ) : Res (Option Nat × σ) := do
  match ← parseCommandLine E.cmd argv with
  | none => .ok (none, s)
  | some none => .ok (some 1, s)
  | some (some args) => do
    match ← loadImages E args with
    | none => .ok (some 2, s)
    | some l => do
      let r ← saveTexture E args l.1 l.2 s
      .ok (if r.1 then some 0 else some 3, r.2)

end
end Cuttlefish
