import Verif.Model.ToolMain
import Verif.Spec.File
/-
What a run of the tool does, in terms of calls of the library and of the file system.
-/
namespace Cuttlefish.Spec
variable {Img H σ : Type}

/-- The faces of a cube, in the order of the input images. -/
def faceOrder : List CubeFace := [.PosX, .NegX, .PosY, .NegY, .PosZ, .NegZ]

/-- The number of layers or slices asked for: one per image, or one per six faces; 0 if the texture is not
an array. -/
def layers (k : ImageType) (n : ℕ) : ℕ :=
  match k with
  | .Image | .Cube => 0
  | .Array => n
  | .CubeArray => n / 6

/-- The face and the layer of input image number `i`. -/
def slot (k : ImageType) (i : ℕ) : Option CubeFace × ℕ :=
  match k with
  | .Image => (none, 0)
  | .Array => (none, i)
  | .Cube => (faceOrder[i]?, 0)
  | .CubeArray => (faceOrder[i % 6]?, i / 6)

/-- The calls that make the texture of a job out of the loaded images: create it with the size of the first
image, put every image into its place, generate the mipmaps if asked for, and convert. -/
def jobOps (L : ImageLib Img) (c : Cmd H) (images : List (Option Img)) (custom : CustomMips Img) :
    List (Op Img) :=
  .initialize c.dimension (L.widthO images.head?.join) (L.heightO images.head?.join)
      (layers c.imageType images.length) 1 c.textureColorSpace ::
    (images.zipIdx.map fun g => .setImage g.1 true (slot c.imageType g.2).1 0 (slot c.imageType g.2).2) ++
    (if 1 < c.mipLevels then [.generateMipmaps c.mipFilter c.mipLevels custom] else []) ++
    [.convert c.format c.type c.quality c.alpha c.colorMask c.jobs]

/-- One attempt to write the texture `t` to the file `out`: it succeeds and the file is complete; or the
file cannot be opened and nothing changes; or the file holds a beginning of the data. -/
inductive Written (D : Disk σ) (t : Tex Img) (ft : FileType) (out : Str) : σ → Bool → σ → Prop
  | complete (s full) : D.opens s out = true → FullFile t ft full →
      Written D t ft out s true (D.write s out full)
  | closed (s) : D.opens s out = false → Written D t ft out s false s
  | broken (s full part) : D.opens s out = true → FullFile t ft full → part <+: full →
      Written D t ft out s false (D.write s out part)

/-- Writing the texture: one attempt, and if it fails and directories may be created, one more after creating
the directories above the file. -/
inductive Saved (D : Disk σ) (t : Tex Img) (ft : FileType) (out : Str) (create : Bool) :
    σ → Bool → σ → Prop
  | first (s s') : Written D t ft out s true s' → Saved D t ft out create s true s'
  | failed (s s') : create = false → Written D t ft out s false s' → Saved D t ft out create s false s'
  | noDirectory (s s1 s') : create = true → Written D t ft out s false s1 →
      createParentDir D.mkdir out s1 = .ok (false, s') → Saved D t ft out create s false s'
  | again (s s1 s2 s' ok) : create = true → Written D t ft out s false s1 →
      createParentDir D.mkdir out s1 = .ok (true, s2) → Written D t ft out s2 ok s' →
      Saved D t ft out create s ok s'

/-- The exit code and the final state of the file system of a run of the tool. -/
inductive Ending (E : ToolEnv Img H σ) (argv : List Str) (s : σ) : Option ℕ → σ → Prop
  /-- an exception while the arguments are parsed -/
  | exception : parseCommandLine E.cmd argv = .ok none → Ending E argv s none s
  /-- the arguments are rejected -/
  | usage : parseCommandLine E.cmd argv = .ok (some none) → Ending E argv s (some 1) s
  /-- an image cannot be loaded, or a custom mip lies outside the texture -/
  | notLoaded (c) : parseCommandLine E.cmd argv = .ok (some (some c)) → loadImages E c = .ok none →
      Ending E argv s (some 2) s
  /-- the texture cannot be converted -/
  | notConverted (c images custom outs t) : parseCommandLine E.cmd argv = .ok (some (some c)) →
      loadImages E c = .ok (some (images, custom)) →
      run E.world none (jobOps E.world.lib c images custom) = .ok (outs ++ [.bool false], t) →
      Ending E argv s (some 3) s
  /-- the texture is converted and written, or cannot be written -/
  | written (c images custom outs t out ok s') : parseCommandLine E.cmd argv = .ok (some (some c)) →
      loadImages E c = .ok (some (images, custom)) →
      run E.world none (jobOps E.world.lib c images custom) = .ok (outs ++ [.bool true], t) →
      c.output = some out → Saved E.disk t c.fileType out c.createOutputDir s ok s' →
      Ending E argv s (some (if ok then 0 else 3)) s'

/-- The first image of a job, for which no target size is set yet, has a 32-bit size when it is loaded. -/
def LoadsSmall (E : ToolEnv Img H σ) : Prop :=
  ∀ c p l g w' h', E.load c p unset unset l = .ok (some (some g, w', h')) →
    E.world.lib.width g < 2 ^ 32 ∧ E.world.lib.height g < 2 ^ 32

end Cuttlefish.Spec
