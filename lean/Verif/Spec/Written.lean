import Verif.Spec.Job
import Verif.Spec.Converted
import Verif.Spec.Ktx
import Verif.Spec.Dds
import Verif.Spec.Pvr
/-
Where the input images of a job are found in the file that the tool writes.
-/
namespace Cuttlefish.Spec
variable {Img H σ : Type}

/-- The surface that a reader of the container finds at a mip level, array layer, cube face and slice. -/
def inFile (ft : FileType) (bytes : List UInt8) (level layer face slice : ℕ) : Option (List UInt8) :=
  match ft with
  | .KTX => (parseKtx bytes).bind (·.image level layer face slice)
  | .DDS => (parseDds bytes).bind (·.image layer face level slice)
  | .PVR => (parsePvr bytes).bind (·.image level layer face slice)
  | .Auto => none

/-- The layer of the file that holds input image number `j`: the images of an array are its layers, those of
a cube its faces, and those of an array of cubes the faces of its layers.  A 3D texture has no layers. -/
def layerOf (c : Cmd H) (j : ℕ) : ℕ :=
  match c.imageType with
  | .Image | .Cube => 0
  | .Array => if c.dimension = .Dim3D then 0 else j
  | .CubeArray => j / 6

/-- The face of input image number `j`. -/
def faceOf (c : Cmd H) (j : ℕ) : ℕ :=
  match c.imageType with
  | .Image | .Array => 0
  | .Cube => j
  | .CubeArray => j % 6

/-- The slice of input image number `j`: the images of a 3D texture are its slices. -/
def sliceOf (c : Cmd H) (j : ℕ) : ℕ := if c.imageType = .Array ∧ c.dimension = .Dim3D then j else 0

/-- What the containers and the converters can hold: surfaces with 32-bit sizes, powers of two
for PVRTC1; for KTX and DDS, 1D textures
with one row; for KTX, levels with a 32-bit size. -/
structure Containable (c : Cmd H) (n w h : ℕ) : Prop where
  fits : Fits c.format w h
  pvrtc : Pow2For c.format w h
  row : c.dimension = .Dim1D → c.fileType ≠ .PVR → h = 1
  ktx : c.fileType = .KTX → n * ktxImageBytes c.format w h < 2 ^ 32

/-- Custom mips of a 3D texture are usable and complete for every level. -/
def CustomFor (L : ImageLib Img) (c : Cmd H) (custom : CustomMips Img) (n : ℕ) : Prop :=
  c.dimension = .Dim3D → GoodCustom L c.mipFilter custom ∧
    ∀ m, 1 ≤ m → consistent3d (CustomMips.find custom) m (extent n m)

/-- The number of mip levels of the texture of a job with `n` input images of size `w` x `h`. -/
def fileLevels (c : Cmd H) (n w h : ℕ) : ℕ :=
  min (max c.mipLevels 1) (maxMipmapLevels c.dimension w h (layers c.imageType n))

/-- Loading an input image reports the size of the image. -/
def LoadsSized (E : ToolEnv Img H σ) : Prop :=
  ∀ c p w h g w' h', E.load c p w h 0 = .ok (some (g, w', h')) →
    E.world.lib.widthO g = w' ∧ E.world.lib.heightO g = h'

/-- The tool ran the job that the arguments describe and wrote the file `full`. -/
structure Wrote (E : ToolEnv Img H σ) (argv : List Str) (s' : σ) (c : Cmd H) (images : List (Option Img))
    (custom : CustomMips Img) (full : List UInt8) : Prop where
  parsed : parseCommandLine E.cmd argv = .ok (some (some c))
  loaded : loadImages E c = .ok (some (images, custom))
  count : images.length = c.images.length
  written : ∃ out s1, c.output = some out ∧ s' = E.disk.write s1 out full

/-- A reader of the file finds the image `g`, encoded with the options of the job, at a level, layer, face and
slice. -/
def Found (E : ToolEnv Img H σ) (X : Ext) (view : Img → FImg) (c : Cmd H) (full : List UInt8)
    (level layer face slice : ℕ) (g : Img) : Prop :=
  ∃ k bytes, createConverter E.world.feat c.format c.type = some k ∧
    encodeImage X k ⟨c.format, c.type, c.alpha, c.colorMask, c.textureColorSpace, c.quality,
      if c.jobs = allCores then E.world.hw else c.jobs⟩ (view g) = .ok bytes ∧
    inFile c.fileType full level layer face slice = some bytes

end Cuttlefish.Spec
