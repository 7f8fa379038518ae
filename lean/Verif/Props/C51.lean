import Verif.Proofs.ToolFile
import Verif.Props.C43
/-
C51: the input images of the tool are found in the file it writes, each in its place.
-/
namespace Cuttlefish
open Spec
variable {Img H σ : Type}

/-- Exit code 0: a reader of the container format finds, for every input image of the job, a surface at level
0 of the layer, face and slice of that image; its bytes are the encoding, with the format and type of the job, of
the image that was loaded from that path, in the colour space of the texture.  For all command lines, results of
loading images, sizes, encoders and file systems.

Partial: the texture must be one that the containers can hold (`Containable`; the code does not check it, see
`C51_fails_rows`), PVRTC is excluded (its sizes are known to the external library only), and the custom mips of a
3D texture must be usable and complete (`CustomFor`; without it the run can be undefined, see `C43_fails_mixed`). -/
theorem C51_file_partial (E : ToolEnv Img H σ) (X : Ext) (hX : CodecSizes X) (view : Img → FImg)
    (hL : Lawful E.world.lib) (henc : E.world.enc = fun k a g => encodeImage X k a (view g))
    (hview : ∀ g, (view g).width = E.world.lib.width g ∧ (view g).height = E.world.lib.height g)
    (hclose : ∀ s bytes, E.disk.close s bytes = bytes.length) (hsize : LoadsSmall E)
    (argv : List Str) (s s' : σ)
    (hcount : ∀ c, parseCommandLine E.cmd argv = .ok (some (some c)) → c.images.length < 2 ^ 32)
    (h : toolMain E argv s = .ok (some 0, s')) :
    ∃ c images custom out full s1,
      parseCommandLine E.cmd argv = .ok (some (some c)) ∧
      loadImages E c = .ok (some (images, custom)) ∧ images.length = c.images.length ∧
      c.output = some out ∧ s' = E.disk.write s1 out full ∧
      (Containable c images.length (E.world.lib.widthO images.head?.join)
          (E.world.lib.heightO images.head?.join) →
        CustomFor E.world.lib c custom images.length →
        ∀ j < images.length, ∃ g r k bytes, images[j]? = some (some g) ∧
          represent E.world.lib c.textureColorSpace g true = some r ∧
          createConverter E.world.feat c.format c.type = some k ∧
          encodeImage X k ⟨c.format, c.type, c.alpha, c.colorMask, c.textureColorSpace, c.quality,
            if c.jobs = allCores then E.world.hw else c.jobs⟩ (view r) = .ok bytes ∧
          inFile c.fileType full 0 (layerOf c j) (faceOf c j) (sliceOf c j) = some bytes) := by
  have ho := C43_outcome_partial E argv s s' (some 0) hclose hsize hcount h
  generalize hcode : some 0 = code at ho
  cases ho with
  | exception => simp at hcode
  | usage => simp at hcode
  | notLoaded => simp at hcode
  | notConverted => simp at hcode
  | written c images custom outs t out ok s'' h1 h2 h3 h4 h5 =>
    cases ok with
    | false => simp at hcode
    | true =>
      have hl := loadImages_length h2
      dsimp only at hl
      have key : ∀ s0, Written E.disk t c.fileType out s0 true s' →
          ∃ full s1, FullFile t c.fileType full ∧ s' = E.disk.write s1 out full := by
        intro s0 hw
        cases hw with
        | complete full h1 h2 => exact ⟨full, s0, h2, rfl⟩
      obtain ⟨full, s1, hf, hs⟩ : ∃ full s1, FullFile t c.fileType full ∧ s' = E.disk.write s1 out full := by
        cases h5 with
        | first hw => exact key s (by assumption)
        | again s1 s2 => exact key s2 (by assumption)
      refine ⟨c, images, custom, out, full, s1, h1, h2, hl, h4, hs, ?_⟩
      intro hcon hcus j hj
      obtain ⟨t0, -, hims⟩ := job_file hX hL henc hview (C33_job _ _ _ h1) hl (hcount c h1)
        (loadImages_size hsize h2) hcus hcon h3 hf
      obtain ⟨g, r, bytes, k, a1, a2, -, a3, a4, a5⟩ := hims j hj
      exact ⟨g, r, k, bytes, a1, a2, a3, a4, a5⟩

namespace Toy

/-- The first byte of a name as a float, divided by 255: `a` is 97/255. -/
def tagOf (p : Str) : ℕ := F32.toBits (F32.round ((p.headD 0).toNat / 255))

/-- The tool in the small world: every name is an image of 2x1 pixels that shows the first byte of the name. -/
def names (dev : Device) : ToolEnv Toy.Img Unit Files where
  cmd := ⟨real.feat, fun n => if n = cstr "l" then some (cstr "a\nb\nc\nd\ne\nf\ng\nh\ni\nj\nk\nl") else none,
    fun _ => none, (), 1000⟩
  world := real
  disk := disk dev
  load := fun _ p _ _ level => .ok (some (some ⟨2 / 2 ^ level, 1, true, .Linear, [tagOf p]⟩, 2, 1))

/-- A job for an array of two cubes. -/
def cubes : Cmd Unit :=
  { imageType := .CubeArray, dimension := .Cube, format := .R8, fileType := .PVR, normalHeight := () }

/-- The file after a successful run. -/
def written (r : Res (Option ℕ × Files)) : List UInt8 :=
  match r with
  | .ok (some 0, s) => (s.files.head?.map (·.2)).getD []
  | _ => []

end Toy

/-- The small world meets the conditions of the theorem on the library. -/
example (dev : Device) : CodecSizes Toy.ext ∧ Lawful (Toy.names dev).world.lib ∧
    ((Toy.names dev).world.enc = fun k a g => encodeImage Toy.ext k a (Toy.view g)) ∧
    (∀ g, (Toy.view g).width = (Toy.names dev).world.lib.width g ∧
      (Toy.view g).height = (Toy.names dev).world.lib.height g) ∧
    (∀ s bytes, (Toy.names dev).disk.close s bytes = bytes.length) ∧ LoadsSmall (Toy.names dev) := by
  refine ⟨Toy.ext_sizes, Toy.lawful, rfl, fun _ => ⟨rfl, rfl⟩, fun _ _ => rfl, ?_⟩
  intro c p l g w' h' hl
  simp only [Toy.names, Res.ok.injEq, Option.some.injEq, Prod.mk.injEq] at hl
  obtain ⟨rfl, -⟩ := hl
  have : 2 / 2 ^ l ≤ 2 := Nat.div_le_self _ _
  exact ⟨by show 2 / 2 ^ l < _; omega, by show 1 < _; omega⟩

/-- A job meets the conditions on the texture: an array of two cubes in a PVR file. -/
example : Containable Toy.cubes 12 2 1 ∧ CustomFor Toy.lib Toy.cubes [] 12 := by
  refine ⟨⟨?_, (by decide), by simp [Toy.cubes], by simp [Toy.cubes]⟩, by simp [CustomFor, Toy.cubes]⟩
  unfold Fits
  refine ⟨by omega, by omega, ?_⟩
  show 2 * 1 + 31 < 2 ^ 32 ∧ 2 * 1 * elements [(Chan.R, 8)] ≤ 2 ^ 32
  refine ⟨by omega, ?_⟩
  unfold elements
  simp

/-- Image number 8, `i`, is face 2 of layer 1 of an array of cubes. -/
example : inFile .PVR (Toy.written (toolMain (Toy.names Device.perfect) [cstr "cuttlefish", cstr "-I",
    cstr "cube-array", cstr "l", cstr "-f", cstr "R8", cstr "-o", cstr "a.pvr"] ⟨[[]], []⟩)) 0 1 2 0 = some [105, 105] := by
  decide +kernel

/-- Image number 3, `d`, is layer 3 of an array, and slice 3 of a 3D texture. -/
example : inFile .KTX (Toy.written (toolMain (Toy.names Device.perfect) [cstr "cuttlefish", cstr "-I", cstr "array",
    cstr "l", cstr "-f", cstr "R8", cstr "-o", cstr "a.ktx"] ⟨[[]], []⟩)) 0 3 0 0 = some [100, 100] ∧
    inFile .DDS (Toy.written (toolMain (Toy.names Device.perfect) [cstr "cuttlefish", cstr "-I", cstr "array",
    cstr "l", cstr "-d", cstr "3", cstr "-f", cstr "R8", cstr "-o", cstr "a.dds"] ⟨[[]], []⟩)) 0 0 0 3 =
    some [100, 100] := by
  decide +kernel

/-- The full claim is false: a 1D texture of an image with several rows is accepted, and the tool exits with
code 0, but a reader cannot read the KTX file. -/
theorem C51_fails_rows : ∃ file, toolMain (Toy.tool Device.perfect) [cstr "cuttlefish", cstr "-i", cstr "a",
    cstr "-d", cstr "1", cstr "-f", cstr "R8", cstr "-o", cstr "a.ktx"] ⟨[[]], []⟩ =
      .ok (some 0, ⟨[[]], [(cstr "a.ktx", file)]⟩) ∧ parseKtx file = none := by
  have h : (match toolMain (Toy.tool Device.perfect) [cstr "cuttlefish", cstr "-i", cstr "a",
    cstr "-d", cstr "1", cstr "-f", cstr "R8", cstr "-o", cstr "a.ktx"] ⟨[[]], []⟩ with
      | .ok (some 0, ⟨d, [(n, file)]⟩) => decide (d = [[]] ∧ n = cstr "a.ktx") && (parseKtx file).isNone
      | _ => false) = true := by decide +kernel
  split at h
  · rename_i d n file hr
    simp only [Bool.and_eq_true, decide_eq_true_eq, Option.isNone_iff_eq_none] at h
    obtain ⟨⟨rfl, rfl⟩, h2⟩ := h
    exact ⟨file, hr, h2⟩
  · simp at h

end Cuttlefish
