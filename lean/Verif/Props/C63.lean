import Verif.Proofs.ToolImages
import Verif.Spec.Defined
import Verif.Props.C60
/-
C63: textures use the methods of images only where these are defined.

In the model of textures the methods of images are total functions that are known only where the modelled methods of the
class `Image` have a result (`UsesImages`).  For the rest they can return anything.  The theorems say that this does not
matter: whatever they return there, all calls have the same outcome, so no call gets there.
-/
namespace Cuttlefish
open Spec
variable {σ : Type}

/-- All lists of calls on a texture have the same outcome with any two image libraries that are the class `Image` where
its methods are defined, in IEEE arithmetic, if FreeImage gets its memory and the arguments are images and sizes as in
`ImageCall`.

Partial: other arguments do reach undefined methods (`C63_fails_bad`). -/
theorem C63_images_partial (Lm : Libm) {FI : FreeImage Dbl} (F : LawfulFI (Arith.ieee Lm) FI) (M : EnoughMemory FI)
    (W : World (Image Dbl)) (L L' : ImageLib (Image Dbl)) (hL : UsesImages (Arith.ieee Lm) FI L)
    (hL' : UsesImages (Arith.ieee Lm) FI L') (ops : List (Op (Image Dbl)))
    (ho : ∀ o ∈ ops, ImageCall (Arith.ieee Lm) o) :
    run (withImages W L) none ops = run (withImages W L') none ops :=
  (run_agrees F M W hL hL' (fun i e => by cases e) ho).1

/-- After such calls every image in the texture has four floats of single precision in every pixel, and its pixels can be
counted with 32 bits. -/
theorem C63_stored_partial (Lm : Libm) {FI : FreeImage Dbl} (F : LawfulFI (Arith.ieee Lm) FI) (M : EnoughMemory FI)
    (W : World (Image Dbl)) (hL : UsesImages (Arith.ieee Lm) FI W.lib) (ops : List (Op (Image Dbl)))
    (ho : ∀ o ∈ ops, ImageCall (Arith.ieee Lm) o) (outs : List (Out (Image Dbl))) (t : Tex (Image Dbl))
    (e : run W none ops = .ok (outs, t)) (g : Image Dbl) (hg : Stores t g) :
    g.format = .RGBAF ∧ ImgOk (Arith.ieee Lm) g ∧ Spec.Countable g := by
  have := (run_agrees F M W hL hL (fun i e => by cases e) ho).2 _ e
  obtain ⟨i, rfl, level, h1, slice, h2, h3⟩ := hg
  have := (this i rfl).all level h1 slice h2 _ h3 g rfl
  exact ⟨this.2.1, this.1.1, this.2.2⟩

/-- The same for the tool with its own loader: its exit code and all files are the same with any two such image
libraries, if the pixels of the loaded images can be counted with 32 bits. -/
theorem C63_tool_partial (Lm : Libm) {FI : FreeImage Dbl} (F : LawfulFI (Arith.ieee Lm) FI) (M : EnoughMemory FI)
    {read : Str → ColorSpace → Img? Dbl} (R : LoadsWell (Arith.ieee Lm) read) (E : ToolEnv (Image Dbl) Dbl σ)
    (hE : E.load = loadAndProcess (Arith.ieee Lm) FI read) (L L' : ImageLib (Image Dbl))
    (hL : UsesImages (Arith.ieee Lm) FI L) (hL' : UsesImages (Arith.ieee Lm) FI L') (argv : List Str)
    (hcount : ∀ c images custom, parseCommandLine E.cmd argv = .ok (some (some c)) →
      loadImages E c = .ok (some (images, custom)) →
      images.length < 2 ^ 31 ∧ (∀ g, some g ∈ images → Spec.Countable g) ∧
      ∀ e ∈ custom, ∀ g, e.2.image = some (some g) → Spec.Countable g) (s : σ) :
    toolMain (toolWith E L) argv s = toolMain (toolWith E L') argv s := by
  unfold toolMain
  show (parseCommandLine E.cmd argv >>= _) = (parseCommandLine E.cmd argv >>= _)
  cases hp : parseCommandLine E.cmd argv with
  | ub => rfl
  | ok r =>
    simp only [Res.ok_bind]
    rcases r with _ | _ | c
    · rfl
    · rfl
    · dsimp only
      rw [loadImages_with, loadImages_with]
      cases hl : loadImages E c with
      | ub => rfl
      | ok l =>
        simp only [Res.ok_bind]
        rcases l with _ | ⟨images, custom⟩
        · rfl
        · obtain ⟨h1, h2, h3⟩ := hcount c images custom hp hl
          obtain ⟨k1, k2⟩ := loadImages_ok F R hE hl
          dsimp only
          rw [saveTexture_agrees F M hL hL' c (fun g hg => ⟨⟨(k1 g hg).1, (h2 g hg).1, (h2 g hg).2.1⟩, h2 g hg⟩) h1
            (fun e he g hg => ⟨⟨(k2 e he g hg).1, (h3 e he g hg).1, (h3 e he g hg).2.1⟩, ?_, h3 e he g hg⟩) s]
          have := (k2 e he g hg).2
          simp only [floats, List.mem_cons, List.not_mem_nil, or_false] at this
          unfold IsFloat
          tauto

namespace Toy

/-- The class `Image`, with some image as the result where a method is not defined. -/
def libWith {N : Type} (A : Arith N) (FI : FreeImage N) (junk : Image N) : ImageLib (Image N) where
  width i := i.bmp.width
  height i := i.bmp.height
  isRGBAF i := decide (i.format = .RGBAF)
  colorSpace i := i.colorSpace
  toRGBAF i := match i.convert A FI .RGBAF true with
    | .ok r => r
    | .ub => some junk
  changeColorSpace i cs := match i.changeColorSpace A cs with
    | .ok j => j
    | .ub => junk
  resize i w h filter := match i.resize A FI w h filter with
    | .ok r => r
    | .ub => some junk
  mip3d prev w h depth d cs filter := match mipSlice3d A FI prev w h depth cs filter d with
    | .ok j => j
    | .ub => junk

theorem libWith_uses {N : Type} (A : Arith N) (FI : FreeImage N) (junk : Image N) :
    UsesImages A FI (libWith A FI junk) :=
  ⟨fun _ => rfl, fun _ => rfl, fun _ => rfl, fun _ => rfl, fun _ _ _ e => by simp only [libWith, e],
    fun _ _ _ _ e => by simp only [libWith, e], fun _ _ _ _ _ _ e => by simp only [libWith, e],
    fun _ _ _ _ _ _ _ _ _ e => by simp only [libWith, e]⟩

/-- This library with the arithmetic and the FreeImage of the examples. -/
def junkLib (junk : Image Dbl) : ImageLib (Image Dbl) := libWith (Arith.ieee libm) converts junk

theorem junkLib_uses (junk : Image Dbl) : UsesImages (Arith.ieee libm) converts (junkLib junk) := libWith_uses _ _ _

/-- An image of floats that has pixels of integers. -/
def bad : Image Dbl := ⟨.RGBAF, .Linear, ⟨2, 2, fun _ _ => .ints []⟩⟩

/-- The widths of all images of a texture. -/
def widths : Res (List (Out (Image Dbl)) × Tex (Image Dbl)) → List (List (List (Option ℕ)))
  | .ok (_, some i) => i.images.map fun l => l.map fun s => s.map fun o => o.map fun g => g.bmp.width
  | _ => []

/-- Calls that make the mipmaps of a 3D texture of sRGB images. -/
def calls3d : List (Op (Image Dbl)) :=
  [.initialize .Dim3D 3 2 2 2 .sRGB, .setImage (some rgba) false none 0 0, .setImage (some rgba) true none 0 1,
    .generateMipmaps .Linear 2 [], .getImage none 1 0]

end Toy

/-- The libraries of these theorems can be different: methods of images that are not valid have any result. -/
example : UsesImages (Arith.ieee Toy.libm) Toy.converts (Toy.junkLib Toy.rgba) ∧
    UsesImages (Arith.ieee Toy.libm) Toy.converts (Toy.junkLib Toy.bad) ∧
    (Toy.junkLib Toy.rgba).resize Toy.bad 1 1 .Box ≠
      (Toy.junkLib Toy.bad).resize Toy.bad 1 1 .Box :=
  ⟨Toy.junkLib_uses _, Toy.junkLib_uses _, by
    intro h
    have : ((Toy.junkLib Toy.rgba).resize Toy.bad 1 1 .Box).map (·.bmp.width) =
      ((Toy.junkLib Toy.bad).resize Toy.bad 1 1 .Box).map (·.bmp.width) := by rw [h]
    revert this
    decide +kernel⟩

theorem converts_memory : EnoughMemory Toy.converts :=
  ⟨fun f w h hf => by simp [Toy.converts, Toy.fi, hf], fun b => by simp [Toy.converts, Toy.fi]⟩

theorem calls3d_ok : ∀ o ∈ Toy.calls3d, ImageCall (Arith.ieee Toy.libm) o := by
  intro o ho
  simp only [Toy.calls3d, List.mem_cons, List.not_mem_nil, or_false] at ho
  rcases ho with rfl | rfl | rfl | rfl | rfl
  · exact ⟨by norm_num [Counts], fun _ => by norm_num⟩
  · intro g e
    cases e
    exact ⟨Toy.rgba_ok _, by norm_num [Toy.rgba], by norm_num [Toy.rgba]⟩
  · intro g e
    cases e
    exact ⟨Toy.rgba_ok _, by norm_num [Toy.rgba], by norm_num [Toy.rgba]⟩
  · intro e h
    cases h
  · trivial

/-- The calls meet the conditions of `C63_images_partial` and `C63_stored_partial`. -/
example (W : World (Image Dbl)) (junk : Image Dbl) :
    run (withImages W (Toy.junkLib junk)) none Toy.calls3d =
      run (withImages W (Toy.junkLib Toy.rgba)) none Toy.calls3d :=
  C63_images_partial Toy.libm Toy.converts_lawful converts_memory W _ _ (Toy.junkLib_uses _) (Toy.junkLib_uses _) _
    calls3d_ok

/-- The job of C60 with a turned image and mipmaps meets the conditions of `C63_tool_partial`. -/
example (junk : Image Dbl) (s : Toy.Files) :
    toolMain (toolWith Toy.imageTool (Toy.junkLib junk)) Toy.turnArgs s =
      toolMain (toolWith Toy.imageTool (Toy.junkLib Toy.rgba)) Toy.turnArgs s := by
  have key : (match parseCommandLine Toy.imageTool.cmd Toy.turnArgs with
    | .ok (some (some c)) =>
      match loadImages Toy.imageTool c with
      | .ok (some (images, custom)) => decide (images.length = 1) && custom.isEmpty &&
          images.all fun o => o.all fun g => decide (g.bmp.width = 2) && decide (g.bmp.height = 3)
      | _ => false
    | _ => false) = true := by decide +kernel
  refine C63_tool_partial Toy.libm Toy.converts_lawful converts_memory Toy.readAB_ok Toy.imageTool rfl _ _
    (Toy.junkLib_uses _) (Toy.junkLib_uses _) _ (fun c images custom hc hl => ?_) s
  rw [hc] at key
  simp only [hl, Bool.and_eq_true, decide_eq_true_eq, List.isEmpty_iff, List.all_eq_true] at key
  obtain ⟨⟨k1, k2⟩, k3⟩ := key
  refine ⟨by omega, fun g hg => ?_, fun e he => by rw [k2] at he; cases he⟩
  have := k3 _ hg
  simp only [Option.all_some, Bool.and_eq_true, decide_eq_true_eq] at this
  refine ⟨by omega, by omega, by omega, by omega, ?_⟩
  rw [this.1, this.2]
  norm_num

/-- The condition on the arguments is needed: with an image that has no valid pixels the two libraries differ. -/
theorem C63_fails_bad : run (withImages Toy.imageTool.world (Toy.junkLib Toy.rgba)) none
      [.initialize .Dim2D 2 2 1 2 .Linear, .setImage (some Toy.bad) false none 0 0, .generateMipmaps .Box 2 []] ≠
    run (withImages Toy.imageTool.world (Toy.junkLib Toy.bad)) none
      [.initialize .Dim2D 2 2 1 2 .Linear, .setImage (some Toy.bad) false none 0 0, .generateMipmaps .Box 2 []] := by
  intro h
  have : ∀ x y : Res (List (Out (Image Dbl)) × Tex (Image Dbl)), x = y →
      Toy.widths x = Toy.widths y := by
    rintro x _ rfl
    rfl
  have := this _ _ h
  revert this
  decide +kernel

end Cuttlefish
