import Verif.Proofs.LoadWithin
import Verif.Proofs.CommandInts
import Verif.Props.C34
import Verif.Props.C43
import Verif.Props.C50
import Verif.Props.C52
/-
C60: a run of the tool has no undefined behaviour: no read or write outside of an image, a surface or a list, no number
that does not fit, no shift that is too far; from the command line to the file.

Errors of the surroundings are covered: files that cannot be read, memory that FreeImage does not get, devices that stop
taking bytes, directories that cannot be made.
-/
namespace Cuttlefish
open Spec
variable {Img H σ : Type}

/-- Encoding an image is defined, for every format and type that has a converter and all options, if the sizes of the
surface are 32-bit numbers and the numbers in the pixels can be stored. -/
theorem C60_encode (X : Ext) (hX : CodecSizes X) (c : Features) (f : Format) (ty : TType) (k : Conv)
    (hk : createConverter c f ty = some k) (a : ConvArgs) (ha : a.format = f) (img : FImg)
    (hf : Fits f img.width img.height) (hp : ImageFits f ty img) : ∃ bytes, encodeImage X k a img = .ok bytes :=
  encode_some hX hk a ha hf hp

/-- Saving a converted texture is defined, for all file types and devices; for KTX the sizes of the surfaces must be
32-bit numbers.  (Sizes that do not fit the fields of the file are a matter of C20 to C22.) -/
theorem C60_save (X : Ext) (hX : CodecSizes X) (view : Img → FImg) (W : World Img) (t t' : Tex Img) (f : Format)
    (ty : TType) (hC : Conversion X view W t t' f ty) (ft : FileType)
    (hfit : ft = .KTX → ∀ w h, t'.widthAt 0 = .ok w → t'.heightAt 0 = .ok h → Fits f w h) (D : Device) (s : OStream) :
    ∃ r, t'.save D ft s = .ok r :=
  save_some hX hC hfit D s

/-- The tool is defined for the command lines of C34, whatever the state of the file system is, if

* loading the images is defined (see `C60_loader_partial`),
* the sizes of the surfaces are 32-bit numbers,
* custom mips of 3D textures are usable and have one replacement mode per level, and
* the numbers in the pixels of the texture can be stored in its format.

Partial: without these conditions the claim is false, see `C60_fails_…`, `C43_fails_mixed` and C34.  The methods of images
that the texture calls are total functions here; that they are called only where the methods of class `Image` are defined
is C63. -/
theorem C60_run_partial (E : ToolEnv Img H σ) (X : Ext) (hX : CodecSizes X) (view : Img → FImg)
    (hL : Lawful E.world.lib) (henc : E.world.enc = fun k a g => encodeImage X k a (view g))
    (hview : ∀ g, (view g).width = E.world.lib.width g ∧ (view g).height = E.world.lib.height g)
    (hsize : LoadsSmall E) (argv : List Str) (hne : argv ≠ []) (hargc : argv.length < 2 ^ 31)
    (hf : ∀ n content, E.cmd.files n = some content → content.length < 2 ^ 61)
    (hs : ∀ a ∈ argv, SmallNumber a) (hx : NoMix argv) (hl : SmallLevels argv)
    (hcount : ∀ c, parseCommandLine E.cmd argv = .ok (some (some c)) → c.images.length < 2 ^ 32)
    (hload : ∀ c, parseCommandLine E.cmd argv = .ok (some (some c)) → ∃ r, loadImages E c = .ok r)
    (hjob : ∀ c images custom, parseCommandLine E.cmd argv = .ok (some (some c)) →
      loadImages E c = .ok (some (images, custom)) →
      CustomFor E.world.lib c custom images.length ∧
      (∀ w h, w = E.world.lib.widthO images.head?.join → h = E.world.lib.heightO images.head?.join →
        0 < w → 0 < h → Fits c.format w h) ∧
      JobFits E.world view c images custom) (s : σ) :
    ∃ code s', toolMain E argv s = .ok (code, s') := by
  obtain ⟨r, e⟩ := C34_safe_partial E.cmd argv hne hargc hf hs hx hl
  unfold toolMain
  rw [e, Res.ok_bind]
  rcases r with _ | _ | c
  · exact ⟨_, _, rfl⟩
  · exact ⟨_, _, rfl⟩
  · dsimp only
    obtain ⟨l, el⟩ := hload c e
    rw [el, Res.ok_bind]
    cases l with
    | none => exact ⟨_, _, rfl⟩
    | some l =>
      obtain ⟨images, custom⟩ := l
      dsimp only
      obtain ⟨h1, h2, h3⟩ := hjob c images custom e el
      have hlen := loadImages_length el
      obtain ⟨r, er⟩ := saveTexture_defined hX hL henc hview (C33_job _ _ _ e) hlen (hlen ▸ hcount c e)
        (loadImages_size hsize el) h1 (fun a b => h2 _ _ rfl rfl a b) h3 s
      rw [er]
      exact ⟨_, _, rfl⟩

/-- The same for the loader of the tool, with IEEE arithmetic: loading the images needs no condition, but for normal maps
that the sizes that are asked for are positive and the pixels can be counted with 32 bits. -/
theorem C60_loader_partial (Lm : Libm) {FI : FreeImage Dbl} (F : LawfulFI (Arith.ieee Lm) FI)
    {read : Str → ColorSpace → Img? Dbl} (R : LoadsWell (Arith.ieee Lm) read) (E : ToolEnv (Image Dbl) Dbl σ)
    (hE : E.load = loadAndProcess (Arith.ieee Lm) FI read) (X : Ext) (hX : CodecSizes X)
    (hL : Lawful E.world.lib) (henc : E.world.enc = fun k a g => encodeImage X k a (asFloats g))
    (hS : ∀ g, E.world.lib.width g = g.bmp.width ∧ E.world.lib.height g = g.bmp.height)
    (argv : List Str) (hne : argv ≠ []) (hargc : argv.length < 2 ^ 31)
    (hf : ∀ n content, E.cmd.files n = some content → content.length < 2 ^ 61)
    (hs : ∀ a ∈ argv, SmallNumber a) (hx : NoMix argv) (hl : SmallLevels argv)
    (hcount : ∀ c, parseCommandLine E.cmd argv = .ok (some (some c)) → c.images.length < 2 ^ 32)
    (hnormal : ∀ c, parseCommandLine E.cmd argv = .ok (some (some c)) → c.normalMap = true →
      GivenSizes c ∧ ∀ p first, c.images.head? = some p → read p c.imageColorSpace = some first → ∀ w h,
      SizeFor first.bmp.width first.bmp.width first.bmp.height (sizeOfInt c.width) w →
      SizeFor first.bmp.height first.bmp.width first.bmp.height (sizeOfInt c.height) h → Counts (w, h))
    (hjob : ∀ c images custom, parseCommandLine E.cmd argv = .ok (some (some c)) →
      loadImages E c = .ok (some (images, custom)) →
      CustomFor E.world.lib c custom images.length ∧
      (∀ w h, w = E.world.lib.widthO images.head?.join → h = E.world.lib.heightO images.head?.join →
        0 < w → 0 < h → Fits c.format w h) ∧
      JobFits E.world asFloats c images custom) (s : σ) :
    ∃ code s', toolMain E argv s = .ok (code, s') := by
  refine C60_run_partial E X hX asFloats hL henc (fun g => ⟨(hS g).1.symm, (hS g).2.symm⟩)
    (loads_within (lawful_ieee Lm) F R hE hS) argv hne hargc hf hs hx hl hcount ?_ hjob s
  intro c hc
  have hv := C33_job _ _ _ hc
  obtain ⟨p, ps, hp⟩ := List.exists_cons_of_ne_nil hv.images
  refine C50_loads Lm F R hE (parse_ints hc) hp (fun hm => ⟨(hnormal c hc hm).1, fun first hr w h => ?_⟩)
  exact (hnormal c hc hm).2 p first (by rw [hp]; rfl) hr w h

namespace Toy

/-- A run with a turned image and mipmaps. -/
def turnArgs : List Str := ["cuttlefish", "-i", "a", "--rotate", "90", "-m", "-f", "R8G8B8A8", "-o", "a.pvr"].map cstr

/-- The channel is not NaN. -/
def numOk (w : Nat) : Bool := decide (w < 2 ^ 32) && decide (F32.ofBits w ≠ .nan)

/-- All channels of all pixels of the image can be stored as 8-bit values. -/
def allOk (i : FImg) : Bool :=
  (List.range i.width).all fun x => (List.range i.height).all fun y =>
    let p := i.px x y
    numOk p.r && numOk p.g && numOk p.b && numOk p.a

/-- The same for a texture. -/
def texOk (t : Tex (Image Dbl)) : Bool :=
  t.all fun i => i.images.all fun l => l.all fun s => s.all fun o => o.all fun g => allOk (asFloats g)

/-- What the example needs to know of the job and its images. -/
def turnOk : Bool :=
  match parseCommandLine imageTool.cmd turnArgs with
  | .ok (some (some c)) =>
    decide (c.images.length = 1) && !c.normalMap && decide (c.format = .R8G8B8A8) && decide (c.type = .UNorm) &&
    decide (c.dimension ≠ .Dim3D) && decide (3 ≤ c.mipLevels) &&
    (match loadImages imageTool c with
    | .ok (some (images, custom)) =>
      decide (imageLib.widthO images.head?.join = 2) && decide (imageLib.heightO images.head?.join = 3) &&
      (match run imageTool.world none (makeOps imageLib c images custom) with
      | .ok (_, t) => texOk t
      | .ub => false)
    | _ => false)
  | _ => false

theorem turn_ok : turnOk = true := by decide +kernel

end Toy

/-- The conditions of `C60_loader_partial` can be met: an image is turned, its mipmaps are made, and the file is
written. -/
example (s : Toy.Files) : ∃ code s', toolMain Toy.imageTool Toy.turnArgs s = .ok (code, s') := by
  have key := Toy.turn_ok
  unfold Toy.turnOk at key
  have small : ∀ a ∈ Toy.turnArgs, (strtoulAll a).all (fun v => decide (v < 2 ^ 61)) = true := by decide +kernel
  refine C60_loader_partial Toy.libm Toy.converts_lawful Toy.readAB_ok Toy.imageTool rfl Toy.ext Toy.ext_sizes
    Toy.imageLib_lawful rfl (fun _ => ⟨rfl, rfl⟩) Toy.turnArgs (by decide) (by decide) ?_ ?_ (.inl ?_) (.inl ?_) ?_ ?_
    ?_ s
  · intro n content h
    cases h
  · intro a ha v hv
    have := small a ha
    rw [hv] at this
    simpa using this
  · unfold Uses; decide +kernel
  · decide +kernel
  · intro c hc
    rw [hc] at key
    simp only [Bool.and_eq_true, decide_eq_true_eq] at key
    have := key.1.1.1.1.1.1
    omega
  · intro c hc hn
    rw [hc] at key
    simp only [Bool.and_eq_true, hn] at key
    simp at key
  · intro c images custom hc hl
    rw [hc] at key
    simp only [hl, Bool.and_eq_true, decide_eq_true_eq] at key
    obtain ⟨⟨⟨⟨⟨⟨-, -⟩, k3⟩, k4⟩, k5⟩, -⟩, ⟨k7, k8⟩, k9⟩ := key
    refine ⟨fun h => absurd h k5, ?_, ?_⟩
    · rintro w h rfl rfl - -
      change Fits _ (Toy.imageLib.widthO _) (Toy.imageLib.heightO _)
      rw [k3, k7, k8]
      refine ⟨by decide, by decide, ?_⟩
      simp only [layout]
      decide
    · intro outs t hr g ⟨i, hi, l, hl1, sl, hs1, hg⟩
      change run Toy.imageTool.world none (makeOps Toy.imageLib c images custom) = _ at hr
      rw [hr] at k9
      subst hi
      simp only [Toy.texOk, Option.all_some, List.all_eq_true] at k9
      have := k9 l hl1 sl hs1 _ hg
      simp only [Option.all_some, Toy.allOk, List.all_eq_true, List.mem_range, Bool.and_eq_true] at this
      refine ⟨fun e => absurd (k3 ▸ e) (by decide), ?_⟩
      intro x y hx hy
      obtain ⟨⟨⟨a1, a2⟩, a3⟩, a4⟩ := this x hx y hy
      have one (w n : ℕ) (h : Toy.numOk w = true) : Storable .UNorm n w := by
        simp only [Toy.numOk, Bool.and_eq_true, decide_eq_true_eq] at h
        exact ⟨h.1, h.2, fun e => (by cases e), fun e => (by cases e)⟩
      rw [k3, k4]
      simp only [PixelFits, layout, List.forall_mem_cons]
      exact ⟨one _ _ a1, one _ _ a2, one _ _ a3, one _ _ a4, by simp⟩

namespace Toy

/-- The small tool with images of another size or with other numbers. -/
def loads (w h : ℕ) (bits : ℕ) : ToolEnv Toy.Img Unit Files :=
  { tool Device.perfect with
    load := fun _ _ _ _ _ => .ok (some (some ⟨w, h, true, .Linear, [bits]⟩, w, h)) }

end Toy

/-- The condition on the numbers is needed: a pixel that is NaN, as in floating point images, is converted to an
integer, which is undefined. -/
theorem C60_fails_nan : toolMain (Toy.loads 1 1 0x7FC00000) [cstr "cuttlefish", cstr "-i", cstr "a", cstr "-f",
    cstr "R8", cstr "-o", cstr "a.pvr"] ⟨[[]], []⟩ = .ub := by
  decide +kernel

/-- So is the upper bound: a pixel of 2^32 in a texture of 32-bit integers. -/
theorem C60_fails_large_number : toolMain (Toy.loads 1 1 0x4F800000) [cstr "cuttlefish", cstr "-i", cstr "a", cstr "-f",
    cstr "R32", cstr "-t", cstr "uint", cstr "-o", cstr "a.pvr"] ⟨[[]], []⟩ = .ub := by
  decide +kernel

/-- The condition on the sizes is needed: with 65536 x 65536 pixels the size of the surface wraps around to 0, and saving
reads outside of it. -/
theorem C60_fails_size : toolMain (Toy.loads 65536 65536 0x3F800000) [cstr "cuttlefish", cstr "-i", cstr "a",
    cstr "-f", cstr "R8", cstr "-o", cstr "a.ktx"] ⟨[[]], []⟩ = .ub := by
  decide +kernel

/-- The largest single precision number below it is fine. -/
example : toolMain (Toy.loads 1 1 0x4F7FFFFF) [cstr "cuttlefish", cstr "-i", cstr "a", cstr "-f",
    cstr "R32", cstr "-t", cstr "uint", cstr "-o", cstr "a.pvr"] ⟨[[]], []⟩ ≠ .ub := by
  decide +kernel

end Cuttlefish
