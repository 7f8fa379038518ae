import Verif.Proofs.ToolUnit
import Verif.Props.C60
import Verif.Props.C65
/-
C60 with the modelled images and IEEE arithmetic, for images with colours from 0 to 1: every part of the tool that is
modelled is put together.
-/
namespace Cuttlefish
open Spec
variable {σ : Type}

theorem native_unorm {f : Format} {ty : TType} (h : hasNativeSRGB f ty = true) : ty = .UNorm := by
  unfold hasNativeSRGB at h
  split at h <;> simp_all

theorem no_customs {E : ToolEnv (Image Dbl) Dbl σ} {c : Cmd Dbl} (hc : c.customMips = [])
    {images : List (Option (Image Dbl))} {custom : CustomMips (Image Dbl)}
    (e : loadImages E c = .ok (some (images, custom))) : custom = [] := by
  simp only [loadImages, Res.bind_eq_ok] at e
  obtain ⟨o, ho, e⟩ := e
  cases o with
  | none => simp at e
  | some o =>
    simp only [Res.bind_eq_ok] at e
    obtain ⟨q, hq, e⟩ := e
    rw [hc] at hq
    cases q with
    | none => simp at e
    | some q =>
      cases hq
      simp only [Res.ok.injEq, Option.some.injEq, Prod.mk.injEq] at e
      exact e.2.symm

/-- A run of the tool has no undefined behaviour: the command line is parsed, the images are loaded and processed, the
texture is made with the methods of the class `Image`, converted and saved, for every file system, if

* the external libraries are as expected: FreeImage (`LawfulFI`, `EnoughMemory`, `CanResize`, and that it does not leave
  the range of the values), `pow`, `sqrt`, the codecs, and the loader, whose images have colours from 0 to 1,
* the arguments are within the limits of C34,
* for normal maps the height is finite and at most 2^64, and the sizes that are asked for are positive (`RangeJob`),
* the pixels of the images can be counted with 32 bits (for PVRTC with 30 bits), and the bytes of the surfaces too, and
* custom mips of one level of a 3D texture have the same replacement mode, and are not normal maps.

Partial: without the conditions on the job the claim is false, see `C60_fails_…`, `C43_fails_mixed` and C34. -/
theorem C60_images_partial (Lm : Libm) (P : UnitPow Lm) {FI : FreeImage Dbl} (F : LawfulFI (Arith.ieee Lm) FI)
    (M : EnoughMemory FI) (C : ∀ filter, CanResize FI filter) (U : UnitConvert Lm FI)
    (Q : RoundedSqrt Lm) (RC : ∀ c : Cmd Dbl, RangeConvert Lm FI (jobRange c).1 (jobRange c).2) {read : Str → ColorSpace → Img? Dbl} (R : LoadsWell (Arith.ieee Lm) read) (E : ToolEnv (Image Dbl) Dbl σ)
    (hE : E.load = loadAndProcess (Arith.ieee Lm) FI read) (X : Ext) (hX : CodecSizes X)
    (hL : UsesImages (Arith.ieee Lm) FI E.world.lib) (henc : E.world.enc = fun k a g => encodeImage X k a (asFloats g))
    (argv : List Str) (hne : argv ≠ []) (hargc : argv.length < 2 ^ 31)
    (hf : ∀ n content, E.cmd.files n = some content → content.length < 2 ^ 61)
    (hs : ∀ a ∈ argv, SmallNumber a) (hx : NoMix argv) (hl : SmallLevels argv)
    (hjob : ∀ c, parseCommandLine E.cmd argv = .ok (some (some c)) →
      RangeJob Lm FI read c ∧ c.images.length < 2 ^ 31 ∧ c.customMips.length < 2 ^ 32 ∧
      (c.dimension = .Dim3D → ∀ e ∈ c.customMips, ∀ e' ∈ c.customMips, e.1.mipLevel = e'.1.mipLevel → e.2.2 = e'.2.2) ∧
      (c.normalMap = true → c.dimension = .Dim3D → c.customMips = []))
    (hsize : ∀ c images custom, parseCommandLine E.cmd argv = .ok (some (some c)) →
      loadImages E c = .ok (some (images, custom)) →
      (∀ g, some g ∈ images → Spec.Countable g) ∧
      (∀ m ∈ custom, ∀ g, m.2.image = some (some g) → Spec.Countable g) ∧
      ∀ g, images.head? = some (some g) → Fits c.format g.bmp.width g.bmp.height ∧
        (isPvrtc c.format = true → g.bmp.width * g.bmp.height ≤ 2 ^ 30)) (s : σ) :
    ∃ code s', toolMain E argv s = .ok (code, s') := by
  have hU := imageLib_uses (lawful_ieee Lm) F M C
  have hA := imageLib_lawful (Arith.ieee Lm) FI
  -- the images of the texture are those of a library that is known everywhere
  have same := C63_tool_partial Lm F M R E hE E.world.lib (imageLib (Arith.ieee Lm) FI) hL hU argv
    (fun c images custom hp el => by
      obtain ⟨s1, s2, -⟩ := hsize c images custom hp el
      exact ⟨(loadImages_length el).trans_lt (hjob c hp).2.1, s1, s2⟩) s
  have same : toolMain E argv s = toolMain (toolWith E (imageLib (Arith.ieee Lm) FI)) argv s := same
  rw [same]
  refine C60_loader_partial Lm F R (toolWith E (imageLib (Arith.ieee Lm) FI)) hE X hX hA henc (fun g => ⟨rfl, rfl⟩)
    argv hne hargc hf hs hx hl (fun c hp => (hjob c hp).2.1.trans (by norm_num)) (fun c hp hn => ?_)
    (fun c images custom hp el => ?_) s
  · exact ((hjob c hp).1.sizes hn).2
  · obtain ⟨J, j1, j2, j3, j4⟩ := hjob c hp
    have hV := C33_job _ _ _ hp
    -- only textures of unsigned normalised values are not linear
    have hspace : c.type = .UNorm ∨ c.textureColorSpace = .Linear := by
      cases ht : c.textureColorSpace with
      | Linear => exact Or.inr rfl
      | sRGB => exact Or.inl (native_unorm (hV.srgb ht))
    have el' : loadImages E c = .ok (some (images, custom)) := by rw [← loadImages_with (L := imageLib (Arith.ieee Lm) FI)]; exact el
    obtain ⟨s1, s2, s3⟩ := hsize c images custom hp el'
    have hlen := loadImages_length el'
    have hcf : CustomFor (imageLib (Arith.ieee Lm) FI) c custom images.length := by
      by_cases hn : c.normalMap = true
      · intro hd
        obtain rfl := no_customs (j4 hn hd) el'
        exact ⟨fun e he => (by cases he), fun m _ => Or.inl fun d _ => rfl⟩
      · exact tool_customFor F M R hE hp (C _) (by simpa using hn) (j1.trans (by norm_num)) j2 j3 el'
    have hhead : ∀ g, images.head?.join = some g → images.head? = some (some g) := by
      intro g hg
      cases hh : images.head? with
      | none => rw [hh] at hg; cases hg
      | some o =>
        rw [hh] at hg
        have : o = some g := hg
        rw [this]
    have hmem : ∀ g, images.head?.join = some g → some g ∈ images := fun g hg => by
      have := hhead g hg
      exact List.mem_of_mem_head? (by rw [this]; rfl)
    refine ⟨hcf, ?_, ?_⟩
    · rintro w h rfl rfl hw hh
      cases hg : images.head?.join with
      | none =>
        rw [hg] at hw
        cases hw
      | some g => exact (s3 g (hhead g hg)).1
    · intro outs t er g hg
      refine ⟨fun hpv => ?_, fun x y hx hy => ?_⟩
      · have hb : (imageLib (Arith.ieee Lm) FI).widthO images.head?.join < 2 ^ 32 ∧
            (imageLib (Arith.ieee Lm) FI).heightO images.head?.join < 2 ^ 32 := by
          cases hg : images.head?.join with
          | none => exact ⟨by norm_num [ImageLib.widthO], by norm_num [ImageLib.heightO]⟩
          | some g =>
            obtain ⟨-, -, h1, h2, -⟩ := s1 g (hmem g hg)
            exact ⟨h1.trans (by norm_num), h2.trans (by norm_num)⟩
        obtain ⟨b1, b2⟩ := job_sizes (W := (toolWith E (imageLib (Arith.ieee Lm) FI)).world) hA (C33_job _ _ _ hp) hlen
          ((hlen.trans_lt j1).trans (by norm_num)) hb hcf er hg
        refine (Nat.mul_le_mul b1 b2).trans ?_
        show (imageLib (Arith.ieee Lm) FI).widthO images.head?.join * (imageLib (Arith.ieee Lm) FI).heightO images.head?.join ≤ _
        cases hg : images.head?.join with
        | none => norm_num [ImageLib.widthO]
        | some g => exact (s3 g (hhead g hg)).2 hpv
      · exact C65_storable Lm P U F M R (toolWith E (imageLib (Arith.ieee Lm) FI)) hE hU c (fun _ => Q) (RC c) J hspace images custom el
          (hlen.trans_lt j1) s1 s2 outs t er g hg x y hx hy

/-- The jobs of C65 meet the conditions: they turn an image, give it signed values or make a normal map of it, and make
mipmaps. -/
theorem range_defined {ty : TType} {nm : Bool} {argv : List Str} (key : Toy.rangeOk ty nm argv = true) (hne : argv ≠ [])
    (hargc : argv.length < 2 ^ 31)
    (small : ∀ a ∈ argv, (strtoulAll a).all (fun v => decide (v < 2 ^ 61)) = true) (hx : NoMix argv) (hl : SmallLevels argv)
    (s : Toy.Files) : ∃ code s', toolMain Toy.rangeTool argv s = .ok (code, s') := by
  have key' := key
  unfold Toy.rangeOk at key
  refine C60_images_partial Toy.both Toy.both_pow (Toy.nearest_lawful _) Toy.nearest_memory Toy.nearest_resizes
    (Toy.nearest_converts _) Toy.both_sqrt (fun c => Toy.nearest_convert_range _ (job_bounds c).zero (job_bounds c).one)
    Toy.readAB_both Toy.rangeTool rfl Toy.ext Toy.ext_sizes (Toy.libWith_uses _ _ _) rfl
    argv hne hargc ?_ ?_ hx hl ?_ ?_ s
  · intro n content h
    cases h
  · intro a ha v hv
    have := small a ha
    rw [hv] at this
    simpa using this
  · intro c hc
    have J := Toy.range_job key' hc
    rw [hc] at key
    simp only [Bool.and_eq_true, decide_eq_true_eq, List.isEmpty_iff] at key
    obtain ⟨⟨⟨⟨⟨⟨⟨⟨⟨⟨⟨⟨k1, -⟩, -⟩, -⟩, k3⟩, k2⟩, -⟩, -⟩, -⟩, -⟩, -⟩, -⟩, -⟩ := key
    refine ⟨J, by rw [k1]; simp, by rw [k2]; norm_num, fun _ e he => (by rw [k2] at he; cases he), fun _ _ => k2⟩
  · intro c images custom hc hl
    rw [hc] at key
    simp only [hl, Bool.and_eq_true, decide_eq_true_eq, List.isEmpty_iff, List.all_eq_true] at key
    obtain ⟨⟨⟨⟨⟨⟨⟨⟨⟨⟨⟨⟨-, -⟩, f1⟩, -⟩, -⟩, -⟩, -⟩, -⟩, -⟩, -⟩, -⟩, -⟩, ⟨⟨k1, k2⟩, -⟩, -⟩ := key
    have size : ∀ g, some g ∈ images → g.bmp.width = 2 ∧ g.bmp.height = 3 := fun g hg => by
      have := k1 _ hg
      simpa only [Option.all_some, Bool.and_eq_true, decide_eq_true_eq] using this
    refine ⟨fun g hg => ?_, fun m hm => (by rw [k2] at hm; cases hm), fun g hg => ?_⟩
    · obtain ⟨h1, h2⟩ := size g hg
      refine ⟨by omega, by omega, by omega, by omega, ?_⟩
      rw [h1, h2]
      norm_num
    · obtain ⟨h1, h2⟩ := size g (List.mem_of_mem_head? (by rw [hg]; rfl))
      rw [h1, h2, f1]
      refine ⟨⟨by decide, by decide, ?_⟩, fun h => by cases h⟩
      simp only [layout]
      decide

example (s : Toy.Files) : ∃ code s', toolMain Toy.rangeTool Toy.snormArgs s = .ok (code, s') := by
  refine range_defined Toy.snorm_ok (by decide) (by decide) (by decide +kernel) (.inl ?_) (.inl ?_) s
  · unfold Uses; decide +kernel
  · decide +kernel

example (s : Toy.Files) : ∃ code s', toolMain Toy.rangeTool Toy.normalArgs s = .ok (code, s') := by
  refine range_defined Toy.normal_ok (by decide) (by decide) (by decide +kernel) (.inl ?_) (.inl ?_) s
  · unfold Uses; decide +kernel
  · decide +kernel

end Cuttlefish
