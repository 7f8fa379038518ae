import Verif.Proofs.RangeProcess
import Verif.Proofs.UnitFits
import Verif.Props.C64
/-
C65: the values of the texture that the tool makes are in the range of its type, with rounding.
-/
namespace Cuttlefish
open Spec
variable {σ : Type}

/-- If all images that are given to a linear texture have values in a range, then after any list of calls all its images
have values in this range: those of generated mip levels too, and the numbers that are 0 or 1 because a channel is missing.
The range is from 0 or a negative power of two to a power of two, as [0, 1], [-1, 1], [0, 2^16] and [-2^15, 2^15]. -/
theorem C65_stored (Lm : Libm) {FI : FreeImage Dbl} {lo hi : ℚ} (B : PowerRange lo hi) (C : RangeConvert Lm FI lo hi)
    (F : LawfulFI (Arith.ieee Lm) FI) (M : EnoughMemory FI) (W : World (Image Dbl))
    (hL : UsesImages (Arith.ieee Lm) FI W.lib) (ops : List (Op (Image Dbl)))
    (ho : ∀ o ∈ ops, ImageCall (Arith.ieee Lm) o ∧ RangeCall Lm FI lo hi o) (outs : List (Out (Image Dbl)))
    (t : Tex (Image Dbl)) (e : run W none ops = .ok (outs, t)) (g : Image Dbl) (hg : Stores t g) :
    RangeImage Lm lo hi g := by
  have := (run_agrees_with (kept_range (power_bounds B) C F) F M W hL hL (t := none) (fun i e => by cases e)
    (fun o h => ⟨(ho o h).1, by have := (ho o h).2; cases o <;> exact this⟩)).2 _ e
  obtain ⟨i, rfl, level, h1, slice, h2, h3⟩ := hg
  exact ((this i rfl).all level h1 slice h2 _ h3 g rfl).2.1

/-- All images that the tool makes of images with colours from 0 to 1 have values in the range of the type of the texture.
Normal maps are included. -/
theorem C65_loaded (Lm : Libm) (P : UnitPow Lm) {FI : FreeImage Dbl} (C : UnitConvert Lm FI)
    (F : LawfulFI (Arith.ieee Lm) FI) {read : Str → ColorSpace → Img? Dbl} (R : LoadsWell (Arith.ieee Lm) read)
    (E : ToolEnv (Image Dbl) Dbl σ) (hE : E.load = loadAndProcess (Arith.ieee Lm) FI read) (c : Cmd Dbl)
    (Q : c.normalMap = true → RoundedSqrt Lm) (J : RangeJob Lm FI read c)
    (hs : c.type = .UNorm ∨ c.textureColorSpace = .Linear) (images : List (Option (Image Dbl)))
    (custom : CustomMips (Image Dbl)) (e : loadImages E c = .ok (some (images, custom))) :
    (∀ g, some g ∈ images → RangeImage Lm (jobRange c).1 (jobRange c).2 g) ∧
      ∀ m ∈ custom, ∀ g, m.2.image = some (some g) → RangeImage Lm (jobRange c).1 (jobRange c).2 g := by
  obtain ⟨h1, h2⟩ := loadImages_range P C F R hE J Q hs e
  exact ⟨fun g hg => (h1 g hg).1, fun m hm g hg => (h2 m hm g hg).1⟩

/-- The calls by which the tool makes a texture. -/
theorem job_calls {Lm : Libm} {FI : FreeImage Dbl} (F : LawfulFI (Arith.ieee Lm) FI)
    {read : Str → ColorSpace → Img? Dbl} (R : LoadsWell (Arith.ieee Lm) read) {E : ToolEnv (Image Dbl) Dbl σ}
    (hE : E.load = loadAndProcess (Arith.ieee Lm) FI read) (hL : UsesImages (Arith.ieee Lm) FI E.world.lib)
    {c : Cmd Dbl} {images : List (Option (Image Dbl))} {custom : CustomMips (Image Dbl)}
    (e : loadImages E c = .ok (some (images, custom))) (hn : images.length < 2 ^ 31)
    (hi : ∀ g, some g ∈ images → Spec.Countable g) (hc : ∀ m ∈ custom, ∀ g, m.2.image = some (some g) → Spec.Countable g)
    {U : Image Dbl → Prop} {Fl : ResizeFilter → Prop} {S : ColorSpace → Prop} (hS : S c.textureColorSpace)
    (hF : Fl c.mipFilter) (u1 : ∀ g, some g ∈ images → U g) (u2 : ∀ m ∈ custom, ∀ g, m.2.image = some (some g) → U g) :
    ∀ o ∈ makeOps E.world.lib c images custom, ImageCall (Arith.ieee Lm) o ∧ CallKept U Fl S o := by
  intro o ho
  obtain ⟨k1, k2⟩ := loadImages_ok F R hE e
  simp only [makeOps, jobOps, List.dropLast_concat, List.mem_append, List.mem_cons] at ho
  rcases ho with (rfl | ho) | ho
  · refine ⟨⟨?_, fun _ => ?_⟩, hS⟩
    · cases hh : images.head?.join with
      | none => simp [ImageLib.widthO, ImageLib.heightO, Counts]
      | some g =>
        have hm : some g ∈ images := by
          cases images with
          | nil => cases hh
          | cons a as =>
            have : a = some g := hh
            rw [this]
            exact List.mem_cons_self
        obtain ⟨-, -, h1, h2, h3⟩ := hi g hm
        simp only [ImageLib.widthO, ImageLib.heightO, hL.width, hL.height]
        exact ⟨h1, h2, h3⟩
    · unfold layers
      split
      · norm_num
      · norm_num
      · exact hn
      · omega
  · obtain ⟨z, hz, rfl⟩ := List.mem_map.1 ho
    have hm := List.fst_mem_of_mem_zipIdx hz
    refine ⟨fun g hg => ?_, fun g hg => ?_⟩
    · rw [hg] at hm
      exact ⟨(k1 g hm).1, (hi g hm).1, (hi g hm).2.1⟩
    · rw [hg] at hm
      exact u1 g hm
  · split at ho
    · obtain rfl := List.mem_singleton.1 ho
      refine ⟨fun m hm g hg => ⟨⟨(k2 m hm g hg).1, (hc m hm g hg).1, (hc m hm g hg).2.1⟩, ?_, hc m hm g hg⟩,
        hF, fun m hm g hg => u2 m hm g hg⟩
      have := (k2 m hm g hg).2
      simp only [floats, List.mem_cons, List.not_mem_nil, or_false] at this
      unfold IsFloat
      tauto
    · cases ho

/-- Every value of every image of the texture that the tool makes is in the range of the type of the texture. -/
theorem C65_job (Lm : Libm) (P : UnitPow Lm) {FI : FreeImage Dbl} (C : UnitConvert Lm FI)
    (F : LawfulFI (Arith.ieee Lm) FI) (M : EnoughMemory FI) {read : Str → ColorSpace → Img? Dbl}
    (R : LoadsWell (Arith.ieee Lm) read) (E : ToolEnv (Image Dbl) Dbl σ)
    (hE : E.load = loadAndProcess (Arith.ieee Lm) FI read) (hL : UsesImages (Arith.ieee Lm) FI E.world.lib)
    (c : Cmd Dbl) (Q : c.normalMap = true → RoundedSqrt Lm) (RC : RangeConvert Lm FI (jobRange c).1 (jobRange c).2)
    (J : RangeJob Lm FI read c) (hs : c.type = .UNorm ∨ c.textureColorSpace = .Linear)
    (images : List (Option (Image Dbl))) (custom : CustomMips (Image Dbl))
    (e : loadImages E c = .ok (some (images, custom))) (hn : images.length < 2 ^ 31)
    (hi : ∀ g, some g ∈ images → Spec.Countable g)
    (hc : ∀ m ∈ custom, ∀ g, m.2.image = some (some g) → Spec.Countable g)
    (outs : List (Out (Image Dbl))) (t : Tex (Image Dbl))
    (er : run E.world none (makeOps E.world.lib c images custom) = .ok (outs, t)) (g : Image Dbl) (hg : Stores t g) :
    RangeImage Lm (jobRange c).1 (jobRange c).2 g := by
  obtain ⟨u1, u2⟩ := loadImages_range P C F R hE J Q hs e
  obtain ⟨i, rfl, level, h1, slice, h2, h3⟩ := hg
  rcases hs with hs | hs
  · have hr : jobRange c = (0, 1) := by
      unfold jobRange
      rw [hs]
      simp [signedTypes]
    rw [hr]
    have hF := J.mipFilter
    rw [hr] at hF
    have := (run_agrees_with (kept_unit P C F) F M E.world hL hL (t := none) (fun i e => by cases e)
      (job_calls F R hE hL e hn hi hc trivial hF
        (fun g hg => by have := (u1 g hg).1; rw [hr] at this; exact this)
        (fun m hm g hg => by have := (u2 m hm g hg).1; rw [hr] at this; exact this))).2 _ er
    exact ((this i rfl).all level h1 slice h2 _ h3 g rfl).2
  · have := (run_agrees_with (kept_range (job_bounds c) RC F) F M E.world hL hL (t := none) (fun i e => by cases e)
      (job_calls F R hE hL e hn hi hc hs J.mipFilter
        (fun g hg => ⟨(u1 g hg).1, (u1 g hg).2.trans hs⟩)
        (fun m hm g hg => ⟨(u2 m hm g hg).1, (u2 m hm g hg).2.trans hs⟩))).2 _ er
    exact ((this i rfl).all level h1 slice h2 _ h3 g rfl).2.1

/-- So every pixel of the texture can be stored in the format and type of the job. -/
theorem C65_storable (Lm : Libm) (P : UnitPow Lm) {FI : FreeImage Dbl} (C : UnitConvert Lm FI)
    (F : LawfulFI (Arith.ieee Lm) FI) (M : EnoughMemory FI) {read : Str → ColorSpace → Img? Dbl}
    (R : LoadsWell (Arith.ieee Lm) read) (E : ToolEnv (Image Dbl) Dbl σ)
    (hE : E.load = loadAndProcess (Arith.ieee Lm) FI read) (hL : UsesImages (Arith.ieee Lm) FI E.world.lib)
    (c : Cmd Dbl) (Q : c.normalMap = true → RoundedSqrt Lm) (RC : RangeConvert Lm FI (jobRange c).1 (jobRange c).2)
    (J : RangeJob Lm FI read c) (hs : c.type = .UNorm ∨ c.textureColorSpace = .Linear)
    (images : List (Option (Image Dbl))) (custom : CustomMips (Image Dbl))
    (e : loadImages E c = .ok (some (images, custom))) (hn : images.length < 2 ^ 31)
    (hi : ∀ g, some g ∈ images → Spec.Countable g)
    (hc : ∀ m ∈ custom, ∀ g, m.2.image = some (some g) → Spec.Countable g)
    (outs : List (Out (Image Dbl))) (t : Tex (Image Dbl))
    (er : run E.world none (makeOps E.world.lib c images custom) = .ok (outs, t)) (g : Image Dbl) (hg : Stores t g)
    (x y : ℕ) (hx : x < g.bmp.width) (hy : y < g.bmp.height) : PixelFits c.format c.type ((asFloats g).px x y) := by
  have h3 := C65_job Lm P C F M R E hE hL c Q RC J hs images custom e hn hi hc outs t er g hg
  obtain ⟨h1, h2, -⟩ := C63_stored_partial Lm F M E.world hL _ (fun o ho => (job_calls F R hE hL e hn hi hc (U := fun _ => True)
    (Fl := fun _ => True) (S := fun _ => True) trivial trivial (fun _ _ => trivial) (fun _ _ _ _ => trivial) o ho).1)
    outs t er g hg
  have b0 : -2 ^ 16 ≤ (jobRange c).1 := by
    unfold jobRange
    split_ifs
    · norm_num
    · norm_num
    · split <;> norm_num
  have b1 : (jobRange c).2 ≤ 2 ^ 16 := by
    unfold jobRange
    split_ifs
    · norm_num
    · norm_num
    · split <;> norm_num
  have h4 := fun d hd => range_iff.1 (h3 d hd)
  -- the bound on the size is for another format
  by_cases hp : isPvrtc c.format = true
  · have := (ranged_fits b0 b1 h1 h2 h4 .BC1_RGB c.type (by simp [isPvrtc])).2 x y hx hy
    have e1 : layout c.format = none := by
      revert hp
      cases c.format <;> simp [isPvrtc, layout]
    unfold PixelFits at this ⊢
    rw [e1]
    exact this
  · exact (ranged_fits b0 b1 h1 h2 h4 c.format c.type (fun h => absurd h hp)).2 x y hx hy

namespace Toy

/-- A `pow` that is exact to three digits, and a correctly rounded square root. -/
noncomputable def both : Libm := { ideal with sqrt := rooted.sqrt }

theorem both_pow : UnitPow both := ideal_pow

theorem both_sqrt : RoundedSqrt both := rooted_sqrt

theorem nearest_ranged (L : Libm) (lo hi : ℚ) (filter : ResizeFilter) : RangeFilter L nearest lo hi filter := by
  intro f cs b w h b' hf hb hu e
  simp only [nearest] at e
  split at e
  · cases e
  · rename_i hn
    cases e
    rintro c ⟨x, y, ec⟩
    obtain ⟨h1, h2, h3⟩ := getPixel_some ec
    simp only [not_or] at hn
    simp only at h1 h2 h3
    refine hu c ⟨x * b.width / w, b.height - 1 - (h - y - 1) * b.height / h, ?_⟩
    refine getPixel_line (i := ⟨f, cs, b⟩) ?_ ?_ h3
    · show _ < b.height
      rw [Nat.div_lt_iff_lt_mul (by omega), Nat.mul_comm b.height]
      exact Nat.mul_lt_mul_of_pos_right (by omega) (by omega)
    · show _ < b.width
      rw [Nat.div_lt_iff_lt_mul (by omega), Nat.mul_comm b.width]
      exact Nat.mul_lt_mul_of_pos_right h1 (by omega)

theorem nearest_convert_range (L : Libm) {lo hi : ℚ} (h0 : lo ≤ 0) (h1 : 1 ≤ hi) : RangeConvert L nearest lo hi := by
  intro f cs b b' hb hu e
  have e' := e
  simp only [nearest, converts] at e'
  split at e'
  · rename_i hc
    refine range_wider h0 h1 (nearest_converts L f cs b b' hb ?_ e)
    exact C64_integers L _ hb hc.1
  · cases e'

/-- The tool with these. -/
noncomputable def rangeTool : ToolEnv (Image Dbl) Dbl Files :=
  { imageTool with
    world := { imageTool.world with lib := libWith (Arith.ieee both) nearest bad }
    load := loadAndProcess (Arith.ieee both) nearest readAB }

/-- What the examples need to know of a job and its images. -/
noncomputable def rangeOk (ty : TType) (nm : Bool) (argv : List Str) : Bool :=
  match parseCommandLine rangeTool.cmd argv with
  | .ok (some (some c)) =>
    decide (c.images = [cstr "a"]) && decide (c.normalMap = nm) && decide (c.format = .R8G8B8A8) && decide (c.type = ty) &&
    decide (c.dimension = .Dim2D) && c.customMips.isEmpty && decide (3 ≤ c.mipLevels) &&
    decide (c.textureColorSpace = .Linear) && decide (c.normalOptions.keepSign = false) &&
    (!nm || decide (c.normalHeight = .fin 1)) && decide (c.width = -1) && decide (c.height = -1) &&
    (match loadImages rangeTool c with
    | .ok (some (images, custom)) =>
      images.all (fun o => o.all fun g => decide (g.bmp.width = 2) && decide (g.bmp.height = 3)) && custom.isEmpty &&
      decide (images.length = 1) &&
      decide (widths (run rangeTool.world none (makeOps rangeTool.world.lib c images custom)) =
        [[[some 2]], [[some 1]]])
    | _ => false)
  | _ => false

/-- An image with signed values, turned, with mipmaps. -/
def snormArgs : List Str :=
  ["cuttlefish", "-i", "a", "--rotate", "90", "-m", "-f", "R8G8B8A8", "-t", "snorm", "-o", "a.pvr"].map cstr

/-- A normal map with signed values, turned, with mipmaps. -/
def normalArgs : List Str :=
  ["cuttlefish", "-i", "a", "--rotate", "90", "-n", "-m", "-f", "R8G8B8A8", "-t", "snorm", "-o", "a.pvr"].map cstr

theorem snorm_ok : rangeOk .SNorm false snormArgs = true := by decide +kernel

theorem normal_ok : rangeOk .SNorm true normalArgs = true := by decide +kernel

theorem readAB_both : LoadsWell (Arith.ieee both) readAB := readAB_ok

/-- The jobs of the examples. -/
theorem range_job {ty : TType} {nm : Bool} {argv : List Str} (key : rangeOk ty nm argv = true) {c : Cmd Dbl}
    (hc : parseCommandLine rangeTool.cmd argv = .ok (some (some c))) : RangeJob both nearest readAB c := by
  unfold rangeOk at key
  rw [hc] at key
  simp only [Bool.and_eq_true, decide_eq_true_eq, Bool.or_eq_true, Bool.not_eq_true'] at key
  obtain ⟨⟨⟨⟨⟨⟨⟨⟨⟨⟨⟨⟨k1, k2⟩, -⟩, -⟩, -⟩, -⟩, -⟩, -⟩, k3⟩, k4⟩, k5⟩, k6⟩, -⟩ := key
  have sz : sizeOfInt (-1) = .original := by decide +kernel
  refine ⟨nearest_unit _ _, nearest_ranged _ _ _ _, fun p i e => ?_, fun h => ⟨k3, ⟨1, ?_, by norm_num⟩,
    nearest_ranged _ _ _ _⟩, fun _ => ⟨by rw [k1]; simp, ?_, ?_⟩⟩
  · exact C64_integers _ _ (readAB_both p _ i e).1 (readAB_sources p _ i e)
  · rw [k2] at h
    rcases k4 with k4 | k4
    · rw [h] at k4
      cases k4
    · exact k4
  · intro o ho n hn
    rw [k5, k6, sz] at ho
    simp only [List.mem_cons, List.not_mem_nil, or_false, or_self] at ho
    rw [ho] at hn
    cases hn
  · intro p first hp hr w h hw hh
    obtain ⟨h1, h2, h3⟩ := readAB_both _ _ _ hr
    rw [k5, sz] at hw
    rw [k6, sz] at hh
    have hw : w = first.bmp.width := hw
    have hh : h = first.bmp.height := hh
    subst hw hh
    exact ⟨h3.2.2.1, h3.2.2.2.1, h3.2.2.2.2⟩

/-- What the examples show. -/
theorem range_example {ty : TType} {nm : Bool} {argv : List Str} (key : rangeOk ty nm argv = true) :
    ∃ (c : Cmd Dbl) (images : List (Option (Image Dbl))) (custom : CustomMips (Image Dbl))
      (outs : List (Out (Image Dbl))) (t : Tex (Image Dbl)) (g : Image Dbl),
      parseCommandLine rangeTool.cmd argv = .ok (some (some c)) ∧ c.type = ty ∧ c.normalMap = nm ∧
      loadImages rangeTool c = .ok (some (images, custom)) ∧
      (∀ g, some g ∈ images → RangeImage both (jobRange c).1 (jobRange c).2 g) ∧
      run rangeTool.world none (makeOps rangeTool.world.lib c images custom) = .ok (outs, t) ∧
      Stores t g ∧ g.bmp.width = 1 ∧ RangeImage both (jobRange c).1 (jobRange c).2 g ∧
      ∀ x y, x < g.bmp.width → y < g.bmp.height → PixelFits c.format c.type ((asFloats g).px x y) := by
  have key' := key
  unfold rangeOk at key
  split at key
  · rename_i c hc
    have J := range_job key' hc
    simp only [Bool.and_eq_true, decide_eq_true_eq] at key
    obtain ⟨⟨⟨⟨⟨⟨⟨⟨⟨⟨⟨⟨-, n1⟩, -⟩, n2⟩, -⟩, -⟩, -⟩, n3⟩, -⟩, -⟩, -⟩, -⟩, key⟩ := key
    split at key
    · rename_i images custom hl
      simp only [Bool.and_eq_true, decide_eq_true_eq, List.isEmpty_iff, List.all_eq_true] at key
      obtain ⟨⟨⟨k1, k2⟩, k3⟩, k4⟩ := key
      have size : ∀ g, some g ∈ images → Spec.Countable g := fun g hg => by
        have := k1 _ hg
        simp only [Option.all_some, Bool.and_eq_true, decide_eq_true_eq] at this
        refine ⟨by omega, by omega, by omega, by omega, ?_⟩
        rw [this.1, this.2]
        norm_num
      have B := job_bounds c
      have RC := nearest_convert_range both B.zero B.one
      cases e : run rangeTool.world none (makeOps rangeTool.world.lib c images custom) with
      | ub =>
        rw [e] at k4
        cases k4
      | ok r =>
        obtain ⟨outs, t⟩ := r
        rw [e] at k4
        cases t with
        | none => cases k4
        | some i =>
          change i.images.map _ = _ at k4
          obtain ⟨l, hl1, e1⟩ := List.mem_map.1 (show [[some 1]] ∈ i.images.map _ by rw [k4]; simp)
          obtain ⟨sl, hs, e2⟩ := List.mem_map.1 (show [some 1] ∈ l.map _ by rw [e1]; simp)
          obtain ⟨o, ho, e3⟩ := List.mem_map.1 (show some 1 ∈ sl.map _ by rw [e2]; simp)
          cases o with
          | none => cases e3
          | some g =>
            have st : Stores (some i) g := ⟨i, rfl, l, hl1, sl, hs, ho⟩
            exact ⟨c, images, custom, outs, _, g, hc, n2, n1, hl,
              (C65_loaded _ both_pow (nearest_converts _) (nearest_lawful _) readAB_both _ rfl c (fun _ => both_sqrt) J
                (.inr n3) _ _ hl).1, e, st, Option.some.inj e3,
              C65_job _ both_pow (nearest_converts _) (nearest_lawful _) nearest_memory readAB_both _ rfl
                (libWith_uses _ _ _) c (fun _ => both_sqrt) RC J (.inr n3) _ _ hl (by omega) size
                (fun m hm => by rw [k2] at hm; cases hm) outs _ e g st,
              C65_storable _ both_pow (nearest_converts _) (nearest_lawful _) nearest_memory readAB_both _ rfl
                (libWith_uses _ _ _) c (fun _ => both_sqrt) RC J (.inr n3) _ _ hl (by omega) size
                (fun m hm => by rw [k2] at hm; cases hm) outs _ e g st⟩
    · cases key
  · cases key

/-- Images with negative values, and all levels of their mipmaps. -/
def negative : Image Dbl := ⟨.RGBAF, .Linear, ⟨3, 2, fun y x => .nums [.fin (-x), .fin y, .fin (3 / 2), .fin 1]⟩⟩

theorem negative_ok (L : Libm) : ImgOk (Arith.ieee L) negative ∧ RangeImage L (-2) 2 negative := by
  have s1 : ∀ x : ℕ, x < 3 → Dbl.single (.fin (-(x : ℚ))) = .fin (-(x : ℚ)) := by decide +kernel
  have s2 : ∀ y : ℕ, y < 2 → Dbl.single (.fin (y : ℚ)) = .fin (y : ℚ) := by decide +kernel
  have s3 : Dbl.single (.fin (3 / 2)) = .fin (3 / 2) := by decide +kernel
  have s4 : Dbl.single (.fin 1) = .fin 1 := by decide +kernel
  constructor
  · intro y x hy hx
    have hy : y < 2 := hy
    have hx : x < 3 := hx
    exact ⟨s1 x hx, s2 y hy, s3, s4⟩
  · rintro c ⟨x, y, e⟩
    obtain ⟨h1, h2, h3⟩ := getPixel_some e
    have h1 : x < 3 := h1
    have h2 : y < 2 := h2
    have h3 : Res.ok (⟨.fin (-x), .fin ((2 - y - 1 : ℕ) : ℚ), .fin (3 / 2), .fin 1⟩ : Color Dbl) = .ok c := h3
    cases h3
    refine range_iff.2 ⟨⟨_, rfl, ?_, ?_⟩, ⟨_, rfl, ?_, ?_⟩, ⟨_, rfl, ?_, ?_⟩, ⟨_, rfl, ?_, ?_⟩⟩ <;>
      interval_cases x <;> interval_cases y <;> norm_num [allSame]

/-- A 3D texture of them with mipmaps. -/
def negativeCalls : List (Op (Image Dbl)) :=
  [.initialize .Dim3D 3 2 2 2 .Linear, .setImage (some negative) false none 0 0, .setImage (some negative) false none 0 1,
    .generateMipmaps .Box 4294967295 []]

theorem negative_calls : ∀ o ∈ negativeCalls, ImageCall (Arith.ieee both) o ∧ RangeCall both nearest (-2) 2 o := by
  intro o ho
  simp only [negativeCalls, List.mem_cons, List.not_mem_nil, or_false] at ho
  rcases ho with rfl | rfl | rfl | rfl
  · exact ⟨⟨by norm_num [Counts], fun _ => by norm_num⟩, rfl⟩
  · refine ⟨fun g e => ?_, fun g e => ?_⟩
    · cases e
      exact ⟨(negative_ok _).1, by norm_num [negative], by norm_num [negative]⟩
    · cases e
      exact ⟨(negative_ok _).2, rfl⟩
  · refine ⟨fun g e => ?_, fun g e => ?_⟩
    · cases e
      exact ⟨(negative_ok _).1, by norm_num [negative], by norm_num [negative]⟩
    · cases e
      exact ⟨(negative_ok _).2, rfl⟩
  · refine ⟨fun e h => ?_, nearest_ranged _ _ _ _, fun e h => ?_⟩ <;> cases h

end Toy

/-- A job with signed values meets the conditions of `C65_loaded`, `C65_job` and `C65_storable`. -/
example := Toy.range_example Toy.snorm_ok

/-- A job that makes a normal map with signed values does. -/
example := Toy.range_example Toy.normal_ok

/-- Calls that make the mipmaps of a 3D texture with negative values meet the conditions of `C65_stored`, and have a result
with images. -/
example : PowerRange (-2) 2 ∧ ∃ (outs : List (Out (Image Dbl))) (t : Tex (Image Dbl)),
    run (withImages Toy.imageTool.world (Toy.libWith (Arith.ieee Toy.both) Toy.nearest Toy.bad)) none Toy.negativeCalls =
      .ok (outs, t) ∧ (∃ g, Stores t g ∧ g.bmp.width = 1) ∧ ∀ g, Stores t g → RangeImage Toy.both (-2) 2 g := by
  have B : PowerRange (-2) 2 := ⟨.inr ⟨1, by norm_num, by norm_num⟩, 1, by norm_num, by norm_num⟩
  refine ⟨B, ?_⟩
  have key : Toy.widths (run (withImages Toy.imageTool.world (Toy.libWith (Arith.ieee Toy.both) Toy.nearest Toy.bad)) none
      Toy.negativeCalls) = [[[some 3], [some 3]], [[some 1]]] := by decide +kernel
  cases e : run (withImages Toy.imageTool.world (Toy.libWith (Arith.ieee Toy.both) Toy.nearest Toy.bad)) none
      Toy.negativeCalls with
  | ub =>
    rw [e] at key
    cases key
  | ok r =>
    obtain ⟨outs, t⟩ := r
    refine ⟨outs, t, rfl, ?_, fun g hg => ?_⟩
    · rw [e] at key
      cases t with
      | none => cases key
      | some i =>
        change i.images.map _ = _ at key
        obtain ⟨l, hl, e1⟩ := List.mem_map.1 (show [[some 1]] ∈ i.images.map _ by rw [key]; simp)
        obtain ⟨sl, hs, e2⟩ := List.mem_map.1 (show [some 1] ∈ l.map _ by rw [e1]; simp)
        obtain ⟨o, ho, e3⟩ := List.mem_map.1 (show some 1 ∈ sl.map _ by rw [e2]; simp)
        cases o with
        | none => cases e3
        | some g => exact ⟨g, ⟨i, rfl, l, hl, sl, hs, ho⟩, Option.some.inj e3⟩
    · exact C65_stored Toy.both B (Toy.nearest_convert_range _ (by norm_num) (by norm_num)) (Toy.nearest_lawful _)
        Toy.nearest_memory _ (Toy.libWith_uses _ _ _) _ Toy.negative_calls outs t e g hg

end Cuttlefish
