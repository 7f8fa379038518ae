import Verif.Proofs.UnitFits
import Verif.Props.C63
/-
C64: colours from 0 to 1 stay there, with rounding.
-/
namespace Cuttlefish
open Spec
variable {σ : Type}

/-- If all images that are given to a texture have colours from 0 to 1, then after any list of calls all its images have
colours from 0 to 1: also those of generated mip levels, of the second and later levels of 3D textures, and of sRGB
textures, whose colours are converted to linear ones and back.  In particular no colour is NaN or infinite. -/
theorem C64_stored (Lm : Libm) (P : UnitPow Lm) {FI : FreeImage Dbl} (C : UnitConvert Lm FI)
    (F : LawfulFI (Arith.ieee Lm) FI) (M : EnoughMemory FI) (W : World (Image Dbl))
    (hL : UsesImages (Arith.ieee Lm) FI W.lib) (ops : List (Op (Image Dbl)))
    (ho : ∀ o ∈ ops, ImageCall (Arith.ieee Lm) o ∧ UnitCall Lm FI o) (outs : List (Out (Image Dbl)))
    (t : Tex (Image Dbl)) (e : run W none ops = .ok (outs, t)) (g : Image Dbl) (hg : Stores t g) :
    UnitImage Lm g := by
  have := (run_agrees_with (kept_unit P C F) F M W hL hL (t := none) (fun i e => by cases e)
    (fun o h => ⟨(ho o h).1, by have := (ho o h).2; cases o <;> exact this⟩)).2 _ e
  obtain ⟨i, rfl, level, h1, slice, h2, h3⟩ := hg
  exact ((this i rfl).all level h1 slice h2 _ h3 g rfl).2

/-- Then all their pixels can be stored in every format and type. -/
theorem C64_storable (Lm : Libm) (P : UnitPow Lm) {FI : FreeImage Dbl} (C : UnitConvert Lm FI)
    (F : LawfulFI (Arith.ieee Lm) FI) (M : EnoughMemory FI) (W : World (Image Dbl))
    (hL : UsesImages (Arith.ieee Lm) FI W.lib) (ops : List (Op (Image Dbl)))
    (ho : ∀ o ∈ ops, ImageCall (Arith.ieee Lm) o ∧ UnitCall Lm FI o) (outs : List (Out (Image Dbl)))
    (t : Tex (Image Dbl)) (e : run W none ops = .ok (outs, t)) (g : Image Dbl) (hg : Stores t g) (f : Format)
    (ty : TType) (x y : ℕ) (hx : x < g.bmp.width) (hy : y < g.bmp.height) : PixelFits f ty ((asFloats g).px x y) := by
  obtain ⟨h1, h2, -⟩ := C63_stored_partial Lm F M W hL ops (fun o h => (ho o h).1) outs t e g hg
  have h3 := C64_stored Lm P C F M W hL ops ho outs t e g hg
  -- the bound on the size is for another format
  by_cases hp : isPvrtc f = true
  · have := (unit_fits h1 h2 h3 .BC1_RGB ty (by simp [isPvrtc])).2 x y hx hy
    have e1 : layout f = none := by revert hp; cases f <;> simp [isPvrtc, layout]
    unfold PixelFits at this ⊢
    rw [e1]
    exact this
  · exact (unit_fits h1 h2 h3 f ty (fun h => absurd h hp)).2 x y hx hy

/-- All images that the tool makes of images with colours from 0 to 1 have such colours, if the job makes no normal map
and its type is not one of those that need another range. -/
theorem C64_loaded (Lm : Libm) (P : UnitPow Lm) {FI : FreeImage Dbl} (C : UnitConvert Lm FI)
    (F : LawfulFI (Arith.ieee Lm) FI) {read : Str → ColorSpace → Img? Dbl} (R : LoadsWell (Arith.ieee Lm) read)
    (E : ToolEnv (Image Dbl) Dbl σ) (hE : E.load = loadAndProcess (Arith.ieee Lm) FI read) (c : Cmd Dbl)
    (J : UnitJob Lm FI read c) (images : List (Option (Image Dbl))) (custom : CustomMips (Image Dbl))
    (e : loadImages E c = .ok (some (images, custom))) :
    (∀ g, some g ∈ images → UnitImage Lm g) ∧ ∀ m ∈ custom, ∀ g, m.2.image = some (some g) → UnitImage Lm g :=
  loadImages_unit P C F R hE J e

/-- So every pixel of every image of the texture that the tool makes of them can be stored in the format of the job. -/
theorem C64_job (Lm : Libm) (P : UnitPow Lm) {FI : FreeImage Dbl} (C : UnitConvert Lm FI)
    (F : LawfulFI (Arith.ieee Lm) FI) (M : EnoughMemory FI) {read : Str → ColorSpace → Img? Dbl}
    (R : LoadsWell (Arith.ieee Lm) read) (E : ToolEnv (Image Dbl) Dbl σ)
    (hE : E.load = loadAndProcess (Arith.ieee Lm) FI read) (hL : UsesImages (Arith.ieee Lm) FI E.world.lib)
    (c : Cmd Dbl) (J : UnitJob Lm FI read c) (images : List (Option (Image Dbl)))
    (custom : CustomMips (Image Dbl)) (e : loadImages E c = .ok (some (images, custom)))
    (hn : images.length < 2 ^ 31) (hi : ∀ g, some g ∈ images → Spec.Countable g)
    (hc : ∀ m ∈ custom, ∀ g, m.2.image = some (some g) → Spec.Countable g)
    (outs : List (Out (Image Dbl))) (t : Tex (Image Dbl))
    (er : run E.world none (makeOps E.world.lib c images custom) = .ok (outs, t)) (g : Image Dbl) (hg : Stores t g)
    (x y : ℕ) (hx : x < g.bmp.width) (hy : y < g.bmp.height) : PixelFits c.format c.type ((asFloats g).px x y) := by
  obtain ⟨u1, u2⟩ := C64_loaded Lm P C F R E hE c J images custom e
  obtain ⟨k1, k2⟩ := loadImages_ok F R hE e
  refine C64_storable Lm P C F M E.world hL _ (fun o ho => ?_) outs t er g hg _ _ x y hx hy
  simp only [makeOps, jobOps, List.dropLast_concat, List.mem_append, List.mem_cons] at ho
  rcases ho with (rfl | ho) | ho
  · refine ⟨⟨?_, fun _ => ?_⟩, trivial⟩
    · cases hh : images.head?.join with
      | none => simp [ImageLib.widthO, ImageLib.heightO, Counts]
      | some g =>
        have hm : some g ∈ images := by
          cases images with
          | nil => cases hh
          | cons a as =>
            have : a = some g := hh
            rw [this]
            exact List.mem_cons_self
        obtain ⟨-, -, h1, h2, h3⟩ := hi g hm
        simp only [ImageLib.widthO, ImageLib.heightO, hL.width, hL.height]
        exact ⟨h1, h2, h3⟩
    · unfold layers
      split
      · norm_num
      · norm_num
      · exact hn
      · omega
  · obtain ⟨z, hz, rfl⟩ := List.mem_map.1 ho
    have hm := List.fst_mem_of_mem_zipIdx hz
    refine ⟨fun g hg => ?_, fun g hg => ?_⟩
    · rw [hg] at hm
      exact ⟨(k1 g hm).1, (hi g hm).1, (hi g hm).2.1⟩
    · rw [hg] at hm
      exact u1 g hm
  · split at ho
    · obtain rfl := List.mem_singleton.1 ho
      refine ⟨fun m hm g hg => ⟨⟨(k2 m hm g hg).1, (hc m hm g hg).1, (hc m hm g hg).2.1⟩, ?_, hc m hm g hg⟩,
        J.mipFilter, fun m hm g hg => u2 m hm g hg⟩
      have := (k2 m hm g hg).2
      simp only [floats, List.mem_cons, List.not_mem_nil, or_false] at this
      unfold IsFloat
      tauto
    · cases ho

/-- Images of integers always have colours from 0 to 1: those with 8 or 16 bits for each channel, gray ones, and those
with 16 bits for each pixel. -/
theorem C64_integers (Lm : Libm) (i : Image Dbl) (hi : ImgOk (Arith.ieee Lm) i) (hf : i.format ∈ sources) :
    UnitImage Lm i := by
  rintro c ⟨x, y, e⟩
  obtain ⟨h1, h2, h3⟩ := getPixel_some e
  exact unit_source hf (hi _ _ (by omega) h1) h3

namespace Toy

/-- A `pow` that is exact to three digits. -/
noncomputable def ideal : Libm where
  sqrt x := x
  pow
    | .fin x, .fin y => .fin (⌊(x : ℝ) ^ (y : ℝ) * 1000⌋ / 1000)
    | _, _ => .nan

theorem ideal_pow : UnitPow ideal := by
  intro x y h0 h1 hy
  have r0 : (0 : ℝ) ≤ x := by exact_mod_cast h0
  have r1 : (x : ℝ) ≤ 1 := by exact_mod_cast h1
  have ry : (0 : ℝ) < y := by exact_mod_cast hy
  have p0 : 0 ≤ (x : ℝ) ^ (y : ℝ) := Real.rpow_nonneg r0 _
  have p1 : (x : ℝ) ^ (y : ℝ) ≤ 1 := Real.rpow_le_one r0 r1 ry.le
  have f1 := Int.floor_le ((x : ℝ) ^ (y : ℝ) * 1000)
  have f2 := Int.lt_floor_add_one ((x : ℝ) ^ (y : ℝ) * 1000)
  have f0 : 0 ≤ ⌊(x : ℝ) ^ (y : ℝ) * 1000⌋ := Int.floor_nonneg.2 (by positivity)
  have f3 : ⌊(x : ℝ) ^ (y : ℝ) * 1000⌋ ≤ 1000 := by
    have : ((⌊(x : ℝ) ^ (y : ℝ) * 1000⌋ : ℤ) : ℝ) ≤ ((1000 : ℤ) : ℝ) := by push_cast; linarith
    exact_mod_cast this
  refine ⟨_, rfl, ?_, ?_, ?_⟩
  · have : (0 : ℚ) ≤ (⌊(x : ℝ) ^ (y : ℝ) * 1000⌋ : ℤ) := by exact_mod_cast f0
    positivity
  · have : ((⌊(x : ℝ) ^ (y : ℝ) * 1000⌋ : ℤ) : ℚ) ≤ 1000 := by exact_mod_cast f3
    linarith
  · push_cast
    rw [abs_le]
    constructor <;> linarith

/-- A FreeImage that converts, and resizes to the nearest pixel. -/
def nearest : FreeImage Dbl :=
  { converts with
    rescale := fun b w h f => if f = .Box ∨ f = .Linear ∨ b.width = 0 ∨ b.height = 0 then none
      else some ⟨w, h, fun y x => b.px (y * b.height / h) (x * b.width / w)⟩ }

theorem nearest_lawful (L : Libm) : LawfulFI (Arith.ieee L) nearest := by
  have h := fi_ieee L true
  refine { h with convert := converts_lawful.convert, rescale := ?_ }
  intro b w h f b' e
  simp only [nearest] at e
  split at e
  · cases e
  · rename_i hn
    cases e
    refine ⟨rfl, rfl, fun f hb y x hy hx => ?_⟩
    simp only [not_or] at hn
    simp only at hy hx ⊢
    refine hb _ _ ?_ ?_
    · rw [Nat.div_lt_iff_lt_mul (by omega), Nat.mul_comm b.height]
      exact Nat.mul_lt_mul_of_pos_right hy (by omega)
    · rw [Nat.div_lt_iff_lt_mul (by omega), Nat.mul_comm b.width]
      exact Nat.mul_lt_mul_of_pos_right hx (by omega)

theorem nearest_memory : EnoughMemory nearest :=
  ⟨fun f w h hf => by simp [nearest, converts, fi, hf], fun b => by simp [nearest, converts, fi]⟩

theorem nearest_resizes (filter : ResizeFilter) : CanResize nearest filter := by
  unfold CanResize
  by_cases h1 : filter = .Box
  · exact Or.inl h1
  · by_cases h2 : filter = .Linear
    · exact Or.inr (Or.inl h2)
    · refine Or.inr (Or.inr fun b w h hw hh => ?_)
      simp [nearest, h1, h2, hw.ne', hh.ne']

theorem nearest_converts (L : Libm) : UnitConvert L nearest := by
  intro f cs b b' hb hu e
  simp only [nearest, converts] at e
  split at e
  · rename_i hc
    cases e
    rintro c ⟨x, y, ec⟩
    obtain ⟨h1, h2, h3⟩ := getPixel_some ec
    simp only at h1 h2 h3
    have near (ch : Chan) : Ranged 0 1 (channel f (b.px (b.height - y - 1) x) ch) := by
      unfold channel
      rcases sample_cases hc.1 (hb (b.height - y - 1) x (by omega) h1) ch with ⟨m, v, q1, -, q3, q4, q5⟩ | ⟨-, q, -⟩
      · rw [q1]
        obtain ⟨q, r1, r2, r3, -⟩ := single_near q3 q4 q5
        exact ⟨q, r1, r2, r3⟩
      · rw [q]
        exact unit_one
    cases h3
    simp only [UnitColor, doubleChannels, List.forall_mem_cons, List.not_mem_nil, IsEmpty.forall_iff, implies_true,
      and_true]
    exact ⟨near _, near _, near _, near _⟩
  · cases e

theorem nearest_unit (L : Libm) (filter : ResizeFilter) : UnitFilter L nearest filter := by
  intro f cs b w h b' hf hb hu e
  simp only [nearest] at e
  split at e
  · cases e
  · rename_i hn
    cases e
    rintro c ⟨x, y, ec⟩
    obtain ⟨h1, h2, h3⟩ := getPixel_some ec
    simp only [not_or] at hn
    simp only at h1 h2 h3
    refine hu c ⟨x * b.width / w, b.height - 1 - (h - y - 1) * b.height / h, ?_⟩
    refine getPixel_line (i := ⟨f, cs, b⟩) ?_ ?_ h3
    · show _ < b.height
      rw [Nat.div_lt_iff_lt_mul (by omega), Nat.mul_comm b.height]
      exact Nat.mul_lt_mul_of_pos_right (by omega) (by omega)
    · show _ < b.width
      rw [Nat.div_lt_iff_lt_mul (by omega), Nat.mul_comm b.width]
      exact Nat.mul_lt_mul_of_pos_right h1 (by omega)

theorem rgba_unit (L : Libm) : UnitImage L rgba := C64_integers L _ (rgba_ok _) (by simp [rgba, sources])

/-- The colours of an image of numbers above 1 are not in the range. -/
def tooBright : Image Dbl := ⟨.RGBAF, .Linear, ⟨1, 1, fun _ _ => .nums [.fin 2, .fin 0, .fin 0, .fin 1]⟩⟩

theorem unit_calls3d : ∀ o ∈ calls3d, ImageCall (Arith.ieee ideal) o ∧ UnitCall ideal nearest o := by
  intro o ho
  simp only [calls3d, List.mem_cons, List.not_mem_nil, or_false] at ho
  rcases ho with rfl | rfl | rfl | rfl | rfl
  · exact ⟨⟨by norm_num [Counts], fun _ => by norm_num⟩, trivial⟩
  · refine ⟨fun g e => ?_, fun g e => ?_⟩
    · cases e
      exact ⟨rgba_ok _, by norm_num [rgba], by norm_num [rgba]⟩
    · cases e
      exact rgba_unit _
  · refine ⟨fun g e => ?_, fun g e => ?_⟩
    · cases e
      exact ⟨rgba_ok _, by norm_num [rgba], by norm_num [rgba]⟩
    · cases e
      exact rgba_unit _
  · refine ⟨fun e h => ?_, nearest_unit _ _, fun e h => ?_⟩ <;> cases h
  · exact ⟨trivial, trivial⟩

theorem readAB_ideal : LoadsWell (Arith.ieee ideal) readAB := readAB_ok

theorem readAB_sources (p : Str) (cs : ColorSpace) (i : Image Dbl) (e : readAB p cs = some i) :
    i.format ∈ sources := by
  unfold readAB at e
  split at e
  · cases e
    simp [rgba, sources]
  · split at e
    · cases e
      simp [sources]
    · cases e

/-- The tool with these. -/
noncomputable def idealTool : ToolEnv (Image Dbl) Dbl Files :=
  { imageTool with
    world := { imageTool.world with lib := libWith (Arith.ieee ideal) nearest bad }
    load := loadAndProcess (Arith.ieee ideal) nearest readAB }

/-- What the examples need to know of a job and its images. -/
noncomputable def unitOk (argv : List Str) : Bool :=
  match parseCommandLine idealTool.cmd argv with
  | .ok (some (some c)) =>
    decide (c.images.length = 1) && !c.normalMap && decide (c.format = .R8G8B8A8) && decide (c.type = .UNorm) &&
    decide (c.dimension = .Dim2D) && c.customMips.isEmpty && decide (3 ≤ c.mipLevels) &&
    (match loadImages idealTool c with
    | .ok (some (images, custom)) =>
      images.all (fun o => o.all fun g => decide (g.bmp.width = 2) && decide (g.bmp.height = 3)) && custom.isEmpty &&
      decide (images.length = 1) &&
      decide (widths (run idealTool.world none (makeOps idealTool.world.lib c images custom)) =
        [[[some 2]], [[some 1]]])
    | _ => false)
  | _ => false

/-- An image in gray, turned, with alpha multiplied, and with mipmaps. -/
def grayArgs : List Str :=
  ["cuttlefish", "-i", "a", "--rotate", "90", "--grayscale", "--pre-multiply", "-m", "-f", "R8G8B8A8", "-o", "a.pvr"].map cstr

theorem gray_ok : unitOk grayArgs = true := by decide +kernel

end Toy

/-- Calls that make the mipmaps of a 3D texture of sRGB images meet the conditions of `C64_stored` and `C64_storable`, and
have a result with images. -/
example : ∃ (outs : List (Out (Image Dbl))) (t : Tex (Image Dbl)),
    run (withImages Toy.imageTool.world (Toy.libWith (Arith.ieee Toy.ideal) Toy.nearest Toy.bad)) none Toy.calls3d =
      .ok (outs, t) ∧ (∃ g, Stores t g ∧ g.bmp.width = 1) ∧
    ∀ g, Stores t g → UnitImage Toy.ideal g ∧ ∀ f ty x y, x < g.bmp.width → y < g.bmp.height →
      PixelFits f ty ((asFloats g).px x y) := by
  have key : Toy.widths (run (withImages Toy.imageTool.world (Toy.libWith (Arith.ieee Toy.ideal) Toy.nearest Toy.bad)) none
      Toy.calls3d) = [[[some 3], [some 3]], [[some 1]]] := by decide +kernel
  cases e : run (withImages Toy.imageTool.world (Toy.libWith (Arith.ieee Toy.ideal) Toy.nearest Toy.bad)) none
      Toy.calls3d with
  | ub =>
    rw [e] at key
    cases key
  | ok r =>
    obtain ⟨outs, t⟩ := r
    refine ⟨outs, t, rfl, ?_, fun g hg => ⟨?_, fun f ty x y hx hy => ?_⟩⟩
    · rw [e] at key
      cases t with
      | none => cases key
      | some i =>
        change i.images.map _ = _ at key
        obtain ⟨l, hl, e1⟩ := List.mem_map.1 (show [[some 1]] ∈ i.images.map _ by rw [key]; simp)
        obtain ⟨sl, hs, e2⟩ := List.mem_map.1 (show [some 1] ∈ l.map _ by rw [e1]; simp)
        obtain ⟨o, ho, e3⟩ := List.mem_map.1 (show some 1 ∈ sl.map _ by rw [e2]; simp)
        cases o with
        | none => cases e3
        | some g => exact ⟨g, ⟨i, rfl, l, hl, sl, hs, ho⟩, Option.some.inj e3⟩
    · exact C64_stored Toy.ideal Toy.ideal_pow (Toy.nearest_converts _) (Toy.nearest_lawful _) Toy.nearest_memory _
        (Toy.libWith_uses _ _ _) _ Toy.unit_calls3d outs t e g hg
    · exact C64_storable Toy.ideal Toy.ideal_pow (Toy.nearest_converts _) (Toy.nearest_lawful _) Toy.nearest_memory _
        (Toy.libWith_uses _ _ _) _ Toy.unit_calls3d outs t e g hg f ty x y hx hy

theorem gray_job {c : Cmd Dbl} (hc : parseCommandLine Toy.idealTool.cmd Toy.grayArgs = .ok (some (some c))) :
    UnitJob Toy.ideal Toy.nearest Toy.readAB c := by
  have key := Toy.gray_ok
  unfold Toy.unitOk at key
  rw [hc] at key
  simp only [Bool.and_eq_true, decide_eq_true_eq, Bool.not_eq_true'] at key
  refine ⟨key.1.1.1.1.1.1.2, ?_, Toy.nearest_unit _ _, Toy.nearest_unit _ _, fun p i e => ?_⟩
  · rw [key.1.1.1.1.2]
    simp
  · exact C64_integers _ _ (Toy.readAB_ideal p _ i e).1 (Toy.readAB_sources p _ i e)

/-- A job that makes an image gray, turns it, multiplies the alpha and makes mipmaps meets the conditions of `C64_loaded`
and `C64_job`. -/
example : ∃ (c : Cmd Dbl) (images : List (Option (Image Dbl))) (custom : CustomMips (Image Dbl))
    (outs : List (Out (Image Dbl))) (t : Tex (Image Dbl)) (g : Image Dbl),
    parseCommandLine Toy.idealTool.cmd Toy.grayArgs = .ok (some (some c)) ∧
    loadImages Toy.idealTool c = .ok (some (images, custom)) ∧
    (∀ g, some g ∈ images → UnitImage Toy.ideal g) ∧
    run Toy.idealTool.world none (makeOps Toy.idealTool.world.lib c images custom) = .ok (outs, t) ∧
    Stores t g ∧ g.bmp.width = 1 ∧
    ∀ x y, x < g.bmp.width → y < g.bmp.height → PixelFits c.format c.type ((asFloats g).px x y) := by
  have key := Toy.gray_ok
  unfold Toy.unitOk at key
  split at key
  · rename_i c hc
    have J := gray_job hc
    simp only [Bool.and_eq_true] at key
    obtain ⟨-, key⟩ := key
    split at key
    · rename_i images custom hl
      simp only [Bool.and_eq_true, decide_eq_true_eq, List.isEmpty_iff, List.all_eq_true] at key
      obtain ⟨⟨⟨k1, k2⟩, k3⟩, k4⟩ := key
      cases e : run Toy.idealTool.world none (makeOps Toy.idealTool.world.lib c images custom) with
      | ub =>
        rw [e] at k4
        cases k4
      | ok r =>
        obtain ⟨outs, t⟩ := r
        rw [e] at k4
        cases t with
        | none => cases k4
        | some i =>
          change i.images.map _ = _ at k4
          obtain ⟨l, hl1, e1⟩ := List.mem_map.1 (show [[some 1]] ∈ i.images.map _ by rw [k4]; simp)
          obtain ⟨sl, hs, e2⟩ := List.mem_map.1 (show [some 1] ∈ l.map _ by rw [e1]; simp)
          obtain ⟨o, ho, e3⟩ := List.mem_map.1 (show some 1 ∈ sl.map _ by rw [e2]; simp)
          cases o with
          | none => cases e3
          | some g =>
            refine ⟨c, images, custom, outs, _, g, hc, hl, (C64_loaded _ Toy.ideal_pow (Toy.nearest_converts _)
              (Toy.nearest_lawful _) Toy.readAB_ideal _ rfl c J _ _ hl).1, e, ⟨i, rfl, l, hl1, sl, hs, ho⟩,
              Option.some.inj e3, ?_⟩
            exact C64_job _ Toy.ideal_pow (Toy.nearest_converts _) (Toy.nearest_lawful _) Toy.nearest_memory
              Toy.readAB_ideal _ rfl (Toy.libWith_uses _ _ _) c J _ _ hl (by omega) (fun g hg => by
                have := k1 _ hg
                simp only [Option.all_some, Bool.and_eq_true, decide_eq_true_eq] at this
                refine ⟨by omega, by omega, by omega, by omega, ?_⟩
                rw [this.1, this.2]
                norm_num) (fun m hm => by rw [k2] at hm; cases hm) outs _ e g ⟨i, rfl, l, hl1, sl, hs, ho⟩
    · cases key
  · cases key

/-- The condition on the images is needed: a colour above 1 stays. -/
theorem C64_fails_bright : ∃ (outs : List (Out (Image Dbl))) (t : Tex (Image Dbl)) (g : Image Dbl),
    run (withImages Toy.imageTool.world (Toy.libWith (Arith.ieee Toy.ideal) Toy.nearest Toy.rgba)) none
      [.initialize .Dim2D 1 1 1 1 .Linear, .setImage (some Toy.tooBright) false none 0 0] = .ok (outs, t) ∧
    Stores t g ∧ ¬ UnitImage Toy.ideal g := by
  refine ⟨_, _, Toy.tooBright, rfl, ⟨_, rfl, _, List.mem_cons_self, _, List.mem_cons_self, List.mem_cons_self⟩, fun h => ?_⟩
  obtain ⟨q, e, -, h1⟩ := h ⟨.fin 2, .fin 0, .fin 0, .fin 1⟩ ⟨0, 0, rfl⟩ Color.r (by simp [doubleChannels])
  cases e
  norm_num at h1

end Cuttlefish
