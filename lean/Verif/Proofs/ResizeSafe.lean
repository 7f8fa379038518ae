import Verif.Proofs.ImageKeep
import Verif.Proofs.FilterIeee
import Verif.Proofs.Pixels
import Verif.Proofs.Resize
/-
Resizing is defined, in exact and in IEEE arithmetic.
-/
namespace Cuttlefish
open Spec
variable {N : Type} {A : Arith N} {FI : FreeImage N} {Lm : Libm}

/-- The filters are defined for all pixels, with colours in `Q`. -/
def FiltersGive (A : Arith N) (Q : Color N → Prop) (i : Image N) (w h : ℕ) : Prop :=
  ∀ y x, y < h → x < w → (∃ c, boxPixel A i w h y x = .ok c ∧ Q c) ∧ ∃ c, linearPixel A i w h y x = .ok c ∧ Q c

/-- The filters are defined. -/
def FiltersDefined (A : Arith N) : Prop :=
  ∀ (i : Image N) w h, ImgOk A i → Countable i → w < 2 ^ 32 → h < 2 ^ 32 → FiltersGive A (fun _ => True) i w h

theorem filters_ieee : FiltersDefined (Arith.ieee Lm) := by
  intro i w h hi hc hw hh y x hy hx
  obtain ⟨c, e, -⟩ := boxPixel_ieee hi hc hw hh hy hx
  obtain ⟨d, e', -⟩ := linearPixel_ieee hi hc hw hh hy hx
  exact ⟨⟨c, e, trivial⟩, d, e', trivial⟩

theorem filters_exact : FiltersDefined Arith.exact := by
  intro i w h hi hc hw hh y x hy hx
  obtain ⟨h1, h2, h3, h4, h5⟩ := hc
  obtain ⟨lo, hi', hb, -⟩ := image_bounds hi h1 h2
  obtain ⟨c, e, -⟩ := boxPixel_between hi hb h1 h2 h3 h4 h5 hy hx
  obtain ⟨d, e', -⟩ := linearPixel_between hi hb h1 h2 h3 h4 hy hx
  exact ⟨⟨c, e, trivial⟩, d, e', trivial⟩

theorem fillPixels_defined {dst : Image N} {w h : ℕ} {f : ℕ → ℕ → Res (Color N)} {Q : Color N → Prop} {R : Px N → Prop}
    (hw : w ≤ dst.bmp.width) (hh : h ≤ dst.bmp.height) (hf : ∀ y x, y < h → x < w → ∃ c, f y x = .ok c ∧ Q c)
    (hs : ∀ c, Q c → ∃ p, setPixelNoGrayscaleImpl A dst.format c = .ok p ∧ R p) :
    ∃ j, fillPixels A dst w h f = .ok j ∧ j.format = dst.format ∧ j.colorSpace = dst.colorSpace ∧
      j.bmp.width = dst.bmp.width ∧ j.bmp.height = dst.bmp.height ∧
      ∀ y x, y < h → x < w → R (j.bmp.px y x) := by
  obtain ⟨j, e, h1, h2, h3, h4, h5⟩ := write_grid (dst := dst) (h := h) (w := w) (q := fun y x => (y, x))
    (P := fun _ _ p => R p) (body := fun y x dst => do
      let c ← f y x
      dst.set A y x c) (by
      intro y hy x hx d df dw dh dp
      obtain ⟨c, ec, qc⟩ := hf y x hy hx
      obtain ⟨p, ep, rp⟩ := hs c qc
      refine ⟨p, rp, ?_⟩
      rw [ec, Res.ok_bind]
      exact Image.set_ok (by omega) (by omega) (by rw [df]; exact ep))
    (by intro y _ x _ y' _ x' _ h; simpa using h)
  exact ⟨j, e, h1, h2, h3, h4, fun y x hy hx => h5 y hy x hx⟩

/-- What FreeImage gives for a resize, if it is asked. -/
abbrev asked (FI : FreeImage N) (i : Image N) (w h : ℕ) (filter : ResizeFilter) : Option (Bitmap N) :=
  if rescales i.format then FI.rescale i.bmp w h filter else none

theorem own_asked {i : Image N} {w h : ℕ} {filter : ResizeFilter} (own : OwnFilter FI i w h filter) :
    asked FI i w h filter = none := by
  rcases own.2 with h | h
  · simp only [List.mem_cons, List.not_mem_nil, or_false] at h
    unfold asked
    rcases h with h | h | h | h | h <;> rw [h] <;> simp [rescales]
  · unfold asked
    rw [h]
    split <;> rfl

/-- The part of `resize` after the change to linear space. -/
theorem resizeLinear_gives (F : LawfulFI A FI) {i : Image N} {w h : ℕ} {filter : ResizeFilter} {Q : Color N → Prop}
    {R : Px N → Prop} (hf : ∀ y x, y < h → x < w →
      ∃ c, (if filter = .Box then boxPixel A i w h y x else linearPixel A i w h y x) = .ok c ∧ Q c)
    (hs : ∀ c, Q c → ∃ p, setPixelNoGrayscaleImpl A i.format c = .ok p ∧ R p) :
    ∃ r, resizeLinear A FI i w h filter = .ok r ∧ (asked FI i w h filter = none → ∀ j, r = some j →
      ∀ y x, y < h → x < w → R (j.bmp.px y x)) := by
  unfold resizeLinear
  cases hres : (if rescales i.format then FI.rescale i.bmp w h filter else none) with
  | some b =>
    refine ⟨_, rfl, fun h => ?_⟩
    rw [asked, hres] at h
    cases h
  | none =>
    cases hn : Image.new FI i.format w h i.colorSpace with
    | none =>
      cases filter
      case Box | Linear => exact ⟨none, rfl, by simp⟩
      all_goals exact ⟨none, rfl, by simp⟩
    | some dst =>
      obtain ⟨n1, n2, n3, n4, -⟩ := new_ok F hn
      obtain ⟨j, e, j1, j2, j3, j4, j5⟩ := fillPixels_defined (A := A) (dst := dst) (w := w) (h := h) (Q := Q) (R := R)
        (f := fun y x => if filter = .Box then boxPixel A i w h y x else linearPixel A i w h y x) (by omega) (by omega)
        hf (by rw [n1]; exact hs)
      cases filter
      case Box | Linear =>
        refine ⟨some j, congrArg (fun r => r >>= fun d => Res.ok (some d)) e, ?_⟩
        rintro - _ ⟨⟩
        exact j5
      all_goals exact ⟨none, rfl, by simp⟩

theorem resizeLinear_defined (F : LawfulFI A FI) {i : Image N} {w h : ℕ} {filter : ResizeFilter} {Q : Color N → Prop}
    {R : Px N → Prop} (hf : FiltersGive A Q i w h)
    (hs : ∀ c, Q c → ∃ p, setPixelNoGrayscaleImpl A i.format c = .ok p ∧ R p) :
    ∃ r, resizeLinear A FI i w h filter = .ok r ∧ (asked FI i w h filter = none → ∀ j, r = some j →
      ∀ y x, y < h → x < w → R (j.bmp.px y x)) := by
  refine resizeLinear_gives F (Q := Q) ?_ hs
  intro y x hy hx
  obtain ⟨h1, h2⟩ := hf y x hy hx
  by_cases hf : filter = .Box
  · simp only [if_pos hf]; exact h1
  · simp only [if_neg hf]; exact h2

/-- Every colour can be stored in a float image. -/
theorem set_float {f : IFormat} (hf : IsFloat f) (c : Color N) : ∃ p, setPixelNoGrayscaleImpl A f c = .ok p := by
  rcases hf with rfl | rfl | rfl | rfl | rfl <;> exact ⟨_, rfl⟩

theorem changeColorSpace_float (L : LawfulArith A) {i : Image N} (hi : ImgOk A i) (hf : IsFloat i.format)
    (cs : ColorSpace) : ∃ j, i.changeColorSpace A cs = .ok j := by
  unfold Image.changeColorSpace
  split
  · exact ⟨i, rfl⟩
  · obtain ⟨j, e, -⟩ := mapPixels_spec L hi (f := _) (fun y x _ _ c _ => set_float hf _)
    rw [e]
    exact ⟨_, rfl⟩

/-- Resizing a float image is defined. -/
theorem resize_float (L : LawfulArith A) (F : LawfulFI A FI) (D : FiltersDefined A) {i : Image N} (hi : ImgOk A i)
    (hc : Countable i) (hf : IsFloat i.format) {w h : ℕ} (hw : w < 2 ^ 32) (hh : h < 2 ^ 32) (filter : ResizeFilter) :
    ∃ r, i.resize A FI w h filter = .ok r := by
  have lin {i : Image N} (hi : ImgOk A i) (hc : Countable i) (hf : IsFloat i.format) :
      ∃ r, resizeLinear A FI i w h filter = .ok r := by
    obtain ⟨r, e, -⟩ := resizeLinear_defined (A := A) (R := fun _ => True) (filter := filter) F (D i w h hi hc hw hh)
      (fun c _ => by
        obtain ⟨p, e⟩ := set_float (A := A) hf c
        exact ⟨p, e, trivial⟩)
    exact ⟨r, e⟩
  unfold Image.resize
  split
  · exact ⟨none, rfl⟩
  split
  · exact ⟨_, rfl⟩
  split
  · cases hk : i.copy FI with
    | none => exact ⟨none, rfl⟩
    | some k =>
      cases copy_keep F hk
      obtain ⟨j, ej⟩ := changeColorSpace_float L hi hf .Linear
      obtain ⟨j1, j2, j3, j4, j5⟩ := changeColorSpace_keep L hi ej
      obtain ⟨r, er⟩ := lin j1 (by unfold Spec.Countable; rw [j4, j5]; exact hc) (by rw [j2]; exact hf)
      dsimp only
      rw [ej, Res.ok_bind, er, Res.ok_bind]
      cases r with
      | none => exact ⟨none, rfl⟩
      | some l =>
        obtain ⟨l1, l2, -⟩ := resizeLinear_keep L F j1 er
        obtain ⟨m, em⟩ := changeColorSpace_float L l1 (by rw [l2, j2]; exact hf) i.colorSpace
        dsimp only
        rw [em]
        exact ⟨_, rfl⟩
  · exact lin hi hc hf

theorem within_one (e : ℕ) : Within e (.fin 1) := ⟨1, rfl, by rw [abs_one]; exact one_le_pow₀ (by norm_num)⟩

theorem within_zero (e : ℕ) : Within e (.fin 0) := ⟨0, rfl, by rw [abs_zero]; positivity⟩

theorem within_single {e : ℕ} (he : e ≤ 127) {c d : Dbl} (hc : Within e c) (h : FloatAs c d) : Within e d := by
  obtain ⟨q, rfl, hq⟩ := hc
  have rep : Rep ((2 : ℚ) ^ e) := ⟨1, e, by norm_num, by omega, by simp⟩
  have repn : Rep (-(2 : ℚ) ^ e) := ⟨-1, e, by norm_num, by omega, by simp⟩
  have le : (2 : ℚ) ^ e ≤ (2 : ℚ) ^ (127 : ℤ) := by
    rw [← zpow_natCast]
    exact zpow_le_zpow_right₀ (by norm_num) (by omega)
  refine ⟨rne q, ?_, ?_⟩
  · rw [h]
    exact round_fin (hq.trans le)
  · rw [abs_le] at hq ⊢
    have h1 := rne_mono hq.1
    have h2 := rne_mono hq.2
    rw [rne_exact rep] at h2
    rw [rne_exact repn] at h1
    exact ⟨h1, h2⟩

theorem within_norm {e m : ℕ} (hm : m ≤ 65535) {c d : Dbl} (h : NormAs m c d) : Within e d := by
  obtain ⟨q, k, -, k0, k1, -, rfl⟩ := h
  have a0 : (0 : ℚ) ≤ (k : ℚ) / m := by
    have : (0 : ℚ) ≤ k := by exact_mod_cast k0
    positivity
  have a1 : (k : ℚ) / m ≤ 1 := by
    refine div_le_one_of_le₀ ?_ (by positivity)
    exact_mod_cast k1
  have a2 : rneD ((k : ℚ) / m) ≤ 1 := rneD_le_of repD_one a1
  have a3 : 0 ≤ rneD ((k : ℚ) / m) := by
    have := rneD_mono a0
    rwa [rneD_zero] at this
  refine ⟨rneD (k / m), ofQ_small (by rw [abs_of_nonneg a0]; linarith), ?_⟩
  rw [abs_of_nonneg a3]
  exact a2.trans (one_le_pow₀ (by norm_num))

theorem within_grey {e : ℕ} {d : Color Dbl} (h : Within e d.r) (g : Grey d) : Limited e d := by
  obtain ⟨g1, g2, g3⟩ := g
  exact ⟨h, by rw [g1]; exact h, by rw [g2]; exact h, by rw [g3]; exact within_one e⟩

/-- A limited colour can be stored, and what is read back is limited. -/
theorem set_limited {f : IFormat} {e : ℕ} (he : e ≤ 127) (hf : NotInteger f) {c : Color Dbl} (hc : Limited e c) :
    ∃ p, setPixelNoGrayscaleImpl (Arith.ieee Lm) f c = .ok p ∧
      ∀ d, getPixelImpl (Arith.ieee Lm) f p = .ok d → Limited e d := by
  have nn {v : Dbl} (h : Within e v) : v ≠ .nan := by
    obtain ⟨q, rfl, -⟩ := h
    simp
  obtain ⟨h1, h2, h3, h4⟩ := hc
  have hk : Keepable f c := by
    simp only [NotInteger, List.mem_cons, List.not_mem_nil, or_false, not_or] at hf
    obtain ⟨f1, f2, f3, f4, f5⟩ := hf
    cases f <;> first | contradiction | exact trivial | exact nn h1 | exact ⟨nn h1, nn h2, nn h3⟩ |
      exact ⟨nn h1, nn h2, nn h3, nn h4⟩
  obtain ⟨p, d, ep, -, ed, hb⟩ := set_read (L := Lm) hk
  refine ⟨p, ep, ?_⟩
  intro d' ed'
  rw [ed] at ed'
  cases ed'
  simp only [NotInteger, List.mem_cons, List.not_mem_nil, or_false, not_or] at hf
  obtain ⟨f1, f2, f3, f4, f5⟩ := hf
  cases f
  case Invalid | Int16 | UInt16 | Int32 | UInt32 => contradiction
  case Gray8 | Gray16 => exact within_grey (within_norm (by norm_num) hb.1) hb.2
  case RGB5 | RGB565 | RGB8 | RGB16 =>
    obtain ⟨b1, b2, b3, b4⟩ := hb
    exact ⟨within_norm (by norm_num) b1, within_norm (by norm_num) b2, within_norm (by norm_num) b3,
      by rw [b4]; exact within_one e⟩
  case RGBA8 | RGBA16 =>
    obtain ⟨b1, b2, b3, b4⟩ := hb
    exact ⟨within_norm (by norm_num) b1, within_norm (by norm_num) b2, within_norm (by norm_num) b3,
      within_norm (by norm_num) b4⟩
  case RGBF =>
    obtain ⟨b1, b2, b3, b4⟩ := hb
    exact ⟨within_single he h1 b1, within_single he h2 b2, within_single he h3 b3, by rw [b4]; exact within_one e⟩
  case RGBAF =>
    obtain ⟨b1, b2, b3, b4⟩ := hb
    exact ⟨within_single he h1 b1, within_single he h2 b2, within_single he h3 b3, within_single he h4 b4⟩
  case Float => exact within_grey (within_single he h1 hb.1) hb.2
  case Double => exact within_grey (by rw [hb.1]; exact h1) hb.2
  case Complex =>
    obtain ⟨b1, b2, b3, b4⟩ := hb
    exact ⟨by rw [b1]; exact h1, by rw [b2]; exact h2, by rw [b3]; exact within_zero e, by rw [b4]; exact within_one e⟩

theorem limitedPx {e : ℕ} {i : Image Dbl} (h : LimitedImage Lm e i) :
    RangedPx Lm (timesColor (limits e) (-1)) (limits e) i := by
  intro y x c hy hx hc
  exact limited_iff.1 (h _ _ c (getPixel_line hy hx hc))

/-- The filters keep limited colours limited. -/
theorem filters_limited {i : Image Dbl} {w h e : ℕ} (hi : ImgOk (Arith.ieee Lm) i) (hc : Countable i) (hw : w < 2 ^ 32)
    (hh : h < 2 ^ 32) (he : e ≤ 900) (hl : LimitedImage Lm e i) : FiltersGive (Arith.ieee Lm) (Limited e) i w h := by
  intro y x hy hx
  obtain ⟨c, e1, e2⟩ := boxPixel_ieee hi hc hw hh hy hx
  obtain ⟨d, e3, e4⟩ := linearPixel_ieee hi hc hw hh hy hx
  obtain ⟨l1, l2⟩ := limits_lin he
  have hs := window_small hc (w := w) (h := h)
  exact ⟨⟨c, e1, limited_iff.2 (e2 _ _ (l1.imp fun b h => h.box (by omega)) (l2.imp fun b h => h.box (by omega))
    (limitedPx hl))⟩, d, e3, limited_iff.2 (e4 _ _ l1 l2 (limitedPx hl))⟩

end Cuttlefish
