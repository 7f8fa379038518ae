import Verif.Props.C29
import Verif.Proofs.SrgbResize
import Verif.Proofs.ToneIeee
import Verif.Spec.ToyPow
/-
C29 with the rounding of doubles and singles, for values from 0 to 1.

`AccuratePow` and `UnitImage` are in `Verif/Spec/Unit.lean`, `toLinear`, `toSRGB` and `transfer` in `Verif/Spec/Exact.lean`.
-/
namespace Cuttlefish
open Spec

/-- With the rounding of doubles, and a `pow` that is accurate to 50 bits, the functions map values from 0 to 1 to such
values, within 1.1e-8 and 4e-8 of the functions of the standard. -/
theorem C29_rounded {Lm : Libm} (P : AccuratePow Lm) {q : ℚ} (q0 : 0 ≤ q) (q1 : q ≤ 1) :
    (∃ z : ℚ, (Arith.ieee Lm).sRGBToLinear (.fin q) = .fin z ∧ 0 ≤ z ∧ z ≤ 1 ∧ |(z : ℝ) - toLinear q| ≤ 1.1 / 10 ^ 8) ∧
    ∃ z : ℚ, (Arith.ieee Lm).linearToSRGB (.fin q) = .fin z ∧ 0 ≤ z ∧ z ≤ 1 ∧ |(z : ℝ) - toSRGB q| ≤ 4 / 10 ^ 8 :=
  ⟨linear_near P q0 q1, sRGB_near P q0 q1⟩

/-- Two channels that are finite, from 0 to 1, and related by a function up to `e`. -/
def Spec.NearBy (e : ℝ) (f : ℝ → ℝ) (v v' : Dbl) : Prop :=
  ∃ p q : ℚ, v = .fin p ∧ v' = .fin q ∧ 0 ≤ p ∧ p ≤ 1 ∧ 0 ≤ q ∧ q ≤ 1 ∧ |(q : ℝ) - f p| ≤ e

theorem near_transfer {Lm : Libm} (P : AccuratePow Lm) (cs cs' : ColorSpace) (h : cs' ≠ cs) {v : Dbl} (hv : Ranged 0 1 v) :
    NearBy (7 / 10 ^ 8) (transfer cs cs') v
      (if cs' = .Linear then (Arith.ieee Lm).sRGBToLinear v else (Arith.ieee Lm).linearToSRGB v).single := by
  obtain ⟨p, rfl, p0, p1⟩ := hv
  cases cs <;> cases cs' <;> first | exact absurd rfl h | skip
  · obtain ⟨s, e, s0, s1, sa⟩ := sRGB_single P p0 p1
    exact ⟨p, s, rfl, e, p0, p1, s0, s1, sa⟩
  · obtain ⟨s, e, s0, s1, sa⟩ := linear_single P p0 p1
    exact ⟨p, s, rfl, e, p0, p1, s0, s1, sa.trans (by norm_num)⟩

/-- Changing the colour space of an image of floats from 0 to 1, with the rounding of doubles and singles: every channel
is within 7e-8 of what the standard gives for it, and alpha is the same. -/
theorem C29_image_rounded {Lm : Libm} (P : AccuratePow Lm) {i : Image Dbl} (hi : ImgOk (Arith.ieee Lm) i)
    (hf : i.format = .RGBAF ∨ i.format = .RGBF) (hu : UnitImage Lm i) (cs : ColorSpace) :
    ∃ j, i.changeColorSpace (Arith.ieee Lm) cs = .ok j ∧ ImgOk (Arith.ieee Lm) j ∧ j.format = i.format ∧
      j.colorSpace = cs ∧ j.bmp.width = i.bmp.width ∧ j.bmp.height = i.bmp.height ∧ UnitImage Lm j ∧
      ∀ x y c, i.getPixel (Arith.ieee Lm) x y = .ok (some c) → ∃ d, j.getPixel (Arith.ieee Lm) x y = .ok (some d) ∧
        d.a = c.a ∧ NearBy (7 / 10 ^ 8) (transfer i.colorSpace cs) c.r d.r ∧
        NearBy (7 / 10 ^ 8) (transfer i.colorSpace cs) c.g d.g ∧ NearBy (7 / 10 ^ 8) (transfer i.colorSpace cs) c.b d.b := by
  have float : IsFloat i.format := by rcases hf with h | h <;> rw [h] <;> simp [IsFloat]
  obtain ⟨j, e⟩ := changeColorSpace_float (lawful_ieee Lm) hi float cs
  obtain ⟨j1, j2, j3, j4, j5⟩ := changeColorSpace_keep (lawful_ieee Lm) hi e
  have uj := change_unit (accurate_unit P) hi float hu e
  refine ⟨j, e, j1, j2, j3, j4, j5, uj, fun x y c hc => ?_⟩
  obtain ⟨r, g, b, a⟩ := unit_iff.1 (hu c ⟨x, y, hc⟩)
  unfold Image.changeColorSpace at e
  by_cases hcs : cs = i.colorSpace
  · rw [if_pos hcs] at e
    cases e
    have same {v : Dbl} (h : Ranged 0 1 v) : NearBy (7 / 10 ^ 8) (transfer i.colorSpace cs) v v := by
      obtain ⟨p, rfl, p0, p1⟩ := h
      refine ⟨p, p, rfl, rfl, p0, p1, p0, p1, ?_⟩
      rw [hcs, show transfer i.colorSpace i.colorSpace = id by cases i.colorSpace <;> rfl, id, sub_self, abs_zero]
      norm_num
    exact ⟨c, hc, rfl, same r, same g, same b⟩
  · rw [if_neg hcs] at e
    obtain ⟨k, e1, e2⟩ := Res.bind_eq_ok.1 e
    cases e2
    obtain ⟨g1, g2, -⟩ := getPixel_some hc
    obtain ⟨d, d1, d2⟩ := Image.get_ok j1 (y := i.bmp.height - y - 1) (x := x) (by rw [j5]; omega) (by rw [j4]; exact g1)
    have hd : k.getPixel (Arith.ieee Lm) x y = .ok (some d) := by
      have j4 : k.bmp.width = i.bmp.width := j4
      have j5 : k.bmp.height = i.bmp.height := j5
      rw [getPixel_in (by omega) (by omega), j5]
      exact congrArg (Res.bind · _) d2
    have e1' : i.mapPixels (Arith.ieee Lm) (fun c =>
        ⟨if cs = .Linear then (Arith.ieee Lm).sRGBToLinear c.r else (Arith.ieee Lm).linearToSRGB c.r,
          if cs = .Linear then (Arith.ieee Lm).sRGBToLinear c.g else (Arith.ieee Lm).linearToSRGB c.g,
          if cs = .Linear then (Arith.ieee Lm).sRGBToLinear c.b else (Arith.ieee Lm).linearToSRGB c.b, c.a⟩) = .ok k := by
      rw [← e1]
      congr 1
      funext c
      split <;> rfl
    obtain ⟨c', hc', rfl⟩ := map_stored_at hi hf
      (f := fun v => if cs = .Linear then (Arith.ieee Lm).sRGBToLinear v else (Arith.ieee Lm).linearToSRGB v) e1' hd
    rw [hc] at hc'
    cases hc'
    exact ⟨_, hd, rfl, near_transfer P _ _ hcs r, near_transfer P _ _ hcs g, near_transfer P _ _ hcs b⟩

/-- There and back, one channel. -/
theorem near_back {cs cs' : ColorSpace} {v v' v'' : Dbl} (h : NearBy (7 / 10 ^ 8) (transfer cs cs') v v')
    (h' : NearBy (7 / 10 ^ 8) (transfer cs' cs) v' v'') : NearBy (2 / 10 ^ 6) id v v'' := by
  obtain ⟨p, q, rfl, rfl, p0, p1, q0, q1, a⟩ := h
  obtain ⟨q', s, e, rfl, -, -, s0, s1, b⟩ := h'
  cases e
  refine ⟨p, s, rfl, rfl, p0, p1, s0, s1, ?_⟩
  have rp0 : (0 : ℝ) ≤ p := by exact_mod_cast p0
  have rp1 : (p : ℝ) ≤ 1 := by exact_mod_cast p1
  have rq0 : (0 : ℝ) ≤ q := by exact_mod_cast q0
  have rq1 : (q : ℝ) ≤ 1 := by exact_mod_cast q1
  cases cs <;> cases cs'
  · have a : |(q : ℝ) - p| ≤ 7 / 10 ^ 8 := a
    have b : |(s : ℝ) - q| ≤ 7 / 10 ^ 8 := b
    rw [id, abs_le] at *
    norm_num at *
    constructor <;> linarith
  · -- linear to sRGB and back
    have a : |(q : ℝ) - toSRGB p| ≤ 7 / 10 ^ 8 := a
    have b : |(s : ℝ) - toLinear q| ≤ 7 / 10 ^ 8 := b
    have n := toLinear_toSRGB_near (p : ℝ)
    obtain ⟨t0, t1⟩ := toSRGB_unit rp0 rp1
    have c := toLinear_move (by norm_num) rq0 rq1 t0 t1 a
    rw [id]
    rw [abs_le] at b n c ⊢
    norm_num at b n c ⊢
    constructor <;> linarith
  · have a : |(q : ℝ) - toLinear p| ≤ 7 / 10 ^ 8 := a
    have b : |(s : ℝ) - toSRGB q| ≤ 7 / 10 ^ 8 := b
    have n := toSRGB_toLinear_near (p : ℝ)
    have c := toSRGB_move (x := q) (y := toLinear p) (e := 7 / 10 ^ 8) (by norm_num) (by linarith [(abs_le.1 a).2])
    have d := toSRGB_move (x := toLinear p) (y := q) (e := 7 / 10 ^ 8) (by norm_num) (by linarith [(abs_le.1 a).1])
    rw [id]
    rw [abs_le] at b n ⊢
    norm_num at b n c d ⊢
    constructor <;> linarith
  · have a : |(q : ℝ) - p| ≤ 7 / 10 ^ 8 := a
    have b : |(s : ℝ) - q| ≤ 7 / 10 ^ 8 := b
    rw [id, abs_le] at *
    norm_num at *
    constructor <;> linarith

/-- Changing the colour space and changing it back, with rounding: every channel is within 2e-6 of the original one, and
alpha is the same. -/
theorem C29_twice_rounded {Lm : Libm} (P : AccuratePow Lm) {i : Image Dbl} (hi : ImgOk (Arith.ieee Lm) i)
    (hf : i.format = .RGBAF ∨ i.format = .RGBF) (hu : UnitImage Lm i) (cs : ColorSpace) :
    ∃ j k, i.changeColorSpace (Arith.ieee Lm) cs = .ok j ∧ j.changeColorSpace (Arith.ieee Lm) i.colorSpace = .ok k ∧
      k.format = i.format ∧ k.colorSpace = i.colorSpace ∧ UnitImage Lm k ∧
      ∀ x y c, i.getPixel (Arith.ieee Lm) x y = .ok (some c) → ∃ d, k.getPixel (Arith.ieee Lm) x y = .ok (some d) ∧
        d.a = c.a ∧ NearBy (2 / 10 ^ 6) id c.r d.r ∧ NearBy (2 / 10 ^ 6) id c.g d.g ∧ NearBy (2 / 10 ^ 6) id c.b d.b := by
  obtain ⟨j, ej, j1, j2, j3, -, -, j4, j5⟩ := C29_image_rounded P hi hf hu cs
  obtain ⟨k, ek, k1, k2, k3, -, -, k4, k5⟩ := C29_image_rounded P j1 (by rw [j2]; exact hf) j4 i.colorSpace
  refine ⟨j, k, ej, ek, k2.trans j2, k3, k4, fun x y c hc => ?_⟩
  obtain ⟨d, hd, a, r, g, b⟩ := j5 x y c hc
  obtain ⟨d', hd', a', r', g', b'⟩ := k5 x y d hd
  rw [j3] at r' g' b'
  exact ⟨d', hd', a'.trans a, near_back r r', near_back g g', near_back b b'⟩

/-- Images of other formats, 5 to 16 bits per channel and grey ones: every colour is within half a step of the format and
7e-8 of what the standard gives for it, and alpha is the same. -/
theorem C29_formats_rounded {Lm : Libm} (P : AccuratePow Lm) {i : Image Dbl} (hi : ImgOk (Arith.ieee Lm) i)
    (hf : Tonal i.format) (hu : UnitImage Lm i) (cs : ColorSpace) :
    ∃ j, i.changeColorSpace (Arith.ieee Lm) cs = .ok j ∧ ImgOk (Arith.ieee Lm) j ∧ j.format = i.format ∧
      j.colorSpace = cs ∧ j.bmp.width = i.bmp.width ∧ j.bmp.height = i.bmp.height ∧ UnitImage Lm j ∧
      ∀ x y c c', i.getPixel (Arith.ieee Lm) x y = .ok (some c) → RealColor c c' →
        ∃ d, j.getPixel (Arith.ieee Lm) x y = .ok (some d) ∧ d.a = c.a ∧
          NearChannels (halfStep i.format + 7 / 10 ^ 8) d (onColor (transfer i.colorSpace cs) c') := by
  have step : 0 ≤ halfStep i.format := by unfold halfStep; split <;> norm_num
  by_cases hcs : cs = i.colorSpace
  · refine ⟨i, by rw [Image.changeColorSpace, if_pos hcs], hi, rfl, hcs.symm, rfl, rfl, hu, fun x y c c' hc hr => ?_⟩
    refine ⟨c, hc, rfl, ?_⟩
    have e : onColor (transfer i.colorSpace cs) c' = c' := by
      rw [hcs, show transfer i.colorSpace i.colorSpace = id by cases i.colorSpace <;> rfl]
      rfl
    rw [e]
    have wider {v : Dbl} {x : ℝ} (h : NearReal 0 v x) : NearReal (halfStep i.format + 7 / 10 ^ 8) v x := by
      obtain ⟨q, e, h⟩ := h
      refine ⟨q, e, h.trans ?_⟩
      norm_num
      linarith
    exact ⟨wider hr.1, wider hr.2.1, wider hr.2.2.1, wider hr.2.2.2⟩
  have near {v : Dbl} (hv : Ranged 0 1 v) {x : ℝ} (hx : NearReal 0 v x) :
      ∃ z : ℚ, (if cs = .Linear then (Arith.ieee Lm).sRGBToLinear v else (Arith.ieee Lm).linearToSRGB v) = .fin z ∧
        0 ≤ z ∧ z ≤ 1 ∧ |(z : ℝ) - transfer i.colorSpace cs x| ≤ 4 / 10 ^ 8 := by
    obtain ⟨q, rfl, q0, q1⟩ := hv
    obtain ⟨q', e, h⟩ := hx
    cases e
    rw [← sub_eq_zero.1 (abs_nonpos_iff.1 h)]
    generalize i.colorSpace = cs0 at hcs ⊢
    cases cs <;> cases cs0 <;> first | exact absurd rfl hcs | skip
    · obtain ⟨z, e, z0, z1, za⟩ := linear_near P q0 q1
      exact ⟨z, e, z0, z1, za.trans (by norm_num)⟩
    · exact sRGB_near P q0 q1
  obtain ⟨j, e, h1, h2, h3, h4, h5, h6, h7⟩ := map_near hi (g := fun c =>
      ⟨if cs = .Linear then (Arith.ieee Lm).sRGBToLinear c.r else (Arith.ieee Lm).linearToSRGB c.r,
        if cs = .Linear then (Arith.ieee Lm).sRGBToLinear c.g else (Arith.ieee Lm).linearToSRGB c.g,
        if cs = .Linear then (Arith.ieee Lm).sRGBToLinear c.b else (Arith.ieee Lm).linearToSRGB c.b, c.a⟩)
    (G := onColor (transfer i.colorSpace cs)) (e := 4 / 10 ^ 8) hf hu (fun _ => rfl) (fun _ => rfl) (by
      intro c hc
      obtain ⟨r, g, b, a⟩ := unit_iff.1 hc
      have one {v : Dbl} (hv : Ranged 0 1 v) :
          Ranged 0 1 (if cs = .Linear then (Arith.ieee Lm).sRGBToLinear v else (Arith.ieee Lm).linearToSRGB v) := by
        obtain ⟨q, e, q0, q1⟩ := hv
        obtain ⟨z, e, z0, z1, -⟩ := near ⟨q, e, q0, q1⟩ (x := q) ⟨q, e, by simp⟩
        exact ⟨z, e, z0, z1⟩
      exact unit_iff.2 ⟨one r, one g, one b, a⟩) (by
      rintro ⟨r, g, b, a⟩ e1 e2
      dsimp only at e1 e2
      subst e1
      subst e2
      exact ⟨rfl, rfl⟩) (by
      intro c c' hc hr
      obtain ⟨r, g, b, -⟩ := unit_iff.1 hc
      obtain ⟨z1, e1, -, -, a1⟩ := near r hr.1
      obtain ⟨z2, e2, -, -, a2⟩ := near g hr.2.1
      obtain ⟨z3, e3, -, -, a3⟩ := near b hr.2.2.1
      exact ⟨⟨z1, e1, a1⟩, ⟨z2, e2, a2⟩, z3, e3, a3⟩) (by norm_num)
  refine ⟨{ j with colorSpace := cs }, ?_, h1, h2, rfl, h4, h5, h6, ?_⟩
  · unfold Image.changeColorSpace
    rw [if_neg hcs]
    refine Res.bind_eq_ok.2 ⟨j, ?_, rfl⟩
    rw [← e]
    congr 1
    funext c
    split <;> rfl
  · intro x y c c' hc hr
    obtain ⟨d, d1, d2, d3⟩ := h7 x y c c' hc hr
    refine ⟨d, d1, d2, ?_⟩
    rw [show halfStep i.format + 7 / 10 ^ 8 = halfStep i.format + 4 / 10 ^ 8 + 3 / 10 ^ 8 by norm_num; ring]
    exact d3

/-- An sRGB image of floats and a `pow` that meet the hypotheses of the theorems with rounding. -/
example : AccuratePow Toy.accurate ∧ ImgOk (Arith.ieee Toy.accurate) Toy.srgb3x2 ∧ Toy.srgb3x2.format = .RGBAF ∧
    UnitImage Toy.accurate Toy.srgb3x2 ∧
    Toy.srgb3x2.getPixel (Arith.ieee Toy.accurate) 1 0 = .ok (some ⟨.fin 1, .fin (1 / 2), .fin 1, .fin (1 / 4)⟩) := by
  refine ⟨Toy.accurate_pow, (Toy.srgb3x2_ok _).1, rfl, (Toy.srgb3x2_ok _).2.2, ?_⟩
  rw [getPixel_in (by norm_num [Toy.srgb3x2]) (by norm_num [Toy.srgb3x2])]
  rfl

end Cuttlefish
