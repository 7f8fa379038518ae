import Verif.Proofs.Srgb
import Verif.Proofs.ImageMap
import Verif.Spec.ToyImage
/-
C29: sRGB and linear conversions.

The functions are stated in exact arithmetic (`Arith.exact`): what the code computes if no operation
rounds.  With rounding they are in `Verif/Props/C29Rounded.lean`.  `toLinear`, `toSRGB` and `stored` are in `Verif/Spec/Exact.lean`.
-/
namespace Cuttlefish
open Spec

/-- `sRGBToLinear` is the function of the standard, is strictly increasing everywhere, and maps 0 to 0
and 1 to 1. -/
theorem C29_to_linear : (∀ c, Arith.exact.sRGBToLinear c = toLinear c) ∧
    (∀ x y, x < y → Arith.exact.sRGBToLinear x < Arith.exact.sRGBToLinear y) ∧
    Arith.exact.sRGBToLinear 0 = 0 ∧ Arith.exact.sRGBToLinear 1 = 1 := by
  simp only [exact_toLinear]
  refine ⟨fun _ => trivial, fun x y h => toLinear_strict h, ?_, ?_⟩
  · rw [toLinear_low (by norm_num), zero_div]
  · rw [toLinear_high (by norm_num), upL, show ((1 : ℝ) + 0.055) / 1.055 = 1 by norm_num, Real.one_rpow]

/-- `linearToSRGB` is the function of the standard, maps 0 to 0 and 1 to 1, is strictly increasing below
and above its threshold, and decreases by less than 3e-8 where the branches meet. -/
theorem C29_to_srgb_partial : (∀ c, Arith.exact.linearToSRGB c = toSRGB c) ∧
    Arith.exact.linearToSRGB 0 = 0 ∧ Arith.exact.linearToSRGB 1 = 1 ∧
    (∀ x y, x < y → y ≤ 0.0031308 ∨ 0.0031308 < x →
      Arith.exact.linearToSRGB x < Arith.exact.linearToSRGB y) ∧
    ∀ x y, x < y → Arith.exact.linearToSRGB x < Arith.exact.linearToSRGB y + 3 / 10 ^ 8 := by
  simp only [exact_toSRGB]
  refine ⟨fun _ => trivial, ?_, ?_, ?_, fun x y h => toSRGB_almost h⟩
  · rw [toSRGB_low (by norm_num), zero_mul]
  · rw [toSRGB_high (by norm_num), upS, Real.one_rpow]
    norm_num
  · intro x y h hxy
    rcases hxy with hy | hx
    · rw [toSRGB_low hy, toSRGB_low (by linarith)]
      linarith
    · rw [toSRGB_high hx, toSRGB_high (by linarith)]
      exact upS_strict (by linarith) h

/-- `linearToSRGB` is not increasing on [0, 1]: the value at its threshold is above the values that
follow. -/
theorem C29_fails_increasing : ∃ x y : ℝ, 0 ≤ x ∧ x < y ∧ y ≤ 1 ∧
    Arith.exact.linearToSRGB y < Arith.exact.linearToSRGB x := by
  refine ⟨0.0031308, 0.003130801, by norm_num, by norm_num, by norm_num, ?_⟩
  rw [exact_toSRGB, exact_toSRGB, toSRGB_low le_rfl, toSRGB_high (by norm_num)]
  have := upS_high
  linarith

/-- The functions undo each other, except for values next to the thresholds, where the result is within
1e-7 and 1e-8. -/
theorem C29_inverse_partial :
    (∀ c, c ≤ 0.040449936 ∨ 0.04045 < c → Arith.exact.linearToSRGB (Arith.exact.sRGBToLinear c) = c) ∧
    (∀ c, c ≤ 0.0031308 ∨ 0.0031308073 ≤ c → Arith.exact.sRGBToLinear (Arith.exact.linearToSRGB c) = c) ∧
    (∀ c, |Arith.exact.linearToSRGB (Arith.exact.sRGBToLinear c) - c| ≤ 1 / 10 ^ 7) ∧
    ∀ c, |Arith.exact.sRGBToLinear (Arith.exact.linearToSRGB c) - c| ≤ 1 / 10 ^ 8 := by
  simp only [exact_toSRGB, exact_toLinear]
  exact ⟨fun c h => toSRGB_toLinear h, fun c h => toLinear_toSRGB h, toSRGB_toLinear_near,
    toLinear_toSRGB_near⟩

/-- They do not undo each other everywhere on [0, 1]. -/
theorem C29_fails_inverse :
    (∃ c : ℝ, 0 ≤ c ∧ c ≤ 1 ∧ Arith.exact.linearToSRGB (Arith.exact.sRGBToLinear c) ≠ c) ∧
    ∃ c : ℝ, 0 ≤ c ∧ c ≤ 1 ∧ Arith.exact.sRGBToLinear (Arith.exact.linearToSRGB c) ≠ c := by
  simp only [exact_toSRGB, exact_toLinear]
  refine ⟨⟨0.04045, by norm_num, by norm_num, ?_⟩, 0.003130801, by norm_num, by norm_num, ?_⟩
  · rw [toLinear_low le_rfl, toSRGB_high (by norm_num)]
    have := upS_top
    intro h
    rw [h] at this
    norm_num at this
  · have := upS_high
    rw [toSRGB_high (by norm_num), toLinear_low (by linarith)]
    intro h
    rw [div_eq_iff (by norm_num)] at h
    rw [h] at this
    norm_num at this

/-- `changeColorSpace` replaces every colour by the converted one, stored in the format of the image,
and sets the colour space.  For the integer formats the results have to fit the format. -/
theorem C29_image {i : Image ℝ} (hi : ImgOk Arith.exact i) (cs : ColorSpace)
    (hfit : ∀ x y c, i.getPixel Arith.exact x y = .ok (some c) →
      Fitting i.format (onColor (transfer i.colorSpace cs) c)) :
    ∃ j, i.changeColorSpace Arith.exact cs = .ok j ∧ ImgOk Arith.exact j ∧ j.format = i.format ∧
      j.colorSpace = cs ∧ j.bmp.width = i.bmp.width ∧ j.bmp.height = i.bmp.height ∧
      ∀ x y c, i.getPixel Arith.exact x y = .ok (some c) →
        j.getPixel Arith.exact x y =
          .ok (some (stored i.format (onColor (transfer i.colorSpace cs) c))) := by
  unfold Image.changeColorSpace
  by_cases hcs : cs = i.colorSpace
  · rw [if_pos hcs]
    refine ⟨i, rfl, hi, rfl, hcs.symm, rfl, rfl, ?_⟩
    intro x y c hc
    have : transfer i.colorSpace cs = id := by
      rw [hcs]
      cases i.colorSpace <;> rfl
    rw [this, hc, show onColor id c = c from rfl, (exact_read hi hc).1]
  · rw [if_neg hcs]
    have hfun : (fun c : Color ℝ => if cs = .Linear then (⟨Arith.exact.sRGBToLinear c.r, Arith.exact.sRGBToLinear c.g,
        Arith.exact.sRGBToLinear c.b, c.a⟩ : Color ℝ) else ⟨Arith.exact.linearToSRGB c.r,
        Arith.exact.linearToSRGB c.g, Arith.exact.linearToSRGB c.b, c.a⟩) =
        onColor (transfer i.colorSpace cs) := by
      funext c
      simp only [exact_toLinear, exact_toSRGB]
      cases h1 : cs <;> cases h2 : i.colorSpace
      · exact absurd (h1.trans h2.symm) hcs
      · rfl
      · rfl
      · exact absurd (h1.trans h2.symm) hcs
    rw [hfun]
    obtain ⟨j, e, h1, h2, h3, h4, h5, h6⟩ := exact_map hi hfit
    rw [e, Res.ok_bind]
    exact ⟨_, rfl, h1, h2, rfl, h4, h5, h6⟩

theorem transfer_zero (a b : ColorSpace) : transfer a b 0 = 0 := by
  cases a <;> cases b
  · rfl
  · exact (toSRGB_low (by norm_num)).trans (zero_mul _)
  · exact (toLinear_low (by norm_num)).trans (zero_div _)
  · rfl

/-- Floating point images keep converted colours as they are. -/
theorem stored_float {f : IFormat} (hf : IsFloat f) {t : ℝ → ℝ} (h0 : t 0 = 0) {c : Color ℝ}
    (hc : stored f c = c) : stored f (onColor t c) = onColor t c := by
  obtain ⟨r, g, b, a⟩ := c
  rcases hf with rfl | rfl | rfl | rfl | rfl <;> simp only [stored, grey, Color.mk.injEq] at hc <;>
    simp only [stored, grey, onColor, Color.mk.injEq]
  · exact ⟨trivial, trivial, trivial, hc.2.2.2⟩
  · obtain ⟨-, h1, h2, h3⟩ := hc
    exact ⟨trivial, by rw [h1], by rw [h2], h3⟩
  · obtain ⟨-, h1, h2, h3⟩ := hc
    exact ⟨trivial, by rw [h1], by rw [h2], h3⟩
  · exact ⟨trivial, trivial, by rw [← hc.2.2.1, h0], hc.2.2.2⟩

theorem fitting_float {f : IFormat} (hf : IsFloat f) (c : Color ℝ) : Fitting f c := by
  rcases hf with rfl | rfl | rfl | rfl | rfl <;> exact ⟨by simp, by simp [intRange]⟩

/-- The values of an image in a colour space that do not survive the change to the other space and
back. -/
def Spec.Gap : ColorSpace → ℝ → Prop
  | .sRGB, c => 0.040449936 < c ∧ c ≤ 0.04045
  | .Linear, c => 0.0031308 < c ∧ c < 0.0031308073

theorem transfer_back {a b : ColorSpace} {c : ℝ} (h : ¬ Gap a c) : transfer b a (transfer a b c) = c := by
  cases a <;> cases b
  · rfl
  · refine toLinear_toSRGB ?_
    by_contra hh
    simp only [not_or, not_le] at hh
    exact h hh
  · refine toSRGB_toLinear ?_
    by_contra hh
    simp only [not_or, not_le, not_lt] at hh
    exact h hh
  · rfl

theorem transfer_near (a b : ColorSpace) (c : ℝ) : |transfer b a (transfer a b c) - c| ≤ 1 / 10 ^ 7 := by
  cases a <;> cases b
  · simp [transfer]
  · refine (toLinear_toSRGB_near c).trans ?_
    norm_num
  · exact toSRGB_toLinear_near c
  · simp [transfer]

/-- Changing the colour space of a floating point image and changing it back returns the original
colours, except that values in the gap next to the threshold change by at most 1e-7; alpha is the same.
Missing: the gap, and the formats with fixed steps, where it is false. -/
theorem C29_twice_partial {i : Image ℝ} (hi : ImgOk Arith.exact i) (hf : IsFloat i.format) (cs : ColorSpace) :
    ∃ j k, i.changeColorSpace Arith.exact cs = .ok j ∧ j.changeColorSpace Arith.exact i.colorSpace = .ok k ∧
      k.format = i.format ∧ k.colorSpace = i.colorSpace ∧
      ∀ x y c, i.getPixel Arith.exact x y = .ok (some c) → ∃ d, k.getPixel Arith.exact x y = .ok (some d) ∧
        d.a = c.a ∧ |d.r - c.r| ≤ 1 / 10 ^ 7 ∧ |d.g - c.g| ≤ 1 / 10 ^ 7 ∧ |d.b - c.b| ≤ 1 / 10 ^ 7 ∧
        (¬ Gap i.colorSpace c.r → d.r = c.r) ∧ (¬ Gap i.colorSpace c.g → d.g = c.g) ∧
        (¬ Gap i.colorSpace c.b → d.b = c.b) := by
  obtain ⟨j, ej, j1, j2, j3, -, -, j6⟩ := C29_image hi cs (fun x y c _ => fitting_float hf _)
  have hfj : IsFloat j.format := by rw [j2]; exact hf
  obtain ⟨k, ek, k1, k2, k3, -, -, k6⟩ := C29_image j1 i.colorSpace (fun x y c _ => fitting_float hfj _)
  refine ⟨j, k, ej, ek, k2.trans j2, k3, ?_⟩
  intro x y c hc
  have e1 := j6 x y c hc
  have hs := exact_read hi hc
  rw [stored_float hf (transfer_zero _ _) hs.1] at e1
  have e2 := k6 x y _ e1
  rw [j2, j3, stored_float hf (transfer_zero _ _) (stored_float hf (transfer_zero _ _) hs.1)] at e2
  refine ⟨_, e2, rfl, transfer_near _ _ _, transfer_near _ _ _, transfer_near _ _ _, ?_, ?_, ?_⟩ <;>
    exact fun h => transfer_back h

/-- An 8-bit image does not keep its colours: the smallest non-zero value of an sRGB image becomes 0. -/
theorem C29_fails_8bit : ∃ (i j k : Image ℝ), ImgOk Arith.exact i ∧ i.format = .RGBA8 ∧ i.colorSpace = .sRGB ∧
    i.changeColorSpace Arith.exact .Linear = .ok j ∧ j.changeColorSpace Arith.exact .sRGB = .ok k ∧
    k.getPixel Arith.exact 0 0 ≠ i.getPixel Arith.exact 0 0 := by
  have hi : ImgOk Arith.exact (⟨.RGBA8, .sRGB, ⟨1, 1, fun _ _ => .ints [1, 0, 0, 0]⟩⟩ : Image ℝ) := by
    intro y x _ _
    simp [PxOk, Upto]
  have fit (c : Color ℝ) : Fitting .RGBA8 c := ⟨by simp, by simp [intRange]⟩
  obtain ⟨j, ej, j1, j2, j3, -, -, j6⟩ := C29_image hi .Linear (fun x y c _ => fit _)
  obtain ⟨k, ek, k1, k2, k3, -, -, k6⟩ := C29_image j1 .sRGB (fun x y c _ => by rw [j2]; exact fit _)
  refine ⟨_, j, k, hi, rfl, rfl, ej, ek, ?_⟩
  have hc : (⟨.RGBA8, .sRGB, ⟨1, 1, fun _ _ => .ints [1, 0, 0, 0]⟩⟩ : Image ℝ).getPixel Arith.exact 0 0 =
      .ok (some ⟨1 / 255, 0, 0, 0⟩) := by
    rw [getPixel_in (by norm_num) (by norm_num)]
    simp only [getPixelImpl, fromNorm_exact, Res.ok_bind]
    norm_num
  have e2 := k6 _ _ _ (j6 _ _ _ hc)
  rw [e2, hc]
  simp only [ne_eq, Res.ok.injEq, Option.some.injEq]
  intro h
  have hr := congrArg Color.r h
  have n0 : nearest 255 (1 / 255 / 12.92) = 0 := by
    have : ⌊max (min (1 / 255 / 12.92) 1) 0 * ((255 : ℕ) : ℝ) + 1 / 2⌋ = 0 := by
      rw [min_eq_left (by norm_num), max_eq_left (by norm_num), Int.floor_eq_iff]
      norm_num
    rw [nearest, this]
    simp
  have n1 : nearest 255 0 = 0 := by
    have : ⌊max (min (0 : ℝ) 1) 0 * ((255 : ℕ) : ℝ) + 1 / 2⌋ = 0 := by
      rw [Int.floor_eq_iff]
      norm_num
    rw [nearest, this]
    simp
  simp only [j2, j3, stored, onColor, transfer] at hr
  rw [toLinear_low (by norm_num), n0, toSRGB_low (by norm_num), zero_mul, n1] at hr
  norm_num at hr

/-- Alpha, size and format do not change, for every image and every arithmetic (IEEE and exact ones
are lawful), if the call has defined behaviour. -/
theorem C29_alpha {N : Type} {A : Arith N} (L : LawfulArith A) {i j : Image N} (hi : ImgOk A i) {cs : ColorSpace}
    (h : i.changeColorSpace A cs = .ok j) :
    ImgOk A j ∧ j.format = i.format ∧ j.colorSpace = cs ∧ j.bmp.width = i.bmp.width ∧
      j.bmp.height = i.bmp.height ∧
      ∀ x y c, i.getPixel A x y = .ok (some c) → ∃ d, j.getPixel A x y = .ok (some d) ∧ d.a = c.a := by
  unfold Image.changeColorSpace at h
  by_cases hcs : cs = i.colorSpace
  · rw [if_pos hcs] at h
    cases h
    exact ⟨hi, rfl, hcs.symm, rfl, rfl, fun x y c hc => ⟨c, hc, rfl⟩⟩
  · rw [if_neg hcs] at h
    obtain ⟨k, ek, e⟩ := Res.bind_eq_ok.1 h
    cases e
    obtain ⟨k1, k2, k4, k5, k6⟩ := mapPixels_alpha L hi (fun c => by split <;> rfl) ek
    exact ⟨k1, k2, rfl, k4, k5, k6⟩

/-- The hypotheses are met by images of every kind; the change of an sRGB float image is defined. -/
example : ∃ i : Image ℝ, ImgOk Arith.exact i ∧ IsFloat i.format ∧ i.colorSpace = .sRGB ∧
    i.getPixel Arith.exact 1 0 = .ok (some ⟨0.5, 0.25, 1, 0.75⟩) ∧ ¬ Gap i.colorSpace 0.5 := by
  refine ⟨⟨.RGBAF, .sRGB, ⟨2, 1, fun _ _ => .nums [0.5, 0.25, 1, 0.75]⟩⟩, ?_, Or.inr (Or.inl rfl), rfl, ?_, ?_⟩
  · intro y x _ _
    simp [PxOk, Arith.exact]
  · rw [getPixel_in (by norm_num) (by norm_num)]
    rfl
  · simp only [Gap]
    norm_num

example (L : Libm) : LawfulArith (Arith.ieee L) ∧ LawfulArith Arith.exact ∧
    ImgOk (Arith.ieee L) Toy.rgba := ⟨lawful_ieee L, lawful_exact, Toy.rgba_ok _⟩

end Cuttlefish
