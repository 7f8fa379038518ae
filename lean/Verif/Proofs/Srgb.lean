import Verif.Proofs.Exact
/-
The sRGB transfer functions over the real numbers.
-/
namespace Cuttlefish
open Spec Real

/-- The upper branch of the conversion to linear. -/
noncomputable def upL (c : ℝ) : ℝ := ((c + 0.055) / 1.055) ^ (2.4 : ℝ)

/-- The upper branch of the conversion to sRGB. -/
noncomputable def upS (c : ℝ) : ℝ := 1.055 * c ^ (1 / 2.4 : ℝ) - 0.055

theorem upL_strict {x y : ℝ} (hx : -0.055 ≤ x) (h : x < y) : upL x < upL y :=
  rpow_lt_rpow (div_nonneg (by linarith) (by norm_num)) (by gcongr) (by norm_num)

theorem upS_strict {x y : ℝ} (hx : 0 ≤ x) (h : x < y) : upS x < upS y := by
  have := rpow_lt_rpow hx h (show (0 : ℝ) < 1 / 2.4 by norm_num)
  unfold upS
  linarith

theorem upS_mono {x y : ℝ} (hx : 0 ≤ x) (h : x ≤ y) : upS x ≤ upS y := by
  rcases h.eq_or_lt with rfl | h
  · exact le_rfl
  · exact (upS_strict hx h).le

theorem upS_upL {c : ℝ} (h : -0.055 ≤ c) : upS (upL c) = c := by
  have h0 : 0 ≤ (c + 0.055) / 1.055 := div_nonneg (by linarith) (by norm_num)
  unfold upS upL
  rw [← rpow_mul h0, show (2.4 : ℝ) * (1 / 2.4) = 1 by norm_num, rpow_one]
  ring

theorem upL_upS {c : ℝ} (h : 0 ≤ c) : upL (upS c) = c := by
  unfold upS upL
  rw [show (1.055 * c ^ (1 / 2.4 : ℝ) - 0.055 + 0.055) / 1.055 = c ^ (1 / 2.4 : ℝ) by
      rw [sub_add_cancel, mul_div_cancel_left₀ _ (by norm_num)],
    ← rpow_mul h, show (1 / 2.4 : ℝ) * 2.4 = 1 by norm_num, rpow_one]

/-- Bounds of the powers, from powers with natural exponents. -/
theorem rpow_up_lt {a b : ℝ} (ha : 0 ≤ a) (h : b ^ 5 < a ^ 12) : b < a ^ (2.4 : ℝ) := by
  have e : (a ^ (2.4 : ℝ)) ^ 5 = a ^ 12 := by
    rw [← rpow_natCast (a ^ (2.4 : ℝ)), ← rpow_mul ha, ← rpow_natCast a]
    norm_num
  rw [← e] at h
  exact lt_of_pow_lt_pow_left₀ 5 (rpow_nonneg ha _) h

theorem rpow_up_gt {a b : ℝ} (ha : 0 ≤ a) (hb : 0 ≤ b) (h : a ^ 12 < b ^ 5) : a ^ (2.4 : ℝ) < b := by
  have e : (a ^ (2.4 : ℝ)) ^ 5 = a ^ 12 := by
    rw [← rpow_natCast (a ^ (2.4 : ℝ)), ← rpow_mul ha, ← rpow_natCast a]
    norm_num
  rw [← e] at h
  exact lt_of_pow_lt_pow_left₀ 5 hb h

theorem rpow_down_lt {a b : ℝ} (ha : 0 ≤ a) (h : b ^ 12 < a ^ 5) : b < a ^ (1 / 2.4 : ℝ) := by
  have e : (a ^ (1 / 2.4 : ℝ)) ^ 12 = a ^ 5 := by
    rw [← rpow_natCast (a ^ (1 / 2.4 : ℝ)), ← rpow_mul ha, ← rpow_natCast a]
    norm_num
  rw [← e] at h
  exact lt_of_pow_lt_pow_left₀ 12 (rpow_nonneg ha _) h

theorem rpow_down_gt {a b : ℝ} (ha : 0 ≤ a) (hb : 0 ≤ b) (h : a ^ 5 < b ^ 12) : a ^ (1 / 2.4 : ℝ) < b := by
  have e : (a ^ (1 / 2.4 : ℝ)) ^ 12 = a ^ 5 := by
    rw [← rpow_natCast (a ^ (1 / 2.4 : ℝ)), ← rpow_mul ha, ← rpow_natCast a]
    norm_num
  rw [← e] at h
  exact lt_of_pow_lt_pow_left₀ 12 hb h

/-- Where the branches meet. -/
theorem upL_low : (0.0031308072 : ℝ) < upL 0.04045 := rpow_up_lt (by norm_num) (by norm_num)

theorem upL_high : upL 0.04045 < (0.0031308073 : ℝ) := rpow_up_gt (by norm_num) (by norm_num) (by norm_num)

theorem upS_low : (0.0404499074 : ℝ) < upS 0.0031308 := by
  have := rpow_down_lt (a := 0.0031308) (b := 0.0904738459) (by norm_num) (by norm_num)
  unfold upS
  linarith

theorem upS_high : upS 0.003130801 < (0.04044993 : ℝ) := by
  have := rpow_down_gt (a := 0.003130801) (b := 0.09047386) (by norm_num) (by norm_num) (by norm_num)
  unfold upS
  linarith

theorem upS_top : upS (0.04045 / 12.92) < (0.04044998 : ℝ) := by
  have := rpow_down_gt (a := 0.04045 / 12.92) (b := 0.09047391) (by norm_num) (by norm_num) (by norm_num)
  unfold upS
  linarith

theorem toLinear_low {c : ℝ} (h : c ≤ 0.04045) : toLinear c = c / 12.92 := if_pos h
theorem toLinear_high {c : ℝ} (h : 0.04045 < c) : toLinear c = upL c := if_neg (not_le.2 h)
theorem toSRGB_low {c : ℝ} (h : c ≤ 0.0031308) : toSRGB c = c * 12.92 := if_pos h
theorem toSRGB_high {c : ℝ} (h : 0.0031308 < c) : toSRGB c = upS c := if_neg (not_le.2 h)

theorem toLinear_strict {x y : ℝ} (h : x < y) : toLinear x < toLinear y := by
  by_cases hy : y ≤ 0.04045
  · rw [toLinear_low hy, toLinear_low (by linarith)]
    gcongr
  · rw [not_le] at hy
    rw [toLinear_high hy]
    by_cases hx : x ≤ 0.04045
    · rw [toLinear_low hx]
      have := upL_strict (x := 0.04045) (by norm_num) hy
      have := upL_low
      have : (0.04045 : ℝ) / 12.92 < 0.0031308072 := by norm_num
      have : x / 12.92 ≤ 0.04045 / 12.92 := by gcongr
      linarith
    · rw [not_le] at hx
      rw [toLinear_high hx]
      exact upL_strict (by linarith) h

/-- Going to linear and back. -/
theorem toSRGB_toLinear {c : ℝ} (h : c ≤ 0.040449936 ∨ 0.04045 < c) : toSRGB (toLinear c) = c := by
  rcases h with h | h
  · rw [toLinear_low (by linarith), toSRGB_low (by
      rw [div_le_iff₀ (by norm_num)]; linarith)]
    ring
  · have := upL_strict (x := 0.04045) (by norm_num) h
    have := upL_low
    rw [toLinear_high h, toSRGB_high (by linarith), upS_upL (by linarith)]

/-- Going to sRGB and back. -/
theorem toLinear_toSRGB {c : ℝ} (h : c ≤ 0.0031308 ∨ 0.0031308073 ≤ c) : toLinear (toSRGB c) = c := by
  rcases h with h | h
  · rw [toSRGB_low h, toLinear_low (by linarith)]
    ring
  · rw [toSRGB_high (by linarith)]
    have h1 := upL_high
    have h2 : (0.04045 : ℝ) < upS c := by
      have := upS_strict (x := upL 0.04045) (y := c) (rpow_nonneg (by norm_num) _) (by linarith)
      rwa [upS_upL (by norm_num)] at this
    rw [toLinear_high h2, upL_upS (by linarith)]

theorem toSRGB_toLinear_near (c : ℝ) : |toSRGB (toLinear c) - c| ≤ 1 / 10 ^ 7 := by
  by_cases h : c ≤ 0.040449936 ∨ 0.04045 < c
  · rw [toSRGB_toLinear h, sub_self, abs_zero]
    positivity
  · simp only [not_or, not_le, not_lt] at h
    have l1 : (0.0031308 : ℝ) < c / 12.92 := by rw [lt_div_iff₀ (by norm_num)]; linarith
    rw [toLinear_low h.2, toSRGB_high l1]
    have a := upS_mono (by norm_num) l1.le
    have b := upS_mono (x := c / 12.92) (y := 0.04045 / 12.92) (by linarith) (by have := h.2; gcongr)
    have := upS_low
    have := upS_top
    rw [abs_le]
    constructor <;> linarith

theorem toLinear_toSRGB_near (c : ℝ) : |toLinear (toSRGB c) - c| ≤ 1 / 10 ^ 8 := by
  by_cases h : c ≤ 0.0031308 ∨ 0.0031308073 ≤ c
  · rw [toLinear_toSRGB h, sub_self, abs_zero]
    positivity
  · simp only [not_or, not_le] at h
    rw [toSRGB_high h.1]
    have a := upS_mono (by norm_num) h.1.le
    have := upS_low
    by_cases h2 : upS c ≤ 0.04045
    · rw [toLinear_low h2]
      have : upS c / 12.92 ≤ 0.04045 / 12.92 := by gcongr
      have : 0.0404499074 / 12.92 ≤ upS c / 12.92 := by
        have : (0.0404499074 : ℝ) ≤ upS c := by linarith
        gcongr
      rw [abs_le]
      constructor <;> linarith
    · rw [toLinear_high (not_le.1 h2), upL_upS (by linarith), sub_self, abs_zero]
      positivity

theorem toSRGB_almost {x y : ℝ} (h : x < y) : toSRGB x < toSRGB y + 3 / 10 ^ 8 := by
  by_cases hy : y ≤ 0.0031308
  · rw [toSRGB_low hy, toSRGB_low (by linarith)]
    linarith
  · rw [not_le] at hy
    rw [toSRGB_high hy]
    by_cases hx : x ≤ 0.0031308
    · rw [toSRGB_low hx]
      have := upS_mono (by norm_num) hy.le
      have := upS_low
      linarith
    · rw [not_le] at hx
      rw [toSRGB_high hx]
      have := upS_strict (by linarith) h
      linarith

theorem exact_toLinear (c : ℝ) : Arith.exact.sRGBToLinear c = toLinear c := by
  unfold Arith.sRGBToLinear toLinear
  simp only [Arith.exact, Bool.or_eq_true, decide_eq_true_eq, ← le_iff_lt_or_eq]
  norm_num

theorem exact_toSRGB (c : ℝ) : Arith.exact.linearToSRGB c = toSRGB c := by
  unfold Arith.linearToSRGB toSRGB
  simp only [Arith.exact, Bool.or_eq_true, decide_eq_true_eq, ← le_iff_lt_or_eq]
  norm_num

end Cuttlefish
