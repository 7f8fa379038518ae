import Verif.Proofs.UnitIeee
import Verif.Proofs.Srgb
import Mathlib.Analysis.Convex.SpecificFunctions.Basic
/-
The sRGB transfer functions in IEEE arithmetic are close to those over the real numbers.
-/
namespace Cuttlefish
open Spec Real
variable {Lm : Libm}

theorem accurate_unit (P : AccuratePow Lm) : UnitPow Lm := by
  intro x y h0 h1 hy
  obtain ⟨z, e, z0, z1, za⟩ := P x y h0 h1 hy
  exact ⟨z, e, z0, z1, za.trans (by norm_num)⟩

/-- Powers with exponents that are close. -/
theorem rpow_diff {t a b : ℝ} (h0 : 0 < t) (h1 : t ≤ 1) (ha : 0 ≤ a) (hb : 0 ≤ b) : |t ^ a - t ^ b| ≤ |a - b| / t := by
  have key {a b : ℝ} (ha : 0 ≤ a) (h : a ≤ b) : 0 ≤ t ^ a - t ^ b ∧ t ^ a - t ^ b ≤ (b - a) / t := by
    have p0 : 0 < t ^ a := rpow_pos_of_pos h0 a
    have p1 : t ^ a ≤ 1 := rpow_le_one h0.le h1 ha
    have e : t ^ b = t ^ a * t ^ (b - a) := by rw [← rpow_add h0]; congr 1; ring
    have l1 : -Real.log t ≤ 1 / t := by
      have := Real.log_le_sub_one_of_pos (show 0 < 1 / t by positivity)
      rw [Real.log_div (by norm_num) h0.ne', Real.log_one] at this
      linarith
    have l2 : 1 + (b - a) * Real.log t ≤ t ^ (b - a) := by
      rw [rpow_def_of_pos h0]
      have := Real.add_one_le_exp (Real.log t * (b - a))
      linarith
    have l3 : t ^ (b - a) ≤ 1 := rpow_le_one h0.le h1 (by linarith)
    rw [e]
    constructor
    · nlinarith
    · have l4 : 1 - t ^ (b - a) ≤ (b - a) * (1 / t) := by nlinarith
      have l5 : 0 ≤ 1 - t ^ (b - a) := by linarith
      calc t ^ a - t ^ a * t ^ (b - a) = t ^ a * (1 - t ^ (b - a)) := by ring
        _ ≤ 1 * (1 - t ^ (b - a)) := by gcongr
        _ ≤ (b - a) / t := by rw [one_mul]; exact l4.trans (le_of_eq (by ring))
  rcases le_total a b with h | h
  · obtain ⟨k1, k2⟩ := key ha h
    rw [abs_of_nonneg k1, abs_of_nonpos (by linarith)]
    simpa using k2
  · obtain ⟨k1, k2⟩ := key hb h
    rw [abs_of_nonpos (by linarith), abs_of_nonneg (by linarith)]
    simpa using k2

/-- Powers of numbers that are close. -/
theorem rpow_lip {p u t : ℝ} (hp : 1 ≤ p) (hu : 0 ≤ u) (h : u ≤ t) (h1 : t ≤ 1) : t ^ p - u ^ p ≤ p * (t - u) := by
  rcases hu.eq_or_lt with rfl | hu
  · rw [zero_rpow (by linarith), sub_zero, sub_zero]
    rcases h.eq_or_lt with rfl | h
    · rw [zero_rpow (by linarith), mul_zero]
    · calc t ^ p ≤ t ^ (1 : ℝ) := rpow_le_rpow_of_exponent_ge h h1 hp
        _ = 1 * t := by rw [rpow_one, one_mul]
        _ ≤ p * t := by gcongr
  · have t0 : 0 < t := by linarith
    have b := one_add_mul_self_le_rpow_one_add (s := (u - t) / t) (by rw [le_div_iff₀ t0]; linarith) hp
    rw [show 1 + (u - t) / t = u / t by field_simp; ring, div_rpow hu.le t0.le, le_div_iff₀ (rpow_pos_of_pos t0 p)] at b
    have q1 : t ^ p / t ≤ 1 := by
      rw [div_le_one t0]
      calc t ^ p ≤ t ^ (1 : ℝ) := rpow_le_rpow_of_exponent_ge t0 h1 hp
        _ = t := rpow_one t
    have e : (1 + p * ((u - t) / t)) * t ^ p = t ^ p - p * (t - u) * (t ^ p / t) := by field_simp; ring
    rw [e] at b
    have : p * (t - u) * (t ^ p / t) ≤ p * (t - u) * 1 := by
      have : 0 ≤ p * (t - u) := mul_nonneg (by linarith) (by linarith)
      gcongr
    linarith

/-- The slope of the curve. -/
theorem upS_lip {x y : ℝ} (hy : 0.0031308 ≤ y) (h : y ≤ x) : upS x - upS y ≤ 13 * (x - y) := by
  have y0 : 0 < y := by linarith
  have b := rpow_one_add_le_one_add_mul_self (s := (x - y) / y) (p := 1 / 2.4)
    (by have : 0 ≤ (x - y) / y := div_nonneg (by linarith) y0.le
        linarith) (by norm_num) (by norm_num)
  rw [show 1 + (x - y) / y = x / y by field_simp; ring, div_rpow (by linarith) y0.le, div_le_iff₀ (rpow_pos_of_pos y0 _)] at b
  have e : (1 + 1 / 2.4 * ((x - y) / y)) * y ^ (1 / 2.4 : ℝ) = y ^ (1 / 2.4 : ℝ) + (x - y) * (1 / 2.4 * (y ^ (1 / 2.4 : ℝ) / y)) := by
    field_simp
  rw [e] at b
  -- the power divided by its argument is largest at the lower end
  have s : y ^ (1 / 2.4 : ℝ) ≤ 29 * y := by
    refine le_of_pow_le_pow_left₀ (n := 12) (by norm_num) (by positivity) ?_
    rw [← rpow_natCast (y ^ (1 / 2.4 : ℝ)), ← rpow_mul y0.le, show (1 / 2.4 : ℝ) * (12 : ℕ) = (5 : ℕ) by norm_num, rpow_natCast]
    have : (0.0031308 : ℝ) ^ 7 ≤ y ^ 7 := by gcongr
    have k : (1 : ℝ) ≤ 29 ^ 12 * y ^ 7 := by
      calc (1 : ℝ) ≤ 29 ^ 12 * 0.0031308 ^ 7 := by norm_num
        _ ≤ _ := by gcongr
    calc y ^ 5 = 1 * y ^ 5 := by ring
      _ ≤ 29 ^ 12 * y ^ 7 * y ^ 5 := by gcongr
      _ = (29 * y) ^ 12 := by ring
  have s' : y ^ (1 / 2.4 : ℝ) / y ≤ 29 := by rw [div_le_iff₀ y0]; exact s
  unfold upS
  have : (x - y) * (1 / 2.4 * (y ^ (1 / 2.4 : ℝ) / y)) ≤ (x - y) * (1 / 2.4 * 29) := by
    have : 0 ≤ x - y := by linarith
    gcongr
  nlinarith

theorem toSRGB_lip {x y : ℝ} (h : y ≤ x) : toSRGB x - toSRGB y ≤ 13 * (x - y) := by
  by_cases hx : x ≤ 0.0031308
  · rw [toSRGB_low hx, toSRGB_low (by linarith)]
    linarith
  · rw [not_le] at hx
    rw [toSRGB_high hx]
    by_cases hy : y ≤ 0.0031308
    · rw [toSRGB_low hy]
      have a := upS_lip (y := 0.0031308) le_rfl hx.le
      have b : upS 0.0031308 ≤ 0.04044993 := (upS_mono (by norm_num) (by norm_num)).trans upS_high.le
      linarith
    · rw [not_le] at hy
      rw [toSRGB_high hy]
      exact upS_lip hy.le h

/-- Small changes of linear colours. -/
theorem toSRGB_move {x y e : ℝ} (he : 0 ≤ e) (h : x ≤ y + e) : toSRGB x ≤ toSRGB y + 13 * e + 3 / 10 ^ 8 := by
  rcases le_or_gt y x with hxy | hxy
  · have := toSRGB_lip hxy
    have : (0 : ℝ) ≤ 3 / 10 ^ 8 := by norm_num
    linarith
  · have := toSRGB_almost hxy
    linarith

/-- The function to linear values does not grow fast, except for the jump at its threshold. -/
theorem toLinear_lip {x y : ℝ} (hy : 0 ≤ y) (h : y ≤ x) (hx : x ≤ 1) : toLinear x - toLinear y ≤ 3 * (x - y) + 1 / 10 ^ 8 := by
  have up {x y : ℝ} (hy : 0 ≤ y) (h : y ≤ x) (hx : x ≤ 1) : upL x - upL y ≤ 3 * (x - y) := by
    have l := rpow_lip (p := 2.4) (u := (y + 0.055) / 1.055) (t := (x + 0.055) / 1.055) (by norm_num) (by positivity)
      (by gcongr) (by rw [div_le_one (by norm_num)]; linarith)
    unfold upL
    refine l.trans ?_
    rw [← sub_div, show x + 0.055 - (y + 0.055) = x - y by ring, ← mul_div_assoc, div_le_iff₀ (by norm_num)]
    nlinarith
  by_cases hx' : x ≤ 0.04045
  · rw [toLinear_low hx', toLinear_low (by linarith), ← sub_div, div_le_iff₀ (by norm_num)]
    nlinarith
  · rw [not_le] at hx'
    rw [toLinear_high hx']
    by_cases hy' : y ≤ 0.04045
    · rw [toLinear_low hy']
      have a := up (x := x) (y := 0.04045) (by norm_num) hx'.le hx
      have b := upL_high
      have c : (0.04045 : ℝ) / 12.92 - y / 12.92 ≤ 3 * (0.04045 - y) := by
        rw [← sub_div, div_le_iff₀ (by norm_num)]
        nlinarith
      norm_num at a b c ⊢
      linarith
    · rw [toLinear_high (not_le.1 hy')]
      have := up hy h hx
      have : (0 : ℝ) ≤ 1 / 10 ^ 8 := by norm_num
      linarith

theorem toSRGB_unit {x : ℝ} (h0 : 0 ≤ x) (h1 : x ≤ 1) : 0 ≤ toSRGB x ∧ toSRGB x ≤ 1 := by
  by_cases h : x ≤ 0.0031308
  · rw [toSRGB_low h]
    constructor <;> nlinarith
  · rw [not_le] at h
    rw [toSRGB_high h]
    have a := upS_low
    have b := upS_strict (x := 0.0031308) (by norm_num) h
    have c := upS_mono h0 h1
    have d : upS 1 = 1 := by
      rw [upS, one_rpow]
      norm_num
    rw [d] at c
    exact ⟨by linarith, c⟩

theorem toLinear_move {x y e : ℝ} (he : 0 ≤ e) (hx0 : 0 ≤ x) (hx : x ≤ 1) (hy0 : 0 ≤ y) (hy : y ≤ 1) (h : |x - y| ≤ e) :
    |toLinear x - toLinear y| ≤ 3 * e + 1 / 10 ^ 8 := by
  have mono {x y : ℝ} (h : y ≤ x) : toLinear y ≤ toLinear x := by
    rcases h.eq_or_lt with rfl | h
    · exact le_rfl
    · exact (toLinear_strict h).le
  have pos : (0 : ℝ) ≤ 1 / 10 ^ 8 := by norm_num
  rw [abs_le] at h ⊢
  rcases le_total y x with k | k
  · have := toLinear_lip hy0 k hx
    have := mono k
    constructor <;> linarith
  · have := toLinear_lip hx0 k hy
    have := mono k
    constructor <;> linarith

/-- Rounding a number up to 2 to double precision. -/
theorem rneD_unit {q : ℚ} (h0 : 0 ≤ q) (h1 : q ≤ 2) : |(rneD q : ℝ) - q| ≤ 1 / 2 ^ 53 := by
  have := rneD_abs (q := q) (e := 0) (by norm_num) (by rw [abs_of_nonneg h0]; simpa using h1)
  have : |rneD q - q| ≤ 1 / 2 ^ 53 := this.trans (by norm_num [zpow_neg])
  have : ((|rneD q - q| : ℚ) : ℝ) ≤ ((1 / 2 ^ 53 : ℚ) : ℝ) := Rat.cast_le.2 this
  push_cast at this
  exact this

/-- To linear. -/
theorem linear_near (P : AccuratePow Lm) {q : ℚ} (q0 : 0 ≤ q) (q1 : q ≤ 1) :
    ∃ z : ℚ, (Arith.ieee Lm).sRGBToLinear (.fin q) = .fin z ∧ 0 ≤ z ∧ z ≤ 1 ∧ |(z : ℝ) - toLinear q| ≤ 1.1 / 10 ^ 8 := by
  obtain ⟨z, e, z0, z1⟩ := unit_linear (accurate_unit P) ⟨q, rfl, q0, q1⟩
  refine ⟨z, e, z0, z1, ?_⟩
  have rq0 : (0 : ℝ) ≤ q := by exact_mod_cast q0
  have rq1 : (q : ℝ) ≤ 1 := by exact_mod_cast q1
  unfold Arith.sRGBToLinear at e
  rw [lit_cut, lit_slope, lit_offset, lit_scale, lit_power] at e
  split at e
  · rename_i hq
    rw [ieee_le] at hq
    have b0 : 0 ≤ q / (7273313398203351 / 2 ^ 49) := by positivity
    have b1 : q / (7273313398203351 / 2 ^ 49) ≤ 1 := by
      rw [div_le_one (by norm_num)]
      exact q1.trans (by norm_num)
    rw [ieee_div (by norm_num) (by rw [abs_of_nonneg b0]; linarith)] at e
    cases e
    have r := rneD_unit b0 (by linarith)
    have hq : (q : ℝ) ≤ 0.04045 := by
      have : q ≤ 4045 / 100000 := hq.trans (by norm_num)
      have : (q : ℝ) ≤ ((4045 / 100000 : ℚ) : ℝ) := by exact_mod_cast this
      push_cast at this
      linarith
    rw [toLinear_low hq]
    push_cast at r
    have d : |(q : ℝ) / (7273313398203351 / 2 ^ 49) - q / 12.92| ≤ 1 / 10 ^ 9 := by
      rw [show (q : ℝ) / (7273313398203351 / 2 ^ 49) - q / 12.92 = q * (1 / (7273313398203351 / 2 ^ 49) - 1 / 12.92) by ring, abs_mul,
        abs_of_nonneg rq0]
      calc (q : ℝ) * |1 / (7273313398203351 / 2 ^ 49) - 1 / 12.92| ≤ 1 * |1 / (7273313398203351 / 2 ^ 49) - 1 / 12.92| := by gcongr
        _ ≤ 1 / 10 ^ 9 := by rw [one_mul, abs_le]; norm_num
    rw [abs_le] at r d ⊢
    norm_num at r d ⊢
    constructor <;> linarith
  · rename_i hq
    rw [ieee_le, not_le] at hq
    have a0 : 0 ≤ q + 7926335344172073 / 2 ^ 57 := by positivity
    have a1 : q + 7926335344172073 / 2 ^ 57 ≤ 2 := by
      have : (7926335344172073 / 2 ^ 57 : ℚ) ≤ 1 := by norm_num
      linarith
    have s0 := rneD_ge_of linBound_zero.rep a0
    have s1 : rneD (q + 7926335344172073 / 2 ^ 57) ≤ 4751297606875873 / 2 ^ 52 := by
      rw [← upto_sum]
      exact rneD_mono (by linarith)
    rw [ieee_add (by rw [abs_of_nonneg a0]; linarith)] at e
    have ra := rneD_unit a0 a1
    generalize rneD (q + 7926335344172073 / 2 ^ 57) = s at e s0 s1 ra
    have b0 : 0 ≤ s / (4751297606875873 / 2 ^ 52) := by positivity
    have b1 : s / (4751297606875873 / 2 ^ 52) ≤ 1 := by
      rw [div_le_one (by norm_num)]
      exact s1
    rw [ieee_div (by norm_num) (by rw [abs_of_nonneg b0]; linarith)] at e
    have rb := rneD_unit b0 (by linarith)
    obtain ⟨r0, r1⟩ := unit_round b0 b1
    generalize rneD (s / (4751297606875873 / 2 ^ 52)) = t at e r0 r1 rb
    obtain ⟨z', e', -, -, za⟩ := P t (5404319552844595 / 2 ^ 51) r0 r1 (by norm_num)
    have e : Lm.pow (.fin t) (.fin (5404319552844595 / 2 ^ 51)) = .fin z := e
    rw [e] at e'
    cases e'
    -- the argument of the power
    have rt0 : (0 : ℝ) ≤ t := by exact_mod_cast r0
    have rt1 : (t : ℝ) ≤ 1 := by exact_mod_cast r1
    have rs1 : (s : ℝ) ≤ 2 := by
      have : s ≤ 2 := s1.trans (by norm_num)
      exact_mod_cast this
    have rs0 : (0 : ℝ) ≤ s := by exact_mod_cast s0
    have qlow : (0.0404499 : ℝ) ≤ q := by
      have : (404499 / 10000000 : ℚ) ≤ q := le_trans (by norm_num) hq.le
      have : ((404499 / 10000000 : ℚ) : ℝ) ≤ q := by exact_mod_cast this
      push_cast at this
      linarith
    have hu : |(t : ℝ) - (q + 0.055) / 1.055| ≤ 1 / 10 ^ 14 := by
      push_cast at ra rb
      have d : |(s : ℝ) / (4751297606875873 / 2 ^ 52) - s / 1.055| ≤ 1 / 10 ^ 15 := by
        rw [show (s : ℝ) / (4751297606875873 / 2 ^ 52) - s / 1.055 = s * (1 / (4751297606875873 / 2 ^ 52) - 1 / 1.055) by ring, abs_mul,
          abs_of_nonneg rs0]
        calc (s : ℝ) * |1 / (4751297606875873 / 2 ^ 52) - 1 / 1.055| ≤ 2 * |1 / (4751297606875873 / 2 ^ 52) - 1 / 1.055| := by gcongr
          _ ≤ 1 / 10 ^ 15 := by
            rw [abs_of_nonneg (by norm_num)]
            norm_num
      rw [abs_le] at ra rb d ⊢
      norm_num at ra rb d ⊢
      constructor <;> linarith
    have tlow : (0.09 : ℝ) ≤ t := by
      rw [abs_le] at hu
      norm_num at hu ⊢
      linarith
    -- the power
    have d1 : |(t : ℝ) ^ (((5404319552844595 / 2 ^ 51 : ℚ)) : ℝ) - (t : ℝ) ^ (2.4 : ℝ)| ≤ 1 / 10 ^ 14 := by
      refine (rpow_diff (by linarith) rt1 (by norm_num) (by norm_num)).trans ?_
      rw [div_le_iff₀ (by linarith)]
      calc |(((5404319552844595 / 2 ^ 51 : ℚ)) : ℝ) - 2.4| ≤ 1 / 10 ^ 14 * 0.09 := by
            rw [abs_le]; norm_num
        _ ≤ _ := by gcongr
    have u0 : (0 : ℝ) ≤ (q + 0.055) / 1.055 := by positivity
    have u1 : ((q : ℝ) + 0.055) / 1.055 ≤ 1 := by rw [div_le_one (by norm_num)]; linarith
    have d2 : |(t : ℝ) ^ (2.4 : ℝ) - upL q| ≤ 1 / 10 ^ 13 := by
      unfold upL
      rcases le_total (t : ℝ) ((q + 0.055) / 1.055) with h | h
      · have l := rpow_lip (p := 2.4) (by norm_num) rt0 h u1
        have m := rpow_le_rpow rt0 h (show (0 : ℝ) ≤ 2.4 by norm_num)
        rw [abs_le] at hu ⊢
        norm_num at hu l m ⊢
        constructor <;> linarith
      · have l := rpow_lip (p := 2.4) (by norm_num) u0 h rt1
        have m := rpow_le_rpow u0 h (show (0 : ℝ) ≤ 2.4 by norm_num)
        rw [abs_le] at hu ⊢
        norm_num at hu l m ⊢
        constructor <;> linarith
    have d3 : |(z : ℝ) - upL q| ≤ 1 / 10 ^ 12 := by
      rw [abs_le] at za d1 d2 ⊢
      norm_num at za d1 d2 ⊢
      constructor <;> linarith
    by_cases hc : (q : ℝ) ≤ 0.04045
    · rw [toLinear_low hc]
      have b1 : upL q ≤ upL 0.04045 := by
        rcases hc.eq_or_lt with h | h
        · rw [h]
        · exact (upL_strict (by linarith) h).le
      have b2 : (0.003130799 : ℝ) < upL q := by
        refine lt_of_lt_of_le ?_ (show upL 0.0404499 ≤ upL q from ?_)
        · exact rpow_up_lt (by norm_num) (by norm_num)
        · rcases qlow.eq_or_lt with h | h
          · rw [h]
          · exact (upL_strict (by norm_num) h).le
      have b3 := upL_high
      have b4 : (0.0404499 : ℝ) / 12.92 ≤ q / 12.92 := by gcongr
      have b5 : (q : ℝ) / 12.92 ≤ 0.04045 / 12.92 := by gcongr
      rw [abs_le] at d3 ⊢
      norm_num at d3 b1 b2 b3 b4 b5 ⊢
      constructor <;> linarith
    · rw [toLinear_high (not_le.1 hc)]
      exact d3.trans (by norm_num)

/-- To sRGB. -/
theorem sRGB_near (P : AccuratePow Lm) {q : ℚ} (q0 : 0 ≤ q) (q1 : q ≤ 1) :
    ∃ z : ℚ, (Arith.ieee Lm).linearToSRGB (.fin q) = .fin z ∧ 0 ≤ z ∧ z ≤ 1 ∧ |(z : ℝ) - toSRGB q| ≤ 4 / 10 ^ 8 := by
  obtain ⟨z, e, z0, z1⟩ := unit_sRGB (accurate_unit P) ⟨q, rfl, q0, q1⟩
  refine ⟨z, e, z0, z1, ?_⟩
  have rq0 : (0 : ℝ) ≤ q := by exact_mod_cast q0
  have rq1 : (q : ℝ) ≤ 1 := by exact_mod_cast q1
  unfold Arith.linearToSRGB at e
  rw [lit_cut', lit_slope, lit_offset, lit_scale, lit_root] at e
  split at e
  · rename_i hq
    rw [ieee_le] at hq
    have b0 : 0 ≤ q * (7273313398203351 / 2 ^ 49) := by positivity
    have b1 : q * (7273313398203351 / 2 ^ 49) ≤ 1 := by
      calc q * (7273313398203351 / 2 ^ 49) ≤ 7219133293246233 / 2 ^ 61 * (7273313398203351 / 2 ^ 49) := by gcongr
        _ ≤ 1 := by norm_num
    rw [ieee_mul (by rw [abs_of_nonneg b0]; linarith)] at e
    cases e
    have r := rneD_unit b0 (by linarith)
    have hq : (q : ℝ) ≤ 0.0031308 := by
      have : q ≤ 31308 / 10000000 := hq.trans (by norm_num)
      have : (q : ℝ) ≤ ((31308 / 10000000 : ℚ) : ℝ) := by exact_mod_cast this
      push_cast at this
      linarith
    rw [toSRGB_low hq]
    push_cast at r
    rw [abs_le] at r ⊢
    norm_num at r ⊢
    constructor <;> linarith
  · rename_i hq
    rw [ieee_le, not_le] at hq
    obtain ⟨p, e', p0, p1, pa⟩ := P q (7505999378950827 / 2 ^ 54) q0 q1 (by norm_num)
    have e : (Arith.ieee Lm).sub ((Arith.ieee Lm).mul (.fin (4751297606875873 / 2 ^ 52)) (Lm.pow (.fin q) (.fin (7505999378950827 / 2 ^ 54))))
      (.fin (7926335344172073 / 2 ^ 57)) = .fin z := e
    rw [e'] at e
    have qlow : (0.0031307999 : ℝ) ≤ q := by
      have : (31307999 / 10000000000 : ℚ) ≤ q := le_trans (by norm_num) hq.le
      have : ((31307999 / 10000000000 : ℚ) : ℝ) ≤ q := by exact_mod_cast this
      push_cast at this
      linarith
    have rp0 : (0 : ℝ) ≤ p := by exact_mod_cast p0
    have rp1 : (p : ℝ) ≤ 1 := by exact_mod_cast p1
    have m0 : 0 ≤ 4751297606875873 / 2 ^ 52 * p := by positivity
    have m1 : 4751297606875873 / 2 ^ 52 * p ≤ 2 := by
      calc (4751297606875873 / 2 ^ 52 * p : ℚ) ≤ 4751297606875873 / 2 ^ 52 * 1 := by gcongr
        _ ≤ 2 := by norm_num
    rw [ieee_mul (by rw [abs_of_nonneg m0]; linarith)] at e
    have rm := rneD_unit m0 m1
    have m2 := rneD_ge_of linBound_zero.rep m0
    have m3 : rneD (4751297606875873 / 2 ^ 52 * p) ≤ 2 :=
      rneD_le_of (by simpa using repD_small (n := 2) (by norm_num)) m1
    generalize rneD (4751297606875873 / 2 ^ 52 * p) = m at e rm m2 m3
    have small : |m - 7926335344172073 / 2 ^ 57| ≤ 2 := by
      rw [abs_le]
      norm_num
      constructor <;> linarith
    rw [ieee_sub (small.trans (by norm_num))] at e
    have rd : |(rneD (m - 7926335344172073 / 2 ^ 57) : ℝ) - ((m - 7926335344172073 / 2 ^ 57 : ℚ) : ℝ)| ≤ 1 / 2 ^ 53 := by
      have := rneD_abs (q := m - 7926335344172073 / 2 ^ 57) (e := 0) (by norm_num) (by simpa using small)
      have : |rneD (m - 7926335344172073 / 2 ^ 57) - (m - 7926335344172073 / 2 ^ 57)| ≤ 1 / 2 ^ 53 :=
        this.trans (by norm_num [zpow_neg])
      have : ((|rneD (m - 7926335344172073 / 2 ^ 57) - (m - 7926335344172073 / 2 ^ 57)| : ℚ) : ℝ) ≤ ((1 / 2 ^ 53 : ℚ) : ℝ) :=
        Rat.cast_le.2 this
      push_cast at this ⊢
      exact this
    cases e
    -- the power
    have d1 : |(q : ℝ) ^ (((7505999378950827 / 2 ^ 54 : ℚ)) : ℝ) - (q : ℝ) ^ (1 / 2.4 : ℝ)| ≤ 1 / 10 ^ 12 := by
      refine (rpow_diff (by linarith) rq1 (by norm_num) (by norm_num)).trans ?_
      rw [div_le_iff₀ (by linarith)]
      calc |(((7505999378950827 / 2 ^ 54 : ℚ)) : ℝ) - 1 / 2.4| ≤ 1 / 10 ^ 12 * 0.0031307999 := by
            rw [abs_le]; norm_num
        _ ≤ _ := by gcongr
    have d2 : |(rneD (m - 7926335344172073 / 2 ^ 57) : ℝ) - upS q| ≤ 1 / 10 ^ 11 := by
      unfold upS
      generalize (q : ℝ) ^ (1 / 2.4 : ℝ) = u at d1
      generalize (q : ℝ) ^ (((7505999378950827 / 2 ^ 54 : ℚ)) : ℝ) = v at d1 pa
      push_cast at rm rd
      rw [abs_le] at rm rd d1 pa ⊢
      norm_num at rm rd d1 pa ⊢
      constructor <;> linarith
    by_cases hc : (q : ℝ) ≤ 0.0031308
    · rw [toSRGB_low hc]
      have b1 : upS q ≤ 0.04044993 := (upS_mono rq0 (by linarith)).trans upS_high.le
      have b2 : (0.0404499 : ℝ) ≤ upS q := by
        refine le_trans ?_ (upS_mono (by norm_num) qlow)
        have := rpow_down_lt (a := 0.0031307999) (b := 0.09047384) (by norm_num) (by norm_num)
        unfold upS
        linarith
      rw [abs_le] at d2 ⊢
      norm_num at d2 b1 b2 ⊢
      constructor <;> linarith
    · rw [toSRGB_high (not_le.1 hc)]
      exact d2.trans (by norm_num)

end Cuttlefish
