import Verif.Model.Dbl
import Verif.Proofs.Num
/-
Double precision rounding: the same facts as for single precision in `Num.lean`.
-/
namespace Cuttlefish

/-- Numbers a double can hold, ignoring overflow: 53 bits of significand, exponent at least -1074. -/
def RepD (q : ℚ) : Prop := ∃ m k : ℤ, |m| ≤ 2 ^ 53 ∧ -1074 ≤ k ∧ q = m * (2 : ℚ) ^ k

theorem ulpD_eq (q : ℚ) : ulpD q = (2 : ℚ) ^ (max (binade |q|) (-1022) - 52) := pow2_eq _

theorem ulpD_pos (q : ℚ) : 0 < ulpD q := by rw [ulpD_eq]; positivity

theorem rneD_zero : rneD 0 = 0 := rfl

theorem rneD_err (q : ℚ) : |rneD q - q| ≤ ulpD q / 2 := by
  unfold rneD
  split
  · next h => subst h; simp only [sub_self, abs_zero]; have := ulpD_pos 0; positivity
  · have hu := ulpD_pos q
    have h := roundEven_err (q / ulpD q)
    have e : (roundEven (q / ulpD q) : ℚ) * ulpD q - q = ((roundEven (q / ulpD q) : ℚ) - q / ulpD q) * ulpD q := by
      field_simp
    rw [e, abs_mul, abs_of_pos hu]
    calc _ ≤ 1 / 2 * ulpD q := by gcongr
      _ = ulpD q / 2 := by ring

theorem rneD_nearest (q s : ℚ) (hs : RepD s) : |rneD q - q| ≤ |s - q| := by
  by_cases hq : q = 0
  · subst hq; simp [rneD_zero]
  have hu := ulpD_pos q
  -- nearest among the multiples of the spacing
  have hmul : ∀ n : Int, |rneD q - q| ≤ |(n : ℚ) * ulpD q - q| := by
    intro n
    have h := nearest_of_half (roundEven_err (q / ulpD q)) n
    have e : ∀ n : Int, (n : ℚ) * ulpD q - q = ((n : ℚ) - q / ulpD q) * ulpD q := by
      intro n; field_simp
    unfold rneD
    rw [if_neg hq, e, e, abs_mul, abs_mul]
    gcongr
  have hpos : 0 < |q| := abs_pos.2 hq
  obtain ⟨hb1, hb2⟩ := binade_spec hpos
  obtain ⟨m, k, hm, hk, rfl⟩ := hs
  rw [ulpD_eq] at hmul
  by_cases hke : max (binade |q|) (-1022) - 52 ≤ k
  · -- a multiple of the spacing
    have := hmul (m * 2 ^ (k - (max (binade |q|) (-1022) - 52)).toNat)
    convert this using 3
    push_cast
    rw [mul_assoc]
    congr 1
    rw [← zpow_natCast, ← zpow_add₀ (by norm_num)]
    congr 1; omega
  · -- below the binade of q
    have hke := not_le.1 hke
    have hemax : max (binade |q|) (-1022) = binade |q| := by omega
    rw [hemax] at hmul hke
    have hsmall : |(m : ℚ) * 2 ^ k| ≤ (2 : ℚ) ^ binade |q| := by
      rw [abs_mul, abs_of_pos (pow2_pos k)]
      have hm' : |(m : ℚ)| ≤ 2 ^ (53 : ℤ) := by
        have : ((|m| : ℤ) : ℚ) ≤ ((2 ^ 53 : ℤ) : ℚ) := by exact_mod_cast hm
        push_cast at this; exact this
      calc |(m : ℚ)| * 2 ^ k ≤ 2 ^ (53 : ℤ) * 2 ^ k := by gcongr
        _ = 2 ^ (53 + k) := by rw [← zpow_add₀ (by norm_num)]
        _ ≤ 2 ^ binade |q| := by
          apply zpow_le_zpow_right₀ (by norm_num); omega
    have he : ((2 : ℚ) ^ (52 : ℕ)) * 2 ^ (binade |q| - 52) = 2 ^ binade |q| := by
      rw [← zpow_natCast, ← zpow_add₀ (by norm_num)]
      congr 1; push_cast; omega
    rcases lt_or_gt_of_ne hq with hneg | hqpos
    · have h := hmul (-(2 ^ 52))
      rw [Int.cast_neg, Int.cast_pow, Int.cast_ofNat, neg_mul, he] at h
      rw [abs_of_neg hneg] at *
      refine h.trans ?_
      rw [abs_le] at hsmall
      rw [abs_of_nonneg (by linarith), abs_of_nonneg (by linarith)]
      linarith [hsmall.1]
    · have h := hmul (2 ^ 52)
      rw [Int.cast_pow, Int.cast_ofNat, he] at h
      rw [abs_of_pos hqpos] at *
      refine h.trans ?_
      rw [abs_le] at hsmall
      rw [abs_of_nonpos (by linarith), abs_of_nonpos (by linarith)]
      linarith [hsmall.2]

theorem rneD_exact {q : ℚ} (h : RepD q) : rneD q = q := by
  have := rneD_nearest q q h
  rw [sub_self, abs_zero] at this
  exact sub_eq_zero.1 (abs_eq_zero.1 (le_antisymm this (abs_nonneg _)))

theorem rneD_rep (q : ℚ) : RepD (rneD q) := by
  by_cases hq : q = 0
  · subst hq; exact ⟨0, 0, by norm_num, by norm_num, by simp [rneD_zero]⟩
  have hpos : 0 < |q| := abs_pos.2 hq
  obtain ⟨hb1, hb2⟩ := binade_spec hpos
  refine ⟨roundEven (q / ulpD q), max (binade |q|) (-1022) - 52, ?_, by omega, ?_⟩
  · have herr := roundEven_err (q / ulpD q)
    have hle : |q / ulpD q| ≤ 2 ^ 53 := by
      rw [abs_div, abs_of_pos (ulpD_pos q), div_le_iff₀ (ulpD_pos q), ulpD_eq]
      calc |q| ≤ 2 ^ (binade |q| + 1) := hb2.le
        _ ≤ 2 ^ ((53 : ℤ) + (max (binade |q|) (-1022) - 52)) := by
          apply zpow_le_zpow_right₀ (by norm_num); omega
        _ = 2 ^ 53 * 2 ^ (max (binade |q|) (-1022) - 52) := by
          rw [zpow_add₀ (by norm_num)]; norm_num
    by_contra hcon
    have hcon : 2 ^ 53 + 1 ≤ |roundEven (q / ulpD q)| := by omega
    have hcon : (2 : ℚ) ^ 53 + 1 ≤ |(roundEven (q / ulpD q) : ℚ)| := by exact_mod_cast hcon
    have : |(roundEven (q / ulpD q) : ℚ)| ≤ |(roundEven (q / ulpD q) : ℚ) - q / ulpD q| + |q / ulpD q| := by
      have := abs_add_le ((roundEven (q / ulpD q) : ℚ) - q / ulpD q) (q / ulpD q)
      simpa using this
    linarith
  · unfold rneD; rw [if_neg hq, ulpD_eq]

theorem rneD_mono {x y : ℚ} (h : x ≤ y) : rneD x ≤ rneD y := by
  rcases eq_or_lt_of_le h with rfl | hlt
  · exact le_rfl
  by_contra hcon
  have hcon := not_le.1 hcon
  have h1 := rneD_nearest x (rneD y) (rneD_rep y)
  have h2 := rneD_nearest y (rneD x) (rneD_rep x)
  rcases abs_cases (rneD x - x) with ⟨a, a'⟩ | ⟨a, a'⟩ <;>
  rcases abs_cases (rneD y - x) with ⟨b, b'⟩ | ⟨b, b'⟩ <;>
  rcases abs_cases (rneD y - y) with ⟨c, c'⟩ | ⟨c, c'⟩ <;>
  rcases abs_cases (rneD x - y) with ⟨d, d'⟩ | ⟨d, d'⟩ <;>
  rw [a, b] at h1 <;> rw [c, d] at h2 <;> linarith

/-- Relative error of rounding, for numbers that are not tiny. -/
theorem rneD_rel {q : ℚ} (hq : (2 : ℚ) ^ (-1022 : ℤ) ≤ |q|) : |rneD q - q| ≤ |q| / 2 ^ 53 := by
  have hpos : 0 < |q| := lt_of_lt_of_le (by positivity) hq
  obtain ⟨hb1, hb2⟩ := binade_spec hpos
  have hge : -1022 ≤ binade |q| := by
    by_contra hcon
    have : (2 : ℚ) ^ (binade |q| + 1) ≤ 2 ^ (-1022 : ℤ) := by
      apply zpow_le_zpow_right₀ (by norm_num); omega
    linarith
  refine (rneD_err q).trans ?_
  rw [ulpD_eq, max_eq_left hge, zpow_sub₀ (by norm_num)]
  have : ((2 : ℚ) ^ (52 : ℤ)) = 2 ^ 52 := by norm_cast
  rw [this]
  rw [div_div, ← pow_succ]
  gcongr

/-- Absolute error of rounding for numbers below a power of two. -/
theorem rneD_abs {q : ℚ} {e : ℤ} (he : -1022 ≤ e) (hq : |q| ≤ (2 : ℚ) ^ (e + 1)) :
    |rneD q - q| ≤ (2 : ℚ) ^ (e - 53) := by
  by_cases hq0 : q = 0
  · subst hq0; simp [rneD_zero]; positivity
  rcases eq_or_lt_of_le hq with heq | hlt
  · -- a power of two is representable
    have hrep : RepD q := by
      rcases abs_choice q with h | h
      · exact ⟨1, e + 1, by norm_num, by omega, by rw [h] at heq; simp [heq]⟩
      · exact ⟨-1, e + 1, by norm_num, by omega, by rw [h] at heq; push_cast; linarith⟩
    rw [rneD_exact hrep, sub_self, abs_zero]; positivity
  · have hpos : 0 < |q| := abs_pos.2 hq0
    obtain ⟨hb1, hb2⟩ := binade_spec hpos
    have hle : binade |q| ≤ e := by
      by_contra hcon
      have : (2 : ℚ) ^ (e + 1) ≤ 2 ^ (binade |q|) := by
        apply zpow_le_zpow_right₀ (by norm_num); omega
      linarith
    refine (rneD_err q).trans ?_
    rw [ulpD_eq]
    have : (2 : ℚ) ^ (max (binade |q|) (-1022) - 52) ≤ 2 ^ (e - 52) := by
      apply zpow_le_zpow_right₀ (by norm_num); omega
    have e2 : (2 : ℚ) ^ (e - 52) = 2 * 2 ^ (e - 53) := by
      have : e - 52 = 1 + (e - 53) := by ring
      rw [this, zpow_add₀ (by norm_num)]; norm_num
    linarith

theorem repD_int {n : ℤ} (h : |n| ≤ 2 ^ 53) : RepD (n : ℚ) := ⟨n, 0, h, by norm_num, by simp⟩

/-- Rounding does not overflow below 2^1023. -/
theorem ofQ_fin {q : ℚ} (h : |q| ≤ (2 : ℚ) ^ (1023 : ℤ)) : Dbl.ofQ q = .fin (rneD q) := by
  unfold Dbl.ofQ
  rw [if_neg]
  rw [not_le]
  have h1 : |rneD q| ≤ (2 : ℚ) ^ (1023 : ℤ) := by
    have r1 : RepD ((2 : ℚ) ^ (1023 : ℤ)) := ⟨1, 1023, by norm_num, by norm_num, by simp⟩
    have r2 : RepD (-(2 : ℚ) ^ (1023 : ℤ)) := ⟨-1, 1023, by norm_num, by norm_num, by simp⟩
    obtain ⟨h1, h2⟩ := abs_le.1 h
    rw [abs_le]
    constructor
    · rw [← rneD_exact r2]; exact rneD_mono h1
    · rw [← rneD_exact r1]; exact rneD_mono h2
  refine lt_of_le_of_lt h1 ?_
  rw [show (1023 : ℤ) = ((1023 : ℕ) : ℤ) by norm_num, zpow_natCast]
  exact pow_lt_pow_right₀ (by norm_num) (by norm_num)


end Cuttlefish
