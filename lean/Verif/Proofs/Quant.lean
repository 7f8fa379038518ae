import Verif.Model.Encode
import Verif.Proofs.Num
import Verif.Proofs.Basic
import Verif.Spec.Quant
import Mathlib.Tactic.Positivity
import Mathlib.Tactic.NormNum
import Mathlib.Tactic.FieldSimp
/-
The quantisers of the uncompressed converters in terms of rational arithmetic.
-/
namespace Cuttlefish
open Spec

theorem clampF_fin {v : F32} {lo hi : ℚ} (h : lo ≤ hi) {c : ℚ} (hc : clampVal lo hi v = some c) :
    clampF v (.fin lo) (.fin hi) = .fin c := by
  unfold clampF
  match v, hc with
  | .inf true, hc => simp [clampVal] at hc; simp [F32.lt, hc]
  | .inf false, hc => simp [clampVal] at hc; simp [F32.lt, hc]
  | .fin q, hc =>
    simp only [clampVal, Option.some.injEq] at hc
    simp only [F32.lt, decide_eq_true_eq]
    by_cases h1 : q < lo
    · rw [if_pos h1, ← hc, min_eq_right (le_trans h1.le h), max_eq_left h1.le]
    · rw [if_neg h1]
      by_cases h2 : hi < q
      · rw [if_pos h2, ← hc, min_eq_left h2.le, max_eq_right h]
      · rw [if_neg h2, ← hc, min_eq_right (not_lt.mp h2), max_eq_right (not_lt.mp h1)]

theorem clampF_nan (lo hi : F32) : clampF .nan lo hi = .nan := by
  unfold clampF
  cases lo <;> cases hi <;> simp [F32.lt]

theorem clampVal_range {v : F32} {lo hi c : ℚ} (h : lo ≤ hi) (hc : clampVal lo hi v = some c) :
    lo ≤ c ∧ c ≤ hi := by
  match v, hc with
  | .inf true, hc => simp [clampVal] at hc; subst hc; exact ⟨le_refl _, h⟩
  | .inf false, hc => simp [clampVal] at hc; subst hc; exact ⟨h, le_refl _⟩
  | .fin q, hc =>
    simp only [clampVal, Option.some.injEq] at hc
    subst hc
    exact ⟨le_max_left _ _, max_le h (min_le_left _ _)⟩

theorem clampVal_none {v : F32} {lo hi : ℚ} : clampVal lo hi v = none ↔ v = .nan := by
  cases v with
  | nan => simp [clampVal]
  | inf s => cases s <;> simp [clampVal]
  | fin q => simp [clampVal]

/-- The rounded product of a clamped value and a small integer. -/
theorem prod_round {c : ℚ} {m : ℤ} {B : ℤ} (hB2 : B ≤ 2 ^ 24) (hc1 : -1 ≤ c)
    (hc2 : c ≤ 1) (hm0 : 0 ≤ m) (hm : m ≤ B) :
    F32.round (c * m) = .fin (rne (c * m)) := by
  apply round_fin
  have hm' : (m : ℚ) ≤ 2 ^ 24 := by exact_mod_cast le_trans hm hB2
  have hm0' : (0 : ℚ) ≤ m := by exact_mod_cast hm0
  have hcc : |c| ≤ 1 := abs_le.mpr ⟨hc1, hc2⟩
  rw [abs_mul, abs_of_nonneg hm0']
  calc |c| * m ≤ 1 * m := by exact mul_le_mul_of_nonneg_right hcc hm0'
    _ ≤ 2 ^ 24 := by linarith
    _ ≤ (2 : ℚ) ^ (127 : ℤ) := by norm_num

theorem rne_int {n : ℤ} (h : |n| ≤ 2 ^ 24) : rne (n : ℚ) = n := rne_exact (rep_int h)

/-- Bounds of the quantised value. -/
theorem quant_range {c : ℚ} {m : ℤ} (hm0 : 0 ≤ m) (hm : m ≤ 2 ^ 24) {lo : ℤ}
    (hlo : (lo = 0 ∧ 0 ≤ c) ∨ (lo = -1 ∧ -1 ≤ c)) (hc2 : c ≤ 1) :
    lo * m ≤ roundAwayQ (rne (c * m)) ∧ roundAwayQ (rne (c * m)) ≤ m := by
  have hm0' : (0 : ℚ) ≤ m := by exact_mod_cast hm0
  have habs : |m| ≤ 2 ^ 24 := by rw [abs_of_nonneg hm0]; exact hm
  constructor
  · have hlom : |lo * m| ≤ 2 ^ 24 := by
      rcases hlo with ⟨h, _⟩ | ⟨h, _⟩ <;> subst h
      · simp
      · rw [neg_one_mul, abs_neg]; exact habs
    have h1 : ((lo * m : ℤ) : ℚ) ≤ c * m := by
      push_cast
      apply mul_le_mul_of_nonneg_right _ hm0'
      rcases hlo with ⟨h, h'⟩ | ⟨h, h'⟩ <;> subst h <;> simpa using h'
    have h2 := roundAway_mono (rne_mono h1)
    rw [rne_int hlom, roundAway_int] at h2
    exact h2
  · have h1 : c * m ≤ ((m : ℤ) : ℚ) := by nlinarith
    have h2 := roundAway_mono (rne_mono h1)
    rw [rne_int habs, roundAway_int] at h2
    exact h2

theorem toUNorm_eq {top m v : Nat} {c : ℚ} (hc : clampVal 0 1 (F32.ofBits v) = some c)
    (hm : m ≤ 2 ^ 24) (hmt : m ≤ top) :
    toUNorm top m v = .ok (roundAwayQ (rne (c * m))).toNat ∧
      0 ≤ roundAwayQ (rne (c * m)) ∧ roundAwayQ (rne (c * m)) ≤ m := by
  have hr := clampVal_range (by norm_num) hc
  have hmz : (m : ℤ) ≤ 2 ^ 24 := by exact_mod_cast hm
  have hq := quant_range (c := c) (m := (m : ℤ)) (by positivity) hmz (lo := 0)
    (Or.inl ⟨rfl, hr.1⟩) hr.2
  have hp := prod_round (c := c) (m := (m : ℤ)) (B := 2 ^ 24) (le_refl _)
    (by linarith [hr.1]) hr.2 (by positivity) hmz
  rw [zero_mul] at hq
  push_cast at hq hp
  refine ⟨?_, hq.1, hq.2⟩
  unfold toUNorm
  rw [clampF_fin (by norm_num) hc]
  simp only [F32.mul, hp, F32.roundAway]
  rw [cast_int hq.1 (le_trans hq.2 (by exact_mod_cast hmt))]
  rfl

theorem toUNorm_nan {top m v : Nat} (h : F32.ofBits v = .nan) : toUNorm top m v = .ub := by
  unfold toUNorm
  rw [h, clampF_nan]
  rfl

theorem toA1_eq {v : Nat} {c : ℚ} (hc : clampVal 0 1 (F32.ofBits v) = some c) :
    toA1 v = .ok (roundAwayQ c).toNat ∧ 0 ≤ roundAwayQ c ∧ roundAwayQ c ≤ 1 := by
  have hr := clampVal_range (by norm_num) hc
  have h0 : 0 ≤ roundAwayQ c := by
    have := roundAway_mono hr.1
    have h := roundAway_int 0
    push_cast at h
    omega
  have h1 : roundAwayQ c ≤ 1 := by
    have := roundAway_mono hr.2
    have h := roundAway_int 1
    push_cast at h
    omega
  refine ⟨?_, h0, h1⟩
  unfold toA1
  rw [clampF_fin (by norm_num) hc]
  simp only [F32.roundAway]
  rw [cast_int h0 (by omega)]
  rfl

theorem toA1_nan {v : Nat} (h : F32.ofBits v = .nan) : toA1 v = .ub := by
  unfold toA1
  rw [h, clampF_nan]
  rfl

theorem toSNorm_eq {n v : Nat} {c : ℚ} (hc : clampVal (-1) 1 (F32.ofBits v) = some c)
    (hn : 1 ≤ n) (hn2 : n ≤ 16) :
    toSNorm n v = .ok (bits n (roundAwayQ (rne (c * ((2 ^ (n - 1) - 1 : ℤ) : ℚ))))) ∧
      -(2 ^ (n - 1) - 1) ≤ roundAwayQ (rne (c * ((2 ^ (n - 1) - 1 : ℤ) : ℚ))) ∧
      roundAwayQ (rne (c * ((2 ^ (n - 1) - 1 : ℤ) : ℚ))) ≤ 2 ^ (n - 1) - 1 := by
  have hr := clampVal_range (by norm_num) hc
  have h1 : (1 : ℤ) ≤ 2 ^ (n - 1) := one_le_pow₀ (by norm_num)
  have h2 : (2 : ℤ) ^ (n - 1) ≤ 2 ^ 15 := pow_le_pow_right₀ (by norm_num) (by omega)
  have hm0 : (0 : ℤ) ≤ 2 ^ (n - 1) - 1 := by omega
  have hmz : (2 : ℤ) ^ (n - 1) - 1 ≤ 2 ^ 24 := by norm_num at h2 ⊢; omega
  have hq := quant_range (c := c) (m := 2 ^ (n - 1) - 1) hm0 hmz (lo := -1)
    (Or.inr ⟨rfl, hr.1⟩) hr.2
  have hp := prod_round (c := c) (m := 2 ^ (n - 1) - 1) (B := 2 ^ 24) (le_refl _)
    hr.1 hr.2 hm0 hmz
  rw [neg_one_mul] at hq
  refine ⟨?_, hq.1, hq.2⟩
  unfold toSNorm
  rw [clampF_fin (by norm_num) hc]
  have hcast : ((2 : ℚ) ^ (n - 1) - 1) = ((2 ^ (n - 1) - 1 : ℤ) : ℚ) := by push_cast; rfl
  simp only [F32.mul, hcast, hp, F32.roundAway]
  rw [cast_int (by linarith [hq.1]) hq.2]
  rfl

theorem toSNorm_nan {n v : Nat} (h : F32.ofBits v = .nan) : toSNorm n v = .ub := by
  unfold toSNorm
  rw [h, clampF_nan]
  rfl

theorem toField_eq {m v : Nat} {c : ℚ} (hc : clampVal 0 m (F32.ofBits v) = some c)
    (hm : m < 2 ^ 32) :
    toField m v = .ok (roundAwayQ c).toNat ∧ 0 ≤ roundAwayQ c ∧ roundAwayQ c ≤ m := by
  have hr := clampVal_range (by positivity) hc
  have h0 : 0 ≤ roundAwayQ c := by
    have := roundAway_mono hr.1
    have h := roundAway_int 0
    push_cast at h
    omega
  have h1 : roundAwayQ c ≤ m := by
    have := roundAway_mono hr.2
    have h := roundAway_int m
    push_cast at h
    omega
  refine ⟨?_, h0, h1⟩
  unfold toField
  rw [clampF_fin (by positivity) hc]
  simp only [F32.roundAway]
  rw [cast_int h0 (by omega)]
  rfl

theorem toField_nan {m v : Nat} (h : F32.ofBits v = .nan) : toField m v = .ub := by
  unfold toField
  rw [h, clampF_nan]
  rfl

/-- `toInt` when the limits are exact floats. -/
theorem toInt_eq {lo hi : ℤ} {v : Nat} {c : ℚ} (hc : clampVal lo hi (F32.ofBits v) = some c)
    (hl : |lo| ≤ 2 ^ 24) (hh : |hi| ≤ 2 ^ 24) (h : lo ≤ hi) :
    toInt lo hi v = .ok (roundAwayQ c) ∧ lo ≤ roundAwayQ c ∧ roundAwayQ c ≤ hi := by
  have hlh : (lo : ℚ) ≤ hi := by exact_mod_cast h
  have hr := clampVal_range hlh hc
  have h0 : lo ≤ roundAwayQ c := by
    have := roundAway_mono hr.1
    rwa [roundAway_int] at this
  have h1 : roundAwayQ c ≤ hi := by
    have := roundAway_mono hr.2
    rwa [roundAway_int] at this
  refine ⟨?_, h0, h1⟩
  have small : ∀ n : ℤ, |n| ≤ 2 ^ 24 → F32.round (n : ℚ) = .fin n := by
    intro n hn
    rw [round_fin, rne_int hn]
    have : |(n : ℚ)| ≤ 2 ^ 24 := by exact_mod_cast hn
    exact le_trans this (by norm_num)
  unfold toInt
  rw [small lo hl, small hi hh, clampF_fin hlh hc]
  simp only [F32.roundAway]
  rw [cast_int h0 h1]

theorem toInt_nan {lo hi : ℤ} {v : Nat} (h : F32.ofBits v = .nan) : toInt lo hi v = .ub := by
  unfold toInt
  rw [h, clampF_nan]
  rfl

/-- Distance of the stored integer from the exact product. -/
theorem quant_err {c : ℚ} {m : ℤ} {n : Nat} (hn : n ≤ 24) (hm0 : 0 ≤ m) (hm : m ≤ 2 ^ n)
    (hc1 : -1 ≤ c) (hc2 : c ≤ 1) :
    |(roundAwayQ (rne (c * m)) : ℚ) - c * m| ≤ 1 / 2 + 2 ^ n / 2 ^ 25 := by
  have h1 := roundAway_err (rne (c * m))
  have hm0' : (0 : ℚ) ≤ m := by exact_mod_cast hm0
  have hm' : (m : ℚ) ≤ 2 ^ n := by exact_mod_cast hm
  have hb : |c * m| ≤ (2 : ℚ) ^ (((n : ℤ) - 1) + 1) := by
    rw [sub_add_cancel, zpow_natCast, abs_mul, abs_of_nonneg hm0']
    have hcc : |c| ≤ 1 := abs_le.mpr ⟨hc1, hc2⟩
    nlinarith
  have h2 := rne_abs (q := c * m) (e := (n : ℤ) - 1) (by omega) hb
  have h3 : (2 : ℚ) ^ ((n : ℤ) - 1 - 24) = 2 ^ n / 2 ^ 25 := by
    rw [show (n : ℤ) - 1 - 24 = (n : ℤ) - (25 : ℕ) by push_cast; ring,
      zpow_sub₀ (by norm_num), zpow_natCast, zpow_natCast]
  rw [h3] at h2
  calc |(roundAwayQ (rne (c * m)) : ℚ) - c * m|
      = |((roundAwayQ (rne (c * m)) : ℚ) - rne (c * m)) + (rne (c * m) - c * m)| := by ring_nf
    _ ≤ _ := abs_add_le _ _
    _ ≤ _ := by linarith

end Cuttlefish
