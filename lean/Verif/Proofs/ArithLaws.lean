import Verif.Model.Arith
import Verif.Spec.Image
import Verif.Proofs.Dbl
/-
IEEE arithmetic and exact arithmetic satisfy the assumptions about arithmetic.
-/
namespace Cuttlefish
open Spec

theorem two53_le : (2 : ℚ) ^ 53 ≤ (2 : ℚ) ^ (1023 : ℤ) := by
  rw [show (1023 : ℤ) = ((1023 : ℕ) : ℤ) by norm_num, zpow_natCast]
  exact pow_le_pow_right₀ (by norm_num) (by norm_num)

theorem ofQ_small {q : ℚ} (h : |q| ≤ 2 ^ 53) : Dbl.ofQ q = .fin (rneD q) := ofQ_fin (h.trans two53_le)

theorem ofQ_int {n : ℤ} (h : |n| ≤ 2 ^ 53) : Dbl.ofQ (n : ℚ) = .fin n := by
  rw [ofQ_small (by exact_mod_cast h), rneD_exact (repD_int h)]

theorem ofQ_nat {n : ℕ} (h : n ≤ 2 ^ 53) : Dbl.ofQ (n : ℚ) = .fin n := by
  have := ofQ_int (n := n) (by rw [abs_of_nonneg (by positivity)]; exact_mod_cast h)
  simpa using this

theorem ofQ_zero : Dbl.ofQ 0 = .fin 0 := by simpa using ofQ_nat (n := 0) (by norm_num)
theorem ofQ_one : Dbl.ofQ 1 = .fin 1 := by simpa using ofQ_nat (n := 1) (by norm_num)

theorem rneD_between {q : ℚ} {n : ℕ} (hn : n ≤ 2 ^ 53) (h0 : 0 ≤ q) (h1 : q ≤ n) :
    0 ≤ rneD q ∧ rneD q ≤ n := by
  constructor
  · have := rneD_mono h0; rwa [rneD_zero] at this
  · have := rneD_mono h1
    rwa [rneD_exact (q := (n : ℚ)) (by
      have := repD_int (n := n) (by rw [abs_of_nonneg (by positivity)]; exact_mod_cast hn)
      simpa using this)] at this

theorem roundAway_between {q : ℚ} {n : ℕ} (h0 : 0 ≤ q) (h1 : q ≤ n) :
    0 ≤ roundAwayQ q ∧ roundAwayQ q ≤ n := by
  constructor
  · have := roundAway_mono h0
    have e := roundAway_int 0
    simp only [Int.cast_zero] at e
    rwa [e] at this
  · have := roundAway_mono h1
    have e := roundAway_int n
    simp only [Int.cast_natCast] at e
    rwa [e] at this

/-- The real number a colour channel is clamped to. -/
def clamp01 (q : ℚ) : ℚ := max (min q 1) 0

theorem clamp01_mem (q : ℚ) : 0 ≤ clamp01 q ∧ clamp01 q ≤ 1 :=
  ⟨le_max_right _ _, max_le (min_le_right _ _) zero_le_one⟩

theorem clamp_ieee (L : Libm) (q : ℚ) : (Arith.ieee L).clamp (.fin q) = .fin (clamp01 q) := by
  simp only [Arith.clamp, Arith.max, Arith.min, Arith.ieee, ofQ_one, ofQ_zero, F32.lt, clamp01]
  by_cases h : 1 < q
  · simp [h, min_eq_right h.le]
  · simp only [h, decide_false, Bool.false_eq_true, if_false, min_eq_left (not_lt.1 h)]
    by_cases h2 : q < 0
    · simp [h2, max_eq_right h2.le]
    · simp [h2, max_eq_left (not_lt.1 h2)]

theorem toNorm_ieee (L : Libm) {top m : Nat} (q : ℚ) (hm : m ≤ 65535) (ht : m ≤ top) :
    (Arith.ieee L).toNorm top m (.fin q) = .ok (roundAwayQ (rneD (clamp01 q * m))) := by
  unfold Arith.toNorm
  rw [clamp_ieee]
  obtain ⟨c0, c1⟩ := clamp01_mem q
  have hm' : (m : ℚ) ≤ 65535 := by exact_mod_cast hm
  have hm0 : (0 : ℚ) ≤ m := by positivity
  have h0 : 0 ≤ clamp01 q * m := by positivity
  have h1 : clamp01 q * m ≤ m := mul_le_of_le_one_left hm0 c1
  simp only [Arith.ieee, ofQ_nat (show m ≤ 2 ^ 53 by omega), F32.mulWith]
  rw [ofQ_small (by rw [abs_of_nonneg h0]; linarith)]
  simp only [F32.roundAway]
  have hb := rneD_between (show m ≤ 2 ^ 53 by omega) h0 h1
  have hr := roundAway_between hb.1 hb.2
  exact cast_int hr.1 (hr.2.trans (by exact_mod_cast ht))

theorem toNorm_bounds {m : Nat} (q : ℚ) (hm : m ≤ 65535) :
    0 ≤ roundAwayQ (rneD (clamp01 q * m)) ∧ roundAwayQ (rneD (clamp01 q * m)) ≤ m := by
  obtain ⟨c0, c1⟩ := clamp01_mem q
  have hm0 : (0 : ℚ) ≤ m := by positivity
  have hb := rneD_between (show m ≤ 2 ^ 53 by omega) (mul_nonneg c0 hm0)
    (mul_le_of_le_one_left hm0 c1)
  exact roundAway_between hb.1 hb.2

theorem mul_err {m : Nat} {c : ℚ} (h0 : 0 ≤ c) (h1 : c ≤ 1) (hm : m ≤ 65535) :
    |rneD (c * m) - c * m| ≤ 1 / 2 ^ 38 := by
  have hm' : (m : ℚ) ≤ 65535 := by exact_mod_cast hm
  have hm0 : (0 : ℚ) ≤ m := by positivity
  have := rneD_abs (q := c * m) (e := 15) (by norm_num) (by
    rw [abs_of_nonneg (mul_nonneg h0 hm0)]
    have := mul_le_of_le_one_left hm0 h1
    norm_num
    linarith)
  refine this.trans (le_of_eq ?_)
  norm_num [zpow_neg]

/-- The stored integer is the nearest one up to the rounding error of one multiplication. -/
theorem toNorm_err {m : Nat} (q : ℚ) (hm : m ≤ 65535) :
    |(roundAwayQ (rneD (clamp01 q * m)) : ℚ) - clamp01 q * m| ≤ 1 / 2 + 1 / 2 ^ 38 := by
  obtain ⟨c0, c1⟩ := clamp01_mem q
  have h1 := roundAway_err (rneD (clamp01 q * m))
  have h2 := mul_err c0 c1 hm
  rw [abs_le] at *
  constructor <;> linarith [h1.1, h1.2, h2.1, h2.2]

theorem fromNorm_ieee (L : Libm) {m : Nat} {v : Int} (h0 : m ≠ 0) (hm : m ≤ 65535) (hv : |v| ≤ 2 ^ 32) :
    (Arith.ieee L).fromNorm m v = .fin (rneD (v / m)) := by
  have hv' : |v| ≤ 2 ^ 53 := hv.trans (by norm_num)
  simp only [Arith.fromNorm, Arith.ieee, ofQ_int hv', ofQ_nat (show m ≤ 2 ^ 53 by omega), F32.divWith]
  rw [if_neg (by exact_mod_cast h0)]
  apply ofQ_small
  have hm1 : (1 : ℚ) ≤ m := by exact_mod_cast Nat.one_le_iff_ne_zero.2 h0
  rw [abs_div, abs_of_nonneg (show (0 : ℚ) ≤ m by positivity)]
  refine (div_le_self (abs_nonneg _) hm1).trans ?_
  exact_mod_cast hv'

theorem range_of_if {lo hi t v : Int} (h : (if lo ≤ t ∧ t ≤ hi then Res.ok t else .ub) = .ok v) :
    lo ≤ v ∧ v ≤ hi := by
  by_cases hh : lo ≤ t ∧ t ≤ hi
  · rw [if_pos hh] at h; cases h; exact hh
  · rw [if_neg hh] at h; cases h

theorem lawful_ieee (L : Libm) : LawfulArith (Arith.ieee L) where
  norm := by
    intro top m v hm hv ht
    have hm' : 31 ≤ m ∧ m ≤ 65535 := by
      simp only [List.mem_cons, List.not_mem_nil, or_false] at hm
      omega
    have hm0 : (0 : ℚ) < m := by exact_mod_cast (show 0 < m by omega)
    have hq0 : (0 : ℚ) ≤ (v : ℚ) / m := by positivity
    have hq1 : (v : ℚ) / m ≤ (1 : ℕ) := by
      rw [Nat.cast_one, div_le_one hm0]; exact_mod_cast hv
    have e1 : (Arith.ieee L).fromNorm m (v : Int) = .fin (rneD (v / m)) := by
      have := fromNorm_ieee L (m := m) (v := v) (by omega) hm'.2 (by
        rw [abs_of_nonneg (by positivity)]; omega)
      simpa using this
    have hb := rneD_between (by norm_num) hq0 hq1
    rw [e1, toNorm_ieee L _ hm'.2 ht]
    have hc : clamp01 (rneD (v / m)) = rneD (v / m) := by
      rw [clamp01, min_eq_left (by simpa using hb.2), max_eq_left hb.1]
    have h1 := toNorm_err (m := m) (rneD (v / m)) hm'.2
    have h2 := rneD_abs (q := (v : ℚ) / m) (e := -1) (by norm_num) (by
      rw [abs_of_nonneg hq0]; simpa using hq1)
    rw [hc] at h1 ⊢
    have h2' : |rneD (v / m) * m - v| ≤ 1 / 2 ^ 38 := by
      have e : rneD ((v : ℚ) / m) * m - v = (rneD (v / m) - v / m) * m := by
        rw [sub_mul, div_mul_cancel₀ _ hm0.ne']
      rw [e, abs_mul, abs_of_pos hm0]
      have hm2 : (m : ℚ) ≤ 65535 := by exact_mod_cast hm'.2
      calc _ ≤ (2 : ℚ) ^ (-1 - 53 : ℤ) * 65535 := by gcongr
        _ ≤ 1 / 2 ^ 38 := by norm_num [zpow_neg]
    have h3 : |(roundAwayQ (rneD (rneD (v / m) * m)) : ℚ) - v| < 1 := by
      rw [abs_le] at h1 h2'
      rw [abs_lt]
      have : (1 : ℚ) / 2 ^ 38 < 1 / 4 := by norm_num
      constructor <;> linarith [h1.1, h1.2, h2'.1, h2'.2]
    have h4 : |roundAwayQ (rneD (rneD (v / m) * m)) - (v : ℤ)| < 1 := by exact_mod_cast h3
    rw [Int.abs_lt_one_iff] at h4
    congr 1
    omega
  int := by
    intro lo hi v h1 h2 h3
    simp only [Arith.ieee, ofQ_int (h3.trans (by norm_num))]
    exact cast_int h1 h2
  normRange := by
    intro top m d v hm ht h
    have hm' : m ≤ 65535 := by
      simp only [List.mem_cons, List.not_mem_nil, or_false] at hm
      omega
    cases d with
    | nan =>
      simp [Arith.toNorm, Arith.clamp, Arith.max, Arith.min, Arith.ieee, F32.lt, F32.mulWith, ofQ_one,
        ofQ_zero, F32.roundAway, F32.cast] at h
    | inf s =>
      have : (Arith.ieee L).toNorm top m (.inf s) = (Arith.ieee L).toNorm top m (.fin (if s then 0 else 1)) := by
        unfold Arith.toNorm
        rw [clamp_ieee]
        cases s <;> simp [Arith.clamp, Arith.max, Arith.min, Arith.ieee, F32.lt, ofQ_one, ofQ_zero, clamp01,
          show ¬ ((1 : ℚ) < 0) by norm_num]
      rw [this, toNorm_ieee L _ hm' ht] at h
      cases h
      exact toNorm_bounds _ hm'
    | fin q =>
      rw [toNorm_ieee L _ hm' ht] at h
      cases h
      exact toNorm_bounds _ hm'
  cast := by
    intro lo hi d v h
    cases d with
    | fin q =>
      simp only [Arith.ieee, F32.cast] at h
      exact range_of_if h
    | _ => simp [Arith.ieee, F32.cast] at h
  single := by
    intro v
    cases v with
    | fin q =>
      simp only [Arith.ieee, Dbl.single]
      by_cases h : 2 ^ 128 ≤ |rne q|
      · rw [show F32.round q = .inf (q < 0) from if_pos h]
      · rw [show F32.round q = .fin (rne q) from if_neg h]
        show F32.round (rne q) = _
        rw [F32.round, rne_exact (rne_rep q), if_neg h]
    | _ => rfl

theorem exact_cast (lo hi : Int) (a : ℝ) :
    Arith.exact.cast lo hi a = (if lo ≤ (if 0 ≤ a then ⌊a⌋ else -⌊-a⌋) ∧ (if 0 ≤ a then ⌊a⌋ else -⌊-a⌋) ≤ hi then
      .ok (if 0 ≤ a then ⌊a⌋ else -⌊-a⌋) else .ub) := rfl

theorem exact_cast_int {lo hi v : Int} (h1 : lo ≤ v) (h2 : v ≤ hi) : Arith.exact.cast lo hi (v : ℝ) = .ok v := by
  have : (if (0 : ℝ) ≤ (v : ℝ) then ⌊(v : ℝ)⌋ else -⌊-(v : ℝ)⌋) = v := by
    split
    · exact Int.floor_intCast v
    · rw [show -(v : ℝ) = ((-v : ℤ) : ℝ) by push_cast; rfl, Int.floor_intCast]; ring
  rw [exact_cast, this, if_pos ⟨h1, h2⟩]

/-- The clamped value in exact arithmetic. -/
noncomputable def clampR (x : ℝ) : ℝ := max (min x 1) 0

theorem clampR_mem (x : ℝ) : 0 ≤ clampR x ∧ clampR x ≤ 1 :=
  ⟨le_max_right _ _, max_le (min_le_right _ _) zero_le_one⟩

theorem clampR_id {x : ℝ} (h0 : 0 ≤ x) (h1 : x ≤ 1) : clampR x = x := by
  rw [clampR, min_eq_left h1, max_eq_left h0]

theorem clamp_exact (x : ℝ) : Arith.exact.clamp x = clampR x := by
  simp only [Arith.clamp, Arith.max, Arith.min, Arith.exact, Rat.cast_one, Rat.cast_zero, clampR]
  by_cases h : 1 < x
  · simp [h, min_eq_right h.le]
  · simp only [h, decide_false, Bool.false_eq_true, if_false, min_eq_left (not_lt.1 h)]
    by_cases h2 : x < 0
    · simp [h2, max_eq_right h2.le]
    · simp [h2, max_eq_left (not_lt.1 h2)]

theorem toNorm_exact {top m : Nat} (x : ℝ) (ht : m ≤ top) :
    Arith.exact.toNorm top m x = .ok ⌊clampR x * m + 1 / 2⌋ := by
  unfold Arith.toNorm
  rw [clamp_exact]
  obtain ⟨h0, h1⟩ := clampR_mem x
  have hm0 : (0 : ℝ) ≤ m := by positivity
  have h2 : 0 ≤ clampR x * m := mul_nonneg h0 hm0
  have h3 : clampR x * m ≤ m := mul_le_of_le_one_left hm0 h1
  have e : Arith.exact.round (Arith.exact.mul (clampR x) (Arith.exact.lit m)) = (⌊clampR x * m + 1 / 2⌋ : ℝ) := by
    simp only [Arith.exact, Rat.cast_natCast]
    rw [if_pos h2]
  rw [e]
  apply exact_cast_int
  · exact Int.floor_nonneg.2 (by linarith)
  · have : ⌊clampR x * m + 1 / 2⌋ < (m : ℤ) + 1 := by
      rw [Int.floor_lt]; push_cast; linarith
    have : (m : ℤ) ≤ top := by exact_mod_cast ht
    omega

theorem toNorm_exact_bounds {m : Nat} (x : ℝ) :
    0 ≤ ⌊clampR x * m + 1 / 2⌋ ∧ ⌊clampR x * m + 1 / 2⌋ ≤ m := by
  obtain ⟨h0, h1⟩ := clampR_mem x
  have hm0 : (0 : ℝ) ≤ m := by positivity
  have h2 : 0 ≤ clampR x * m := mul_nonneg h0 hm0
  have h3 : clampR x * m ≤ m := mul_le_of_le_one_left hm0 h1
  refine ⟨Int.floor_nonneg.2 (by linarith), ?_⟩
  have : ⌊clampR x * m + 1 / 2⌋ < (m : ℤ) + 1 := by
    rw [Int.floor_lt]; push_cast; linarith
  omega

theorem lawful_exact : LawfulArith Arith.exact where
  norm := by
    intro top m v hm hv ht
    have hm' : 31 ≤ m := by
      simp only [List.mem_cons, List.not_mem_nil, or_false] at hm
      omega
    have hm0 : (0 : ℝ) < m := by exact_mod_cast (show 0 < m by omega)
    rw [toNorm_exact _ ht]
    have e : Arith.exact.fromNorm m (v : Int) = (v : ℝ) / m := by
      simp [Arith.fromNorm, Arith.exact]
    rw [e, clampR_id (by positivity) (by rw [div_le_one hm0]; exact_mod_cast hv), div_mul_cancel₀ _ hm0.ne']
    congr 1
    rw [Int.floor_eq_iff]
    push_cast
    constructor <;> linarith
  int := by
    intro lo hi v h1 h2 _
    have : Arith.exact.lit (v : ℚ) = (v : ℝ) := by simp [Arith.exact]
    rw [this]
    exact exact_cast_int h1 h2
  normRange := by
    intro top m d v _ ht h
    rw [toNorm_exact _ ht] at h
    cases h
    exact toNorm_exact_bounds d
  cast := by
    intro lo hi d v h
    rw [exact_cast] at h
    exact range_of_if h
  single := fun _ => rfl

end Cuttlefish
