import Verif.Proofs.Filter
import Verif.Proofs.ArithLaws
/-
The windows of the filters in IEEE arithmetic.
-/
namespace Cuttlefish
open Spec
variable {Lm : Libm}

theorem repD_half {n : ℤ} (h : |2 * n + 1| ≤ 2 ^ 53) : RepD ((n : ℚ) + 1 / 2) :=
  ⟨2 * n + 1, -1, h, by norm_num, by push_cast; rw [zpow_neg_one]; ring⟩

theorem repD_neg {q : ℚ} (h : RepD q) : RepD (-q) := by
  obtain ⟨m, k, h1, h2, rfl⟩ := h
  exact ⟨-m, k, by rwa [abs_neg], h2, by push_cast; ring⟩

/-- Half is subtracted without rounding. -/
theorem repD_sub_half {q : ℚ} (h : RepD q) (h1 : 1 / 2 ≤ q) (h2 : q ≤ 2 ^ 40) : RepD (q - 1 / 2) := by
  obtain ⟨m, k, hm, hk, rfl⟩ := h
  by_cases hk1 : -1 ≤ k
  · obtain ⟨e, rfl⟩ : ∃ e : ℕ, k = e - 1 := ⟨(k + 1).toNat, by omega⟩
    refine ⟨m * 2 ^ e - 1, -1, ?_, by norm_num, ?_⟩
    · have e1 : (m : ℚ) * 2 ^ ((e : ℤ) - 1) = m * 2 ^ e / 2 := by
        rw [zpow_sub₀ (by norm_num), zpow_natCast, zpow_one]; ring
      rw [e1] at h1 h2
      have a1 : (1 : ℤ) ≤ m * 2 ^ e := by
        have : (1 : ℚ) ≤ m * 2 ^ e := by linarith
        exact_mod_cast this
      have a2 : m * 2 ^ e ≤ (2 ^ 41 : ℤ) := by
        have : (m : ℚ) * 2 ^ e ≤ 2 ^ 41 := by linarith
        exact_mod_cast this
      rw [abs_of_nonneg (by omega)]
      omega
    · push_cast
      rw [zpow_sub₀ (by norm_num), zpow_natCast, zpow_one, zpow_neg_one]; ring
  · obtain ⟨e, rfl⟩ : ∃ e : ℕ, k = -1 - e := ⟨(-1 - k).toNat, by omega⟩
    have p : (0 : ℚ) < 2 ^ (-1 - (e : ℤ)) := by positivity
    have e1 : (1 / 2 : ℚ) = 2 ^ e * 2 ^ (-1 - (e : ℤ)) := by
      rw [zpow_sub₀ (by norm_num), zpow_natCast, zpow_neg_one]; field_simp
    refine ⟨m - 2 ^ e, -1 - e, ?_, hk, ?_⟩
    · rw [e1] at h1
      have : (2 : ℚ) ^ e ≤ m := le_of_mul_le_mul_right h1 p
      have a1 : (2 : ℤ) ^ e ≤ m := by exact_mod_cast this
      have a2 : (0 : ℤ) < 2 ^ e := by positivity
      obtain ⟨-, hm⟩ := abs_le.1 hm
      rw [abs_of_nonneg (by omega)]
      omega
    · push_cast
      rw [sub_mul, ← e1]

theorem rneD_le_of {q s : ℚ} (hs : RepD s) (h : q ≤ s) : rneD q ≤ s := by
  have := rneD_mono h; rwa [rneD_exact hs] at this

theorem rneD_ge_of {q s : ℚ} (hs : RepD s) (h : s ≤ q) : s ≤ rneD q := by
  have := rneD_mono h; rwa [rneD_exact hs] at this

theorem repD_small {n : ℤ} (h : |n| ≤ 2 ^ 40) : RepD (n : ℚ) := repD_int (h.trans (by norm_num))

theorem repD_halves : RepD (1 / 2) := by
  have := repD_half (n := 0) (by norm_num)
  norm_num at this ⊢
  exact this

theorem repD_one : RepD 1 := by exact_mod_cast repD_int (n := 1) (by norm_num)

/-- The operations on numbers that are not large. -/
theorem ieee_lit {q : ℚ} (h : RepD q) (hq : |q| ≤ 2 ^ 53) : (Arith.ieee Lm).lit q = .fin q := by
  show Dbl.ofQ q = _
  rw [ofQ_small hq, rneD_exact h]

theorem ieee_half : (Arith.ieee Lm).lit 0.5 = .fin (1 / 2) := by
  rw [show (0.5 : ℚ) = 1 / 2 by norm_num]
  exact ieee_lit repD_halves (by rw [abs_of_nonneg] <;> norm_num)

theorem ieee_one : (Arith.ieee Lm).lit 1 = .fin 1 := ieee_lit repD_one (by norm_num)

theorem ieee_zero : (Arith.ieee Lm).lit 0 = .fin 0 := by
  have := ieee_lit (Lm := Lm) (q := ((0 : ℤ) : ℚ)) (repD_int (by norm_num)) (by norm_num)
  rwa [Int.cast_zero] at this

theorem ieee_nat {n : ℕ} (h : n ≤ 2 ^ 53) : (Arith.ieee Lm).lit (n : ℚ) = .fin n := ofQ_nat h

theorem ieee_add {a b : ℚ} (h : |a + b| ≤ 2 ^ 53) : (Arith.ieee Lm).add (.fin a) (.fin b) = .fin (rneD (a + b)) :=
  ofQ_small h

theorem ieee_sub {a b : ℚ} (h : |a - b| ≤ 2 ^ 53) : (Arith.ieee Lm).sub (.fin a) (.fin b) = .fin (rneD (a - b)) := by
  rw [sub_eq_add_neg] at h ⊢
  exact ofQ_small h

theorem ieee_mul {a b : ℚ} (h : |a * b| ≤ 2 ^ 53) : (Arith.ieee Lm).mul (.fin a) (.fin b) = .fin (rneD (a * b)) :=
  ofQ_small h

theorem ieee_div {a b : ℚ} (hb : b ≠ 0) (h : |a / b| ≤ 2 ^ 53) :
    (Arith.ieee Lm).div (.fin a) (.fin b) = .fin (rneD (a / b)) := by
  show F32.divWith Dbl.ofQ (.fin a) (.fin b) = _
  rw [F32.divWith, if_neg hb]
  exact ofQ_small h

theorem ieee_max (a b : ℚ) : (Arith.ieee Lm).max (.fin a) (.fin b) = .fin (max a b) := by
  simp only [Arith.max, Arith.ieee, F32.lt, decide_eq_true_eq]
  split
  · rw [max_eq_right (by linarith)]
  · rw [max_eq_left (by linarith)]

theorem ieee_abs {a : ℚ} (h : RepD a) (ha : |a| ≤ 2 ^ 53) : (Arith.ieee Lm).abs (.fin a) = .fin |a| := by
  unfold Arith.abs
  rw [ieee_zero]
  simp only [show (Arith.ieee Lm).lt (.fin a) (.fin 0) = decide (a < 0) from rfl, decide_eq_true_eq]
  split
  · rw [ieee_sub (by rwa [zero_sub, abs_neg]), zero_sub, rneD_exact (repD_neg h), abs_of_neg ‹_›]
  · rw [abs_of_nonneg (by linarith)]

/-- The parameters of one axis: the middle `c` of the output pixel is in the source, `o` is the offset of the window
and `s` scales distances. -/
theorem ieee_axis {n k x : ℕ} (hn0 : 0 < n) (hn : n < 2 ^ 31) (hx : x < k) (hk : k < 2 ^ 32) :
    ∃ c o s : ℚ, RepD c ∧ 0 < c ∧ c < n ∧ RepD o ∧ 1 ≤ o ∧ o ≤ n ∧ RepD s ∧ 0 < s ∧ s ≤ 1 ∧
      centerOf (Arith.ieee Lm) x (axis (Arith.ieee Lm) n k).1 = .fin c ∧ (axis (Arith.ieee Lm) n k).2.1 = .fin o ∧
      (axis (Arith.ieee Lm) n k).2.2 = .fin s := by
  have kpos : (0 : ℚ) < k := by exact_mod_cast (by omega : 0 < k)
  have k1 : (1 : ℚ) ≤ k := by exact_mod_cast (by omega : 1 ≤ k)
  have k2 : (k : ℚ) ≤ 2 ^ 32 := by exact_mod_cast (by omega : k ≤ 2 ^ 32)
  have n1 : (1 : ℚ) ≤ n := by exact_mod_cast hn0
  have n2 : (n : ℚ) ≤ 2 ^ 31 := by exact_mod_cast (by omega : n ≤ 2 ^ 31)
  have x0 : (0 : ℚ) ≤ x := by positivity
  have x1 : (x : ℚ) + 1 ≤ k := by exact_mod_cast hx
  have repn : RepD (n : ℚ) := by
    exact_mod_cast repD_small (n := (n : ℤ)) (by rw [abs_of_nonneg (by positivity)]; omega)
  set r : ℚ := n / k with hr
  have rk : r * k = n := div_mul_cancel₀ _ kpos.ne'
  have r0 : (2 : ℚ)⁻¹ ^ 32 ≤ r := by
    rw [hr, le_div_iff₀ kpos]
    calc (2 : ℚ)⁻¹ ^ 32 * k ≤ 2⁻¹ ^ 32 * 2 ^ 32 := by gcongr
      _ = 1 := by norm_num
      _ ≤ n := n1
  have rpos : 0 < r := lt_of_lt_of_le (by norm_num) r0
  have rn : r ≤ n := by
    rw [hr, div_le_iff₀ kpos]
    nlinarith
  have tiny : (2 : ℚ) ^ (-1022 : ℤ) ≤ 2⁻¹ ^ 40 := by
    rw [show (-1022 : ℤ) = -((1022 : ℕ) : ℤ) by norm_num, zpow_neg, zpow_natCast, ← inv_pow]
    exact pow_le_pow_of_le_one (by norm_num) (by norm_num) (by norm_num)
  have rabs : |r| ≤ 2 ^ 53 := by rw [abs_of_pos rpos]; linarith
  set v := rneD r with hv
  have vrel := rneD_rel (q := r) (by rw [abs_of_pos rpos]; linarith [show (2 : ℚ)⁻¹ ^ 40 ≤ 2⁻¹ ^ 32 by norm_num])
  rw [abs_of_pos rpos, abs_le] at vrel
  obtain ⟨v1, v2⟩ := vrel
  rw [← hv] at v1 v2
  have vn : v ≤ n := rneD_le_of repn rn
  have vpos : 2⁻¹ ^ 33 ≤ v := by
    have : r / 2 ^ 53 ≤ r / 2 := by gcongr; norm_num
    have h33 : (2 : ℚ)⁻¹ ^ 33 = 2⁻¹ ^ 32 / 2 := by norm_num
    rw [h33]
    linarith
  have hvpos : 0 < v := lt_of_lt_of_le (by norm_num) vpos
  have einv : (axis (Arith.ieee Lm) n k).1 = .fin v := by
    show (Arith.ieee Lm).div ((Arith.ieee Lm).lit n) ((Arith.ieee Lm).lit k) = _
    rw [ieee_nat (by omega), ieee_nat (by omega), ieee_div kpos.ne' rabs]
  have eoff : (axis (Arith.ieee Lm) n k).2.1 = .fin (max v 1) := by
    show (Arith.ieee Lm).max (axis (Arith.ieee Lm) n k).1 ((Arith.ieee Lm).lit 1) = _
    rw [einv, ieee_one, ieee_max]
  have o1 : 1 ≤ max v 1 := le_max_right _ _
  have on : max v 1 ≤ n := max_le vn n1
  have orep : RepD (max v 1) := by
    rcases max_choice v 1 with h | h <;> rw [h]
    · exact rneD_rep _
    · exact repD_one
  have opos : 0 < max v 1 := by linarith
  have inv1 : 1 / max v 1 ≤ 1 := by rw [div_le_one opos]; exact o1
  have inv0 : (2 : ℚ)⁻¹ ^ 31 ≤ 1 / max v 1 := by
    rw [le_div_iff₀ opos]
    calc (2 : ℚ)⁻¹ ^ 31 * max v 1 ≤ 2⁻¹ ^ 31 * 2 ^ 31 := by gcongr; linarith
      _ = 1 := by norm_num
  have invpos : 0 < 1 / max v 1 := by positivity
  have rep31 : RepD ((2 : ℚ)⁻¹ ^ 31) := ⟨1, -31, by norm_num, by norm_num, by
    rw [zpow_neg, inv_pow]; norm_num⟩
  have escale : (axis (Arith.ieee Lm) n k).2.2 = .fin (rneD (1 / max v 1)) := by
    show (Arith.ieee Lm).div ((Arith.ieee Lm).lit 1) (axis (Arith.ieee Lm) n k).2.1 = _
    rw [eoff, ieee_one, ieee_div opos.ne' (by rw [abs_of_pos invpos]; linarith)]
  -- the middle
  have xrep : RepD ((x : ℚ) + 1 / 2) := by
    have := repD_half (n := (x : ℤ)) (by rw [abs_of_nonneg (by positivity)]; omega)
    exact_mod_cast this
  have xc : (x : ℚ) + 1 / 2 ≤ k - 1 / 2 := by linarith
  set p : ℚ := ((x : ℚ) + 1 / 2) * v with hp
  have p0 : 2⁻¹ ^ 34 ≤ p := by
    have : (1 / 2 : ℚ) * 2⁻¹ ^ 33 ≤ ((x : ℚ) + 1 / 2) * v := by gcongr; linarith
    have h34 : (2 : ℚ)⁻¹ ^ 34 = 1 / 2 * 2⁻¹ ^ 33 := by norm_num
    rw [h34]
    exact this
  have ppos : 0 < p := lt_of_lt_of_le (by norm_num) p0
  have p1 : p ≤ n * (1 - 2⁻¹ ^ 34) := by
    have a1 : p ≤ (k - 1 / 2) * (r * (1 + 2⁻¹ ^ 53)) := by
      rw [hp]
      refine mul_le_mul xc ?_ hvpos.le (by linarith)
      have : r / 2 ^ 53 = r * 2⁻¹ ^ 53 := by rw [inv_pow]; ring
      rw [this] at v2
      linarith
    have a2 : ((k : ℚ) - 1 / 2) * r ≤ n * (1 - 2⁻¹ ^ 33) := by
      have : (k - 1 / 2) * r = n - r / 2 := by rw [← rk]; ring
      rw [this]
      have : (n : ℚ) * 2⁻¹ ^ 33 ≤ r / 2 := by
        rw [← rk]
        calc r * k * 2⁻¹ ^ 33 ≤ r * 2 ^ 32 * 2⁻¹ ^ 33 := by gcongr
          _ = r / 2 := by ring
      linarith
    calc p ≤ (k - 1 / 2) * (r * (1 + 2⁻¹ ^ 53)) := a1
      _ = (k - 1 / 2) * r * (1 + 2⁻¹ ^ 53) := by ring
      _ ≤ n * (1 - 2⁻¹ ^ 33) * (1 + 2⁻¹ ^ 53) := by gcongr
      _ = n * ((1 - 2⁻¹ ^ 33) * (1 + 2⁻¹ ^ 53)) := by ring
      _ ≤ n * (1 - 2⁻¹ ^ 34) := by gcongr; norm_num
  have pn : p ≤ n := p1.trans (by nlinarith [show (0 : ℚ) < 2⁻¹ ^ 34 by norm_num])
  have prel := rneD_rel (q := p) (by rw [abs_of_pos ppos]; linarith [show (2 : ℚ)⁻¹ ^ 40 ≤ 2⁻¹ ^ 34 by norm_num])
  rw [abs_of_pos ppos, abs_le] at prel
  obtain ⟨c1, c2⟩ := prel
  have d53 : p / 2 ^ 53 = p * 2⁻¹ ^ 53 := by rw [inv_pow]; ring
  rw [d53] at c1 c2
  refine ⟨rneD p, max v 1, rneD (1 / max v 1), rneD_rep _, ?_, ?_, orep, o1, on, rneD_rep _, ?_, ?_, ?_, eoff, escale⟩
  · have : p * 2⁻¹ ^ 53 < p * 1 := by gcongr; norm_num
    linarith
  · have a : p * (1 + 2⁻¹ ^ 53) ≤ n * (1 - 2⁻¹ ^ 34) * (1 + 2⁻¹ ^ 53) := by gcongr
    have b : (n : ℚ) * (1 - 2⁻¹ ^ 34) * (1 + 2⁻¹ ^ 53) < n * 1 := by
      rw [mul_assoc]
      gcongr
      norm_num
    linarith
  · exact lt_of_lt_of_le (by norm_num) (rneD_ge_of rep31 inv0)
  · exact rneD_le_of repD_one inv1
  · show (Arith.ieee Lm).mul ((Arith.ieee Lm).add ((Arith.ieee Lm).lit x) ((Arith.ieee Lm).lit 0.5))
      (axis (Arith.ieee Lm) n k).1 = _
    rw [einv, ieee_half, ieee_nat (by omega), ieee_add (by rw [abs_of_nonneg (by positivity)]; linarith),
      rneD_exact xrep, ieee_mul (by rw [abs_of_pos ppos]; linarith)]

/-- The window contains the source pixel that contains the middle, and only source pixels. -/
theorem ieee_window {n : ℕ} {c o : ℚ} (hn : n < 2 ^ 31) (hc : RepD c) (c0 : 0 < c) (c1 : c < n)
    (o0 : 1 / 2 ≤ o) (o1 : o ≤ n) :
    ∃ lo hi, window (Arith.ieee Lm) (.fin c) (.fin o) n = .ok (lo, hi) ∧ lo ≤ ⌊c⌋.toNat ∧ ⌊c⌋.toNat < hi ∧ hi ≤ n := by
  have n2 : (n : ℚ) ≤ 2 ^ 31 - 1 := by exact_mod_cast (by omega : (n : ℤ) ≤ 2 ^ 31 - 1)
  have f0 : 0 ≤ ⌊c⌋ := Int.floor_nonneg.2 c0.le
  have f1 : ⌊c⌋ < n := by rw [Int.floor_lt]; exact_mod_cast c1
  have fc := Int.floor_le c
  have fc' := Int.lt_floor_add_one c
  have repn : RepD (-(n : ℚ)) := by
    have := repD_small (n := -(n : ℤ)) (by rw [abs_neg, abs_of_nonneg (by positivity)]; omega)
    push_cast at this
    exact this
  have rep2n : RepD (2 * n : ℚ) := by
    have := repD_small (n := 2 * (n : ℤ)) (by rw [abs_of_nonneg (by positivity)]; omega)
    push_cast at this
    exact this
  have rep2n1 : RepD (2 * n + 1 : ℚ) := by
    have := repD_small (n := 2 * (n : ℤ) + 1) (by rw [abs_of_nonneg (by positivity)]; omega)
    push_cast at this
    exact this
  have repm : RepD ((⌊c⌋ : ℚ) + 1 / 2) := repD_half (by rw [abs_of_nonneg (by omega)]; omega)
  have repm1 : RepD ((⌊c⌋ : ℚ) + 1) := by
    have := repD_small (n := ⌊c⌋ + 1) (by rw [abs_of_nonneg (by omega)]; omega)
    push_cast at this
    exact this
  have fq0 : (0 : ℚ) ≤ ⌊c⌋ := by exact_mod_cast f0
  have fqn : (⌊c⌋ : ℚ) + 1 ≤ n := by exact_mod_cast f1
  -- the lower bound
  set l := rneD (c - o) with hl
  have l1 : -(n : ℚ) ≤ l := rneD_ge_of repn (by linarith)
  have l2 : l ≤ rneD (c - 1 / 2) := rneD_mono (by linarith)
  have l3 : l ≤ 2 * n := rneD_le_of rep2n (by linarith)
  set lo := rneD (l + 1 / 2) with hlo
  have lo1 : -(n : ℚ) ≤ lo := rneD_ge_of repn (by linarith)
  have lo2 : lo < ⌊c⌋ + 1 := by
    by_cases h : 1 / 2 ≤ c
    · rw [rneD_exact (repD_sub_half hc h (by linarith))] at l2
      have : lo ≤ c := rneD_le_of hc (by linarith)
      linarith
    · have : l ≤ 0 := l2.trans (rneD_le_of (by simpa using repD_small (n := 0) (by norm_num)) (by linarith))
      have : lo ≤ 1 / 2 := rneD_le_of repD_halves (by linarith)
      linarith
  -- the upper bound
  set h := rneD (c + o) with hh
  have h1 : h ≤ 2 * n := rneD_le_of rep2n (by linarith)
  have h2 : ⌊c⌋ + 1 / 2 ≤ h := rneD_ge_of repm (by linarith)
  set hi := rneD (h + 1 / 2) with hhi
  have hi1 : hi ≤ 2 * n + 1 := rneD_le_of rep2n1 (by linarith)
  have hi2 : ⌊c⌋ + 1 ≤ hi := rneD_ge_of repm1 (by linarith)
  have elo : F32.cast (-2 ^ 31) (2 ^ 31 - 1) (.fin lo) = .ok (if 0 ≤ lo then ⌊lo⌋ else -⌊-lo⌋) := by
    simp only [F32.cast]
    rw [if_pos]
    split
    · have : 0 ≤ ⌊lo⌋ := Int.floor_nonneg.2 ‹_›
      have : ⌊lo⌋ < ⌊c⌋ + 1 := by rw [Int.floor_lt]; push_cast; exact lo2
      omega
    · have : 0 ≤ ⌊-lo⌋ := Int.floor_nonneg.2 (by linarith)
      have : ⌊-lo⌋ < n + 1 := by rw [Int.floor_lt]; push_cast; linarith
      omega
  have hi0 : 0 ≤ hi := by linarith
  have bhi : ⌊c⌋ + 1 ≤ ⌊hi⌋ := by rw [Int.le_floor]; push_cast; exact hi2
  have ehi : F32.cast 0 (2 ^ 32 - 1) (.fin hi) = .ok ⌊hi⌋ := by
    simp only [F32.cast]
    rw [if_pos hi0, if_pos]
    have : ⌊hi⌋ < 2 * n + 1 + 1 := by rw [Int.floor_lt]; push_cast; linarith
    omega
  refine ⟨(if 0 ≤ lo then ⌊lo⌋ else -⌊-lo⌋).toNat, Nat.min ⌊hi⌋.toNat n, ?_, ?_, ?_, Nat.min_le_right _ _⟩
  · unfold window
    rw [ieee_half, ieee_sub (by rw [abs_le]; constructor <;> linarith), ← hl,
      ieee_add (by rw [abs_le]; constructor <;> linarith), ← hlo]
    rw [show (Arith.ieee Lm).cast = F32.cast from rfl, elo, Res.ok_bind, ieee_add (by rw [abs_le]; constructor <;> linarith),
      ← hh, ieee_add (by rw [abs_le]; constructor <;> linarith), ← hhi, ehi]
    rfl
  · split
    · have : ⌊lo⌋ < ⌊c⌋ + 1 := by rw [Int.floor_lt]; push_cast; exact lo2
      omega
    · have : 0 ≤ ⌊-lo⌋ := Int.floor_nonneg.2 (by linarith)
      omega
  · rw [Nat.lt_min]
    omega

/-- Distances to the middle are finite, and small for the pixel that contains it. -/
theorem ieee_distance {n i : ℕ} {c s : ℚ} (hn : n < 2 ^ 31) (hi : i < n) (c0 : 0 < c) (c1 : c < n)
    (s0 : 0 < s) (s1 : s ≤ 1) :
    ∃ d, RepD d ∧ distanceTo (Arith.ieee Lm) i (.fin c) (.fin s) = .fin d ∧ 0 ≤ d ∧ d ≤ 2 ^ 31 ∧
      (i = ⌊c⌋.toNat → d ≤ 1 / 2) := by
  have n2 : (n : ℚ) ≤ 2 ^ 31 - 1 := by exact_mod_cast (by omega : (n : ℤ) ≤ 2 ^ 31 - 1)
  have i1 : (i : ℚ) + 1 ≤ n := by exact_mod_cast hi
  have i0 : (0 : ℚ) ≤ i := by positivity
  have irep : RepD ((i : ℚ) + 1 / 2) := by
    have := repD_half (n := (i : ℤ)) (by rw [abs_of_nonneg (by positivity)]; omega)
    exact_mod_cast this
  have rep0 : RepD 0 := by simpa using repD_small (n := 0) (by norm_num)
  have rep31 : RepD ((2 : ℚ) ^ 31) := by
    have := repD_small (n := 2 ^ 31) (by norm_num)
    exact_mod_cast this
  set q := rneD ((i : ℚ) + 1 / 2 - c) with hq
  have q1 : q ≤ 2 ^ 31 := rneD_le_of rep31 (by linarith)
  have q2 : -2 ^ 31 ≤ q := rneD_ge_of (repD_neg rep31) (by linarith)
  have qabs : |q| ≤ 2 ^ 31 := by rw [abs_le]; exact ⟨q2, q1⟩
  have m0 : 0 ≤ |q| * s := by positivity
  have m1 : |q| * s ≤ |q| := by
    have := abs_nonneg q
    nlinarith
  refine ⟨rneD (|q| * s), rneD_rep _, ?_, rneD_ge_of rep0 m0, rneD_le_of rep31 (m1.trans qabs), ?_⟩
  · unfold distanceTo
    rw [ieee_half, ieee_nat (by omega), ieee_add (by rw [abs_le]; constructor <;> linarith), rneD_exact irep,
      ieee_sub (by rw [abs_le]; constructor <;> linarith), ← hq, ieee_abs (rneD_rep _) (by linarith),
      ieee_mul (by rw [abs_of_nonneg m0]; linarith)]
  · intro e
    have f0 : 0 ≤ ⌊c⌋ := Int.floor_nonneg.2 c0.le
    have e' : (i : ℚ) = ⌊c⌋ := by exact_mod_cast (by omega : (i : ℤ) = ⌊c⌋)
    have fc := Int.floor_le c
    have fc' := Int.lt_floor_add_one c
    have : |q| ≤ 1 / 2 := by
      rw [abs_le]
      constructor
      · exact rneD_ge_of (repD_neg repD_halves) (by linarith)
      · exact rneD_le_of repD_halves (by linarith)
    exact rneD_le_of repD_halves (by linarith)

end Cuttlefish
