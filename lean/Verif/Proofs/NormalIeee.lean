import Verif.Spec.Sqrt
import Verif.Spec.Near
import Verif.Proofs.SrgbIeee
import Verif.Proofs.FilterIeee
/-
The normals of normal maps with the rounding of doubles.
-/
namespace Cuttlefish
open Spec
variable {Lm : Libm}

theorem round_real (q : ℚ) : |(rneD q : ℝ) - q| ≤ |(q : ℝ)| / 2 ^ 53 + 1 / 2 ^ 250 := by
  have h : |rneD q - q| ≤ |q| / 2 ^ 53 + 1 / 2 ^ 250 := by
    rcases le_or_gt ((2 : ℚ) ^ (-1022 : ℤ)) |q| with h | h
    · exact (rneD_rel h).trans (by norm_num)
    · have := rneD_abs (q := q) (e := -1022) (by norm_num) (h.le.trans (zpow_le_zpow_right₀ (by norm_num) (by norm_num)))
      have h1 : (2 : ℚ) ^ (-1022 - 53 : ℤ) ≤ 2 ^ (-250 : ℤ) := zpow_le_zpow_right₀ (by norm_num) (by norm_num)
      have h2 : (2 : ℚ) ^ (-250 : ℤ) = 1 / 2 ^ 250 := by rw [zpow_neg, one_div]; norm_cast
      have h3 : 0 ≤ |q| / 2 ^ 53 := by positivity
      exact ((this.trans h1).trans h2.le).trans (le_add_of_nonneg_left h3)
  have := (Rat.cast_le (K := ℝ)).2 h
  push_cast at this
  exact this

/-- A double is a multiple of its last digit. -/
theorem repD_multiple {q : ℚ} (h : RepD q) : ∃ n : ℤ, q = n * ulpD q := by
  have e := rneD_exact h
  unfold rneD at e
  split at e
  · rename_i h0
    exact ⟨0, by rw [h0]; simp⟩
  · exact ⟨_, e.symm⟩

/-- The root of the rounded square is not below the number. -/
theorem sqrt_top {x s z : ℚ} (hx : RepD x) (h1 : 1 ≤ s) (hs : rneD (x ^ 2) ≤ s) (hz : RepD z)
    (near : ∀ t, RepD t → |(z : ℝ) - √(s : ℝ)| ≤ |(t : ℝ) - √(s : ℝ)|) : x ≤ z := by
  by_contra hlt
  rw [not_le] at hlt
  have hltr : (z : ℝ) < x := by exact_mod_cast hlt
  have nx := near x hx
  have s1 : (1 : ℝ) ≤ s := by exact_mod_cast h1
  have r1 : 1 ≤ √(s : ℝ) := Real.one_le_sqrt.2 s1
  rcases le_or_gt (x : ℝ) √(s : ℝ) with hle | hgt
  · rw [abs_of_nonpos (by linarith), abs_of_nonpos (by linarith)] at nx
    linarith
  have xpos : (1 : ℝ) < x := lt_of_le_of_lt r1 hgt
  have xq : 1 < x := by exact_mod_cast xpos
  have habs : |x| = x := abs_of_pos (by linarith)
  obtain ⟨b1, b2⟩ := binade_spec (q := |x|) (by rw [habs]; linarith)
  rw [habs] at b1 b2
  have hb : 0 ≤ binade x := by
    by_contra hn
    have : (2 : ℚ) ^ (binade x + 1) ≤ 2 ^ (0 : ℤ) := zpow_le_zpow_right₀ (by norm_num) (by omega)
    rw [zpow_zero] at this
    linarith
  have hw : ulpD x = (2 : ℚ) ^ (binade x - 52) := by
    rw [ulpD_eq, habs, max_eq_left (by omega)]
  have wpos : (0 : ℚ) < 2 ^ (binade x - 52) := by positivity
  have hpow : (2 : ℚ) ^ binade x = 2 ^ 52 * 2 ^ (binade x - 52) := by
    rw [← zpow_natCast, ← zpow_add₀ (by norm_num)]
    congr 1
    push_cast
    ring
  -- the number is not a power of two
  have hne : (2 : ℚ) ^ binade x < x := by
    refine lt_of_le_of_ne b1 fun he => ?_
    have hrep : RepD (x ^ 2) := by
      refine ⟨1, 2 * binade x, by norm_num, by omega, ?_⟩
      have : (2 : ℚ) ^ (2 * binade x) = (2 ^ binade x) ^ 2 := by
        rw [← zpow_natCast, ← zpow_mul]
        congr 1
        push_cast
        ring
      rw [Int.cast_one, one_mul, this, he]
    rw [rneD_exact hrep] at hs
    have : (x : ℝ) ^ 2 ≤ s := by exact_mod_cast hs
    exact absurd (Real.le_sqrt_of_sq_le this) (not_le.2 hgt)
  obtain ⟨m, hm⟩ := repD_multiple hx
  rw [hw] at hm
  set w := (2 : ℚ) ^ (binade x - 52) with hwd
  have m1 : 2 ^ 52 + 1 ≤ m := by
    have : (2 : ℚ) ^ 52 * w < m * w := by rw [← hpow, ← hm]; exact hne
    have := lt_of_mul_lt_mul_right this wpos.le
    have : (2 : ℤ) ^ 52 < m := by exact_mod_cast this
    omega
  have xlow : (2 : ℚ) ^ 52 * w + w ≤ x := by
    have : ((2 ^ 52 + 1 : ℤ) : ℚ) ≤ m := by exact_mod_cast m1
    push_cast at this
    rw [hm]
    nlinarith
  -- the next double below
  have zle : z ≤ x - w := by
    rcases lt_or_ge z ((2 : ℚ) ^ binade x) with h | h
    · rw [hpow] at h
      linarith
    · have zpos : 0 < z := lt_of_lt_of_le (by positivity) h
      have zb : binade |z| = binade x := by
        obtain ⟨c1, c2⟩ := binade_spec (q := |z|) (by rw [abs_of_pos zpos]; exact zpos)
        rw [abs_of_pos zpos] at c1 c2 ⊢
        have d1 : binade z < binade x + 1 := by
          by_contra hn
          have : (2 : ℚ) ^ (binade x + 1) ≤ 2 ^ binade z := zpow_le_zpow_right₀ (by norm_num) (by omega)
          linarith
        have d2 : binade x < binade z + 1 := by
          by_contra hn
          have : (2 : ℚ) ^ (binade z + 1) ≤ 2 ^ binade x := zpow_le_zpow_right₀ (by norm_num) (by omega)
          linarith
        omega
      obtain ⟨n, hn⟩ := repD_multiple hz
      rw [ulpD_eq, zb, max_eq_left (by omega), ← hwd] at hn
      have : (n : ℚ) * w < m * w := by rw [← hn, ← hm]; exact hlt
      have := lt_of_mul_lt_mul_right this wpos.le
      have nm : n ≤ m - 1 := by have : n < m := by exact_mod_cast this
                                omega
      have : (n : ℚ) ≤ m - 1 := by exact_mod_cast nm
      rw [hn, hm]
      nlinarith
  -- the error of the square
  have err := rneD_abs (q := x ^ 2) (e := 2 * binade x + 1) (by omega) (by
    rw [abs_of_nonneg (sq_nonneg x), show (2 : ℤ) * binade x + 1 + 1 = (binade x + 1) * 2 by ring, zpow_mul]
    have : (2 : ℚ) ^ (binade x + 1) = 2 ^ (binade x + 1) := rfl
    norm_cast
    have h0 : 0 ≤ x := by linarith
    exact pow_le_pow_left₀ h0 b2.le 2)
  have e2 : (2 : ℚ) ^ (2 * binade x + 1 - 53) = 2 ^ 52 * w * w := by
    rw [← hpow, hwd, ← zpow_add₀ (by norm_num)]
    congr 1
    ring
  rw [e2] at err
  have low : (x - w / 2) ^ 2 < s := by
    have := (abs_le.1 err).1
    nlinarith [mul_pos wpos wpos]
  have lowr : ((x - w / 2 : ℚ) : ℝ) < √(s : ℝ) := by
    have h0 : 0 ≤ x - w / 2 := by nlinarith
    refine Real.lt_sqrt_of_sq_lt ?_
    exact_mod_cast low
  push_cast at lowr
  have zr : (z : ℝ) ≤ x - w := by exact_mod_cast zle
  have wr : (0 : ℝ) < w := by exact_mod_cast wpos
  rw [abs_of_nonpos (by linarith), abs_of_nonneg (by linarith)] at nx
  linarith

/-- Rounding to the nearest double. -/
theorem nearest_real {r : ℝ} {z : ℚ} (near : ∀ t, RepD t → |(z : ℝ) - r| ≤ |(t : ℝ) - r|) :
    |(z : ℝ) - r| ≤ |r| / 2 ^ 53 + 1 / 2 ^ 200 := by
  obtain ⟨q, q1, q2⟩ := exists_rat_btwn (show r < r + 1 / 2 ^ 210 by linarith [show (0 : ℝ) < 1 / 2 ^ 210 by positivity])
  have h := near _ (rneD_rep q)
  have e := round_real q
  have h3 := abs_sub_abs_le_abs_sub (q : ℝ) r
  have h4 : |(q : ℝ) - r| ≤ 1 / 2 ^ 210 := by
    rw [abs_of_pos (by linarith)]
    linarith
  have h5 := abs_add_le ((rneD q : ℝ) - q) (q - r)
  rw [sub_add_sub_cancel] at h5
  have h6 : |(q : ℝ)| ≤ |r| + 1 / 2 ^ 210 := by linarith
  calc |(z : ℝ) - r| ≤ |(q : ℝ)| / 2 ^ 53 + 1 / 2 ^ 250 + 1 / 2 ^ 210 := by linarith
    _ ≤ (|r| + 1 / 2 ^ 210) / 2 ^ 53 + 1 / 2 ^ 250 + 1 / 2 ^ 210 := by gcongr
    _ ≤ _ := by
      rw [add_div]
      norm_num
      linarith

/-- Numbers that are no problem. -/
theorem ofQ_medium {q : ℚ} (h : |q| ≤ 2 ^ 900) : Dbl.ofQ q = .fin (rneD q) := by
  refine ofQ_fin (h.trans ?_)
  rw [← zpow_natCast]
  exact zpow_le_zpow_right₀ (by norm_num) (by norm_num)

theorem round_medium {q : ℚ} {n : ℕ} (h : |q| ≤ 2 ^ n) : |rneD q| ≤ 2 ^ n :=
  rneD_abs_le ⟨1, n, by norm_num, by omega, by simp⟩ h

theorem pow_up {q : ℚ} {n k : ℕ} (h : |q| ≤ 2 ^ n) (hk : n ≤ k) : |q| ≤ 2 ^ k :=
  h.trans (pow_le_pow_right₀ (by norm_num) hk)

/-- The slope between two neighbours. -/
theorem slope_near {a b h : ℚ} {k : ℕ} (hk : k = 1 ∨ k = 2) (ha : |a| ≤ 2 ^ 100) (hb : |b| ≤ 2 ^ 100) (hh : |h| ≤ 2 ^ 100) :
    ∃ d : ℚ, (Arith.ieee Lm).div ((Arith.ieee Lm).mul ((Arith.ieee Lm).sub (.fin a) (.fin b)) (.fin h))
        ((Arith.ieee Lm).lit k) = .fin d ∧ RepD d ∧ |d| ≤ 2 ^ 201 ∧
      |(d : ℝ) - (a - b) * h / k| ≤ |((a : ℝ) - b) * h / k| / 2 ^ 50 + 1 / 2 ^ 140 := by
  have k0 : (k : ℚ) ≠ 0 := by rcases hk with rfl | rfl <;> norm_num
  have ek : (Arith.ieee Lm).lit k = .fin k := ofQ_nat (by rcases hk with rfl | rfl <;> norm_num)
  have b1 : |a + -b| ≤ 2 ^ 101 := by
    refine (abs_add_le _ _).trans ?_
    rw [abs_neg, pow_succ]
    linarith
  have r1 := round_medium b1
  have b2 : |rneD (a + -b) * h| ≤ 2 ^ 201 := by
    rw [abs_mul, show (2 : ℚ) ^ 201 = 2 ^ 101 * 2 ^ 100 by rw [← pow_add]]
    gcongr
  have r2 := round_medium b2
  have b3 : |rneD (rneD (a + -b) * h) / k| ≤ 2 ^ 201 := by
    rw [abs_div]
    refine (div_le_self (abs_nonneg _) ?_).trans r2
    rcases hk with rfl | rfl <;> norm_num
  have r3 := round_medium b3
  refine ⟨_, ?_, rneD_rep (rneD (rneD (a + -b) * h) / k), r3, ?_⟩
  · rw [ek]
    show F32.divWith Dbl.ofQ (F32.mulWith Dbl.ofQ (Dbl.ofQ (a + -b)) (.fin h)) (.fin k) = _
    rw [ofQ_medium (pow_up b1 (by norm_num))]
    show F32.divWith Dbl.ofQ (Dbl.ofQ (rneD (a + -b) * h)) (.fin k) = _
    rw [ofQ_medium (pow_up b2 (by norm_num))]
    simp only [F32.divWith]
    rw [if_neg k0, ofQ_medium (pow_up b3 (by norm_num))]
  · have e1 := round_real (a + -b)
    have e2 := round_real (rneD (a + -b) * h)
    have e3 := round_real (rneD (rneD (a + -b) * h) / k)
    push_cast at e1 e2 e3
    generalize (rneD (rneD (rneD (a + -b) * h) / k) : ℝ) = d3 at *
    generalize (rneD (rneD (a + -b) * h) : ℝ) = d2 at *
    generalize (rneD (a + -b) : ℝ) = d1 at *
    rw [← sub_eq_add_neg] at e1
    have hhr : |(h : ℝ)| ≤ 2 ^ 100 := by exact_mod_cast hh
    have kp : (1 : ℝ) ≤ k := by rcases hk with rfl | rfl <;> norm_num
    have f1 : |d1 * h - (a - b) * h| ≤ |((a : ℝ) - b) * h| / 2 ^ 53 + 1 / 2 ^ 150 := by
      rw [← sub_mul, abs_mul, abs_mul]
      calc |d1 - (a - b)| * |(h : ℝ)| ≤ (|(a : ℝ) - b| / 2 ^ 53 + 1 / 2 ^ 250) * |(h : ℝ)| := by gcongr
        _ = |(a : ℝ) - b| * |(h : ℝ)| / 2 ^ 53 + 1 / 2 ^ 250 * |(h : ℝ)| := by ring
        _ ≤ |(a : ℝ) - b| * |(h : ℝ)| / 2 ^ 53 + 1 / 2 ^ 250 * 2 ^ 100 := by gcongr
        _ = _ := by norm_num
    have f2 : |d2 - (a - b) * h| ≤ |((a : ℝ) - b) * h| / 2 ^ 51 + 1 / 2 ^ 149 := by
      have t1 := abs_add_le (d2 - d1 * h) (d1 * h - (a - b) * h)
      rw [sub_add_sub_cancel] at t1
      have t2 := abs_sub_abs_le_abs_sub (d1 * h) (((a : ℝ) - b) * h)
      have t3 : 0 ≤ |((a : ℝ) - b) * h| := abs_nonneg _
      norm_num at e2 f1 t1 t2 t3 ⊢
      linarith
    have f3 : |d2 / k - (a - b) * h / k| ≤ |((a : ℝ) - b) * h / k| / 2 ^ 51 + 1 / 2 ^ 149 := by
      rw [← sub_div, abs_div, abs_div, abs_of_pos (show (0 : ℝ) < k by linarith)]
      rw [div_le_iff₀ (by linarith)]
      refine f2.trans ?_
      have : |((a : ℝ) - b) * h| / k / 2 ^ 51 * k = |((a : ℝ) - b) * h| / 2 ^ 51 := by field_simp
      rw [add_mul, this]
      have : (1 : ℝ) / 2 ^ 149 * 1 ≤ 1 / 2 ^ 149 * k := by gcongr
      linarith
    have t1 := abs_add_le (d3 - d2 / k) (d2 / k - (a - b) * h / k)
    rw [sub_add_sub_cancel] at t1
    have t2 := abs_sub_abs_le_abs_sub (d2 / k) (((a : ℝ) - b) * h / k)
    have t3 : 0 ≤ |((a : ℝ) - b) * h / k| := abs_nonneg _
    generalize |((a : ℝ) - b) * h / k| = A at *
    norm_num at e3 f3 t1 t2 t3 ⊢
    linarith

theorem repD_abs {q : ℚ} (h : RepD q) : RepD |q| := by
  rcases abs_choice q with e | e <;> rw [e]
  · exact h
  · exact repD_neg h

/-- The length of the vector. -/
theorem length_near (Q : RoundedSqrt Lm) {d e : ℚ} (hd : RepD d) (he : RepD e) (bd : |d| ≤ 2 ^ 201) (be : |e| ≤ 2 ^ 201) :
    ∃ z : ℚ, (Arith.ieee Lm).sqrt ((Arith.ieee Lm).add ((Arith.ieee Lm).add ((Arith.ieee Lm).mul (.fin d) (.fin d))
        ((Arith.ieee Lm).mul (.fin e) (.fin e))) ((Arith.ieee Lm).lit 1)) = .fin z ∧ RepD z ∧ 1 ≤ z ∧ |d| ≤ z ∧ |e| ≤ z ∧
      |(z : ℝ) - √((d : ℝ) ^ 2 + e ^ 2 + 1)| ≤ √((d : ℝ) ^ 2 + e ^ 2 + 1) / 2 ^ 48 := by
  have one : (Arith.ieee Lm).lit 1 = .fin 1 := ofQ_one
  have sq {d : ℚ} (bd : |d| ≤ 2 ^ 201) : |d * d| ≤ 2 ^ 402 := by
    rw [abs_mul, show (2 : ℚ) ^ 402 = 2 ^ 201 * 2 ^ 201 by rw [← pow_add]]
    gcongr
  have p0 : 0 ≤ rneD (d * d) := rneD_ge_of linBound_zero.rep (mul_self_nonneg d)
  have r0 : 0 ≤ rneD (e * e) := rneD_ge_of linBound_zero.rep (mul_self_nonneg e)
  have p1 := round_medium (sq bd)
  have r1 := round_medium (sq be)
  have b1 : |rneD (d * d) + rneD (e * e)| ≤ 2 ^ 403 := by
    refine (abs_add_le _ _).trans ?_
    rw [pow_succ]
    linarith
  have b1' := round_medium b1
  have s0 : 0 ≤ rneD (rneD (d * d) + rneD (e * e)) := rneD_ge_of linBound_zero.rep (by linarith)
  have b2 : |rneD (rneD (d * d) + rneD (e * e)) + 1| ≤ 2 ^ 404 := by
    refine (abs_add_le _ _).trans ?_
    have : (1 : ℚ) ≤ 2 ^ 403 := one_le_pow₀ (by norm_num)
    rw [abs_one, pow_succ, mul_two]
    exact add_le_add b1' this
  have t1 : 1 ≤ rneD (rneD (rneD (d * d) + rneD (e * e)) + 1) := rneD_ge_of repD_one (by linarith)
  have mono {v : ℚ} (hv : RepD v) (h : v ≤ rneD (d * d) + rneD (e * e)) :
      v ≤ rneD (rneD (rneD (d * d) + rneD (e * e)) + 1) :=
    (rneD_ge_of hv h).trans (rneD_ge_of (rneD_rep _) (by linarith))
  obtain ⟨z, ez, hz, near⟩ := Q (rneD (rneD (rneD (d * d) + rneD (e * e)) + 1)) (by linarith)
  have k1 := mono (rneD_rep (d * d)) (by linarith)
  have k2 := mono (rneD_rep (e * e)) (by linarith)
  refine ⟨z, ?_, hz, ?_, ?_, ?_, ?_⟩
  · rw [one, ← ez]
    show Lm.sqrt (F32.addWith Dbl.ofQ (F32.addWith Dbl.ofQ (Dbl.ofQ (d * d)) (Dbl.ofQ (e * e))) (.fin 1)) = _
    rw [ofQ_medium (pow_up (sq bd) (by norm_num)), ofQ_medium (pow_up (sq be) (by norm_num))]
    show Lm.sqrt (F32.addWith Dbl.ofQ (Dbl.ofQ (rneD (d * d) + rneD (e * e))) (.fin 1)) = _
    rw [ofQ_medium (pow_up b1 (by norm_num))]
    show Lm.sqrt (Dbl.ofQ (rneD (rneD (d * d) + rneD (e * e)) + 1)) = _
    rw [ofQ_medium (pow_up b2 (by norm_num))]
  · refine sqrt_top repD_one t1 ?_ hz near
    rw [one_pow, rneD_exact repD_one]
    exact t1
  · refine sqrt_top (repD_abs hd) t1 ?_ hz near
    rw [sq_abs, pow_two]
    exact k1
  · refine sqrt_top (repD_abs he) t1 ?_ hz near
    rw [sq_abs, pow_two]
    exact k2
  · have n := nearest_real near
    have e1 := round_real (d * d)
    have e2 := round_real (e * e)
    have e3 := round_real (rneD (d * d) + rneD (e * e))
    have e4 := round_real (rneD (rneD (d * d) + rneD (e * e)) + 1)
    have t1r : (1 : ℝ) ≤ (rneD (rneD (rneD (d * d) + rneD (e * e)) + 1) : ℝ) := by exact_mod_cast t1
    have p0r : (0 : ℝ) ≤ (rneD (d * d) : ℝ) := by exact_mod_cast p0
    have r0r : (0 : ℝ) ≤ (rneD (e * e) : ℝ) := by exact_mod_cast r0
    have s0r : (0 : ℝ) ≤ (rneD (rneD (d * d) + rneD (e * e)) : ℝ) := by exact_mod_cast s0
    push_cast at e1 e2 e3 e4
    generalize (rneD (rneD (rneD (d * d) + rneD (e * e)) + 1) : ℝ) = s at *
    generalize (rneD (rneD (d * d) + rneD (e * e)) : ℝ) = s1 at *
    generalize (rneD (d * d) : ℝ) = p at *
    generalize (rneD (e * e) : ℝ) = r at *
    rw [← pow_two] at e1 e2
    have dp : (0 : ℝ) ≤ (d : ℝ) ^ 2 := sq_nonneg _
    have ep : (0 : ℝ) ≤ (e : ℝ) ^ 2 := sq_nonneg _
    rw [abs_of_nonneg dp] at e1
    rw [abs_of_nonneg ep] at e2
    rw [abs_of_nonneg (add_nonneg p0r r0r)] at e3
    rw [abs_of_nonneg (by linarith : 0 ≤ s1 + 1)] at e4
    generalize (d : ℝ) ^ 2 = D at *
    generalize (e : ℝ) ^ 2 = E at *
    have diff : |s - (D + E + 1)| ≤ (D + E + 1) / 2 ^ 50 := by
      rw [abs_le] at *
      norm_num at *
      constructor <;> linarith
    have S1 : 1 ≤ √(D + E + 1) := Real.one_le_sqrt.2 (by linarith)
    have ss : 1 ≤ √s := Real.one_le_sqrt.2 t1r
    have root : |√s - √(D + E + 1)| ≤ √(D + E + 1) / 2 ^ 50 := by
      have h1 : (√s - √(D + E + 1)) * (√s + √(D + E + 1)) = s - (D + E + 1) := by
        have a1 := Real.mul_self_sqrt (show 0 ≤ s by linarith)
        have a2 := Real.mul_self_sqrt (show 0 ≤ D + E + 1 by linarith)
        nlinarith
      have h2 : |√s - √(D + E + 1)| * (√s + √(D + E + 1)) ≤ √(D + E + 1) / 2 ^ 50 * (√s + √(D + E + 1)) := by
        rw [← abs_of_pos (show 0 < √s + √(D + E + 1) by linarith), ← abs_mul, h1, abs_of_pos (show 0 < √s + √(D + E + 1) by linarith)]
        refine diff.trans ?_
        have a2 := Real.mul_self_sqrt (show 0 ≤ D + E + 1 by linarith)
        rw [← a2, mul_add]
        have : 0 ≤ √(D + E + 1) / 2 ^ 50 * √s := by positivity
        have e : √(D + E + 1) * √(D + E + 1) / 2 ^ 50 = √(D + E + 1) / 2 ^ 50 * √(D + E + 1) := by ring
        rw [a2] at e ⊢
        linarith
      exact le_of_mul_le_mul_right h2 (by linarith)
    rw [abs_of_nonneg (by linarith : 0 ≤ √s)] at n
    generalize √s = S at *
    generalize √(D + E + 1) = T at *
    rw [abs_le] at *
    norm_num at *
    constructor <;> linarith

/-- A coordinate divided by the length. -/
theorem quotient_near {d z : ℚ} {T : ℝ} (h1 : 1 ≤ z) (hd : |d| ≤ z) (hT : 1 ≤ T) (near : |(z : ℝ) - T| ≤ T / 2 ^ 48) :
    ∃ n : ℚ, (Arith.ieee Lm).div (.fin d) (.fin z) = .fin n ∧ |n| ≤ 1 ∧ |(n : ℝ) - d / T| ≤ 1 / 2 ^ 47 := by
  have zpos : 0 < z := by linarith
  have b : |d / z| ≤ 1 := by
    rw [abs_div, abs_of_pos zpos]
    exact (div_le_one zpos).2 hd
  refine ⟨rneD (d / z), ?_, rneD_abs_le repD_one b, ?_⟩
  · simp only [Arith.ieee, F32.divWith]
    rw [if_neg zpos.ne', ofQ_small (b.trans (by norm_num))]
  · have e := round_real (d / z)
    have br : |((d / z : ℚ) : ℝ)| ≤ 1 := by exact_mod_cast b
    have zr : (1 : ℝ) ≤ z := by exact_mod_cast h1
    have dr : |(d : ℝ)| ≤ z := by exact_mod_cast hd
    have f : |(d : ℝ) / z - d / T| ≤ 1 / 2 ^ 48 := by
      rw [div_sub_div _ _ (by linarith) (by linarith)]
      rw [show (d : ℝ) * T - z * d = d * (T - z) by ring, abs_div, abs_mul, abs_mul, abs_of_pos (show (0 : ℝ) < z by linarith),
        abs_of_pos (show (0 : ℝ) < T by linarith), abs_sub_comm T]
      rw [div_le_iff₀ (by positivity)]
      calc |(d : ℝ)| * |(z : ℝ) - T| ≤ z * (T / 2 ^ 48) := by gcongr
        _ = _ := by ring
    push_cast at e br
    have t := abs_add_le ((rneD (d / z) : ℝ) - d / z) (d / z - d / T)
    rw [sub_add_sub_cancel] at t
    norm_num at *
    linarith

/-- Moving a vector moves its direction. -/
theorem unit_move {x y x' y' e : ℝ} (hx : |x' - x| ≤ e * √(x ^ 2 + y ^ 2 + 1)) (hy : |y' - y| ≤ e * √(x ^ 2 + y ^ 2 + 1)) :
    |x' / √(x' ^ 2 + y' ^ 2 + 1) - x / √(x ^ 2 + y ^ 2 + 1)| ≤ 3 * e ∧
    |y' / √(x' ^ 2 + y' ^ 2 + 1) - y / √(x ^ 2 + y ^ 2 + 1)| ≤ 3 * e ∧
    |1 / √(x' ^ 2 + y' ^ 2 + 1) - 1 / √(x ^ 2 + y ^ 2 + 1)| ≤ 3 * e := by
  have s1 : √(x ^ 2 + y ^ 2 + 1) * √(x ^ 2 + y ^ 2 + 1) = x ^ 2 + y ^ 2 + 1 := Real.mul_self_sqrt (by positivity)
  have s2 : √(x' ^ 2 + y' ^ 2 + 1) * √(x' ^ 2 + y' ^ 2 + 1) = x' ^ 2 + y' ^ 2 + 1 := Real.mul_self_sqrt (by positivity)
  have p1 : 1 ≤ √(x ^ 2 + y ^ 2 + 1) := Real.one_le_sqrt.2 (by nlinarith [sq_nonneg x, sq_nonneg y])
  have p2 : 1 ≤ √(x' ^ 2 + y' ^ 2 + 1) := Real.one_le_sqrt.2 (by nlinarith [sq_nonneg x', sq_nonneg y'])
  generalize √(x ^ 2 + y ^ 2 + 1) = T at *
  generalize √(x' ^ 2 + y' ^ 2 + 1) = T' at *
  have le {a b t : ℝ} (t0 : 0 ≤ t) (h : t * t = a ^ 2 + b ^ 2 + 1) : |a| ≤ t :=
    abs_le_of_sq_le_sq (by nlinarith [sq_nonneg b]) t0
  have x1 := le (by linarith) s1
  have y1 := le (a := y) (b := x) (t := T) (by linarith) (by linarith)
  have x2 := le (by linarith) s2
  have y2 := le (a := y') (b := x') (t := T') (by linarith) (by linarith)
  have e0 : 0 ≤ e := by
    have := (abs_nonneg _).trans hx
    nlinarith
  have dT : |T' - T| ≤ 2 * e * T := by
    have h1 : (T' - T) * (T' + T) = (x' - x) * (x' + x) + (y' - y) * (y' + y) := by linarith
    have h2 : |T' - T| * (T' + T) ≤ 2 * e * T * (T' + T) := by
      rw [← abs_of_pos (show 0 < T' + T by linarith), ← abs_mul, h1, abs_of_pos (show 0 < T' + T by linarith)]
      refine (abs_add_le _ _).trans ?_
      rw [abs_mul, abs_mul]
      have a1 : |x' + x| ≤ T' + T := (abs_add_le _ _).trans (add_le_add x2 x1)
      have a2 : |y' + y| ≤ T' + T := (abs_add_le _ _).trans (add_le_add y2 y1)
      calc |x' - x| * |x' + x| + |y' - y| * |y' + y| ≤ e * T * (T' + T) + e * T * (T' + T) := by gcongr
        _ = _ := by ring
    exact le_of_mul_le_mul_right h2 (by linarith)
  have key {a a' : ℝ} (ha' : |a'| ≤ T') (h : |a' - a| ≤ e * T) : |a' / T' - a / T| ≤ 3 * e := by
    rw [show a' / T' - a / T = (a' - a) / T + a' / T' * ((T - T') / T) by field_simp; ring]
    refine (abs_add_le _ _).trans ?_
    rw [abs_mul, abs_div, abs_div, abs_div, abs_of_pos (show 0 < T by linarith), abs_of_pos (show 0 < T' by linarith),
      abs_sub_comm T]
    have b1 : |a' - a| / T ≤ e := (div_le_iff₀ (by linarith)).2 h
    have b2 : |a'| / T' ≤ 1 := (div_le_one (by linarith)).2 ha'
    have b3 : |T' - T| / T ≤ 2 * e := (div_le_iff₀ (by linarith)).2 dT
    have b4 : 0 ≤ |T' - T| / T := by positivity
    have b5 : 0 ≤ |a'| / T' := by positivity
    nlinarith
  refine ⟨key x2 hx, key y2 hy, key (by rw [abs_one]; exact p2) ?_⟩
  rw [sub_self, abs_zero]
  nlinarith

end Cuttlefish
