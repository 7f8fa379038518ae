import Verif.Proofs.WindowIeee
/-
The number of source pixels in a window, with the rounding of doubles.
-/
namespace Cuttlefish
open Spec
variable {Lm : Libm}

/-- The offset of a window is at most the number of source pixels for each output pixel. -/
theorem ieee_offset {n k : ℕ} (hn : n < 2 ^ 31) (hk0 : 0 < k) (hk : k < 2 ^ 32) {o : ℚ}
    (e : (axis (Arith.ieee Lm) n k).2.1 = .fin o) : o ≤ (n / k + 1 : ℕ) := by
  have kpos : (0 : ℚ) < k := by exact_mod_cast hk0
  have k1 : (1 : ℚ) ≤ k := by exact_mod_cast hk0
  have n2 : (n : ℚ) ≤ 2 ^ 31 := by exact_mod_cast (by omega : n ≤ 2 ^ 31)
  have r0 : (0 : ℚ) ≤ n / k := by positivity
  have r1 : (n / k : ℚ) ≤ 2 ^ 31 := (div_le_self (by positivity) k1).trans n2
  have e' : (axis (Arith.ieee Lm) n k).2.1 = .fin (max (rneD (n / k)) 1) := by
    show (Arith.ieee Lm).max ((Arith.ieee Lm).div ((Arith.ieee Lm).lit n) ((Arith.ieee Lm).lit k)) ((Arith.ieee Lm).lit 1) = _
    rw [ieee_nat (by omega), ieee_nat (by omega), ieee_div kpos.ne' (by rw [abs_of_nonneg r0]; linarith), ieee_one,
      ieee_max]
  rw [e] at e'
  cases e'
  have hdiv : n / k ≤ n := Nat.div_le_self _ _
  refine max_le (rneD_le_of ?_ ?_) ?_
  · exact_mod_cast repD_small (n := ((n / k + 1 : ℕ) : ℤ)) (by rw [abs_of_nonneg (by positivity)]; norm_cast; omega)
  · rw [div_le_iff₀ kpos]
    have := Nat.lt_div_mul_add (a := n) hk0
    have h2 : n ≤ (n / k + 1) * k := by rw [Nat.add_mul]; omega
    exact_mod_cast h2
  · push_cast
    have : (0 : ℚ) ≤ ((n / k : ℕ) : ℚ) := by positivity
    linarith

/-- The number of source pixels in a window. -/
theorem ieee_window_size {n m : ℕ} {c o : ℚ} (hn : n < 2 ^ 31) (c0 : 0 < c) (c1 : c < n) (o0 : 1 / 2 ≤ o) (o1 : o ≤ n)
    (om : o ≤ m) {lo hi : ℕ} (e : window (Arith.ieee Lm) (.fin c) (.fin o) n = .ok (lo, hi)) : hi - lo ≤ 2 * m + 1 := by
  have n2 : (n : ℚ) ≤ 2 ^ 31 := by exact_mod_cast (by omega : n ≤ 2 ^ 31)
  have near {q : ℚ} (h : |q| ≤ 2 ^ 33) : |rneD q - q| ≤ 2⁻¹ ^ 20 := by
    have := rneD_abs (q := q) (e := 32) (by norm_num) (by norm_num at h ⊢; exact h)
    refine this.trans ?_
    norm_num
  have a1 := near (q := c - o) (by rw [abs_le]; constructor <;> linarith)
  rw [abs_le] at a1
  have t20 : (2 : ℚ)⁻¹ ^ 20 ≤ 1 := by norm_num
  have a2 := near (q := rneD (c - o) + 1 / 2) (by rw [abs_le]; constructor <;> linarith)
  have a3 := near (q := c + o) (by rw [abs_le]; constructor <;> linarith)
  rw [abs_le] at a2 a3
  have a4 := near (q := rneD (c + o) + 1 / 2) (by rw [abs_le]; constructor <;> linarith)
  rw [abs_le] at a4
  unfold window at e
  rw [ieee_half, ieee_sub (by rw [abs_le]; constructor <;> linarith), ieee_add (by rw [abs_le]; constructor <;> linarith),
    ieee_add (by rw [abs_le]; constructor <;> linarith), ieee_add (by rw [abs_le]; constructor <;> linarith)] at e
  set l := rneD (rneD (c - o) + 1 / 2) with hl
  set h := rneD (rneD (c + o) + 1 / 2) with hh
  obtain ⟨x, ex, e⟩ := Res.bind_eq_ok.1 e
  obtain ⟨y, ey, e⟩ := Res.bind_eq_ok.1 e
  have ex : F32.cast (-2 ^ 31) (2 ^ 31 - 1) (.fin l) = .ok x := ex
  have ey : F32.cast 0 (2 ^ 32 - 1) (.fin h) = .ok y := ey
  have cast {l h : ℤ} {q : ℚ} {x : ℤ} (e : F32.cast l h (.fin q) = .ok x) : x = if 0 ≤ q then ⌊q⌋ else -⌊-q⌋ := by
    simp only [F32.cast] at e
    generalize (if 0 ≤ q then ⌊q⌋ else -⌊-q⌋) = v at e
    by_cases g : l ≤ v ∧ v ≤ h
    · rw [if_pos g, Res.ok.injEq] at e; exact e.symm
    · rw [if_neg g] at e; cases e
  have ex := cast ex
  have ey := cast ey
  have h0 : 0 ≤ h := by linarith
  rw [if_pos h0] at ey
  simp only [Res.ok.injEq, Prod.mk.injEq] at e
  obtain ⟨rfl, rfl⟩ := e
  have fy := Int.floor_le h
  rw [← ey] at fy
  have hmin : Nat.min y.toNat n ≤ y.toNat := Nat.min_le_left _ _
  have small : (2 : ℚ)⁻¹ ^ 20 = 1 / 1048576 := by norm_num
  have key : y - max x 0 < 2 * m + 2 := by
    have : ((y - max x 0 : ℤ) : ℚ) < ((2 * m + 2 : ℤ) : ℚ) := by
      push_cast
      by_cases hx : 0 ≤ l
      · rw [if_pos hx] at ex
        have fx := Int.lt_floor_add_one l
        rw [← ex] at fx
        have := le_max_left (x : ℚ) 0
        linarith
      · have := le_max_right (x : ℚ) 0
        rw [not_le] at hx
        linarith
    exact_mod_cast this
  omega

end Cuttlefish
