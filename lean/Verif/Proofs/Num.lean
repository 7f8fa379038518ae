import Mathlib.Tactic.Linarith
import Mathlib.Tactic.Ring
import Mathlib.Tactic.Positivity
import Mathlib.Tactic.FieldSimp
import Mathlib.Tactic.NormNum
import Mathlib.Tactic.GCongr
import Mathlib.Algebra.Order.Round
import Mathlib.Algebra.Order.Field.Power
import Verif.Model.Num
/-
Facts about single precision rounding.
-/
namespace Cuttlefish

theorem pow2_eq (e : Int) : pow2 e = (2 : ℚ) ^ e := by
  cases e with
  | ofNat n => simp [pow2]
  | negSucc n => simp [pow2, zpow_negSucc]

theorem pow2_pos (e : Int) : 0 < (2 : ℚ) ^ e := by positivity

theorem log2_bounds {n : Nat} (h : n ≠ 0) : 2 ^ Nat.log2 n ≤ n ∧ n < 2 ^ (Nat.log2 n + 1) :=
  ⟨Nat.log2_self_le h, Nat.lt_log2_self⟩

theorem binade_spec {q : ℚ} (hq : 0 < q) : (2 : ℚ) ^ binade q ≤ q ∧ q < (2 : ℚ) ^ (binade q + 1) := by
  have hnum : 0 < q.num := Rat.num_pos.2 hq
  have hn0 : q.num.natAbs ≠ 0 := by omega
  obtain ⟨a1, a2⟩ := log2_bounds hn0
  obtain ⟨b1, b2⟩ := log2_bounds q.den_nz
  have hqe : q = (q.num.natAbs : ℚ) / q.den := by
    have h1 : ((q.num.natAbs : ℕ) : ℚ) = (q.num : ℚ) := by
      rw [← Int.cast_natCast, Int.natAbs_of_nonneg hnum.le]
    rw [h1, Rat.num_div_den]
  have hden : (0 : ℚ) < q.den := by exact_mod_cast q.den_pos
  have A1 : (2 : ℚ) ^ (Nat.log2 q.num.natAbs) ≤ q.num.natAbs := by exact_mod_cast a1
  have A2 : (q.num.natAbs : ℚ) < (2 : ℚ) ^ (Nat.log2 q.num.natAbs + 1) := by exact_mod_cast a2
  have B1 : (2 : ℚ) ^ (Nat.log2 q.den) ≤ q.den := by exact_mod_cast b1
  have B2 : (q.den : ℚ) < (2 : ℚ) ^ (Nat.log2 q.den + 1) := by exact_mod_cast b2
  generalize hk1 : Nat.log2 q.num.natAbs = a at *
  generalize hk2 : Nat.log2 q.den = b at *
  have up : q < (2 : ℚ) ^ ((a : ℤ) - b + 1) := by
    have e : (2 : ℚ) ^ ((a : ℤ) - b + 1) = 2 ^ (a + 1) / 2 ^ b := by
      rw [eq_div_iff (by positivity)]
      rw [← zpow_natCast, ← zpow_natCast, ← zpow_add₀ (by norm_num)]
      congr 1; push_cast; ring
    rw [e, hqe]
    rw [div_lt_div_iff₀ hden (by positivity)]
    calc (q.num.natAbs : ℚ) * 2 ^ b < 2 ^ (a + 1) * 2 ^ b := by gcongr
      _ ≤ 2 ^ (a + 1) * q.den := by gcongr
  have lo : (2 : ℚ) ^ ((a : ℤ) - b - 1) ≤ q := by
    have e : (2 : ℚ) ^ ((a : ℤ) - b - 1) = 2 ^ a / 2 ^ (b + 1) := by
      rw [eq_div_iff (by positivity)]
      rw [← zpow_natCast, ← zpow_natCast, ← zpow_add₀ (by norm_num)]
      congr 1; push_cast; ring
    rw [e, hqe]
    rw [div_le_div_iff₀ (by positivity) hden]
    calc (2 : ℚ) ^ a * q.den ≤ 2 ^ a * 2 ^ (b + 1) := by gcongr
      _ ≤ q.num.natAbs * 2 ^ (b + 1) := by gcongr
  unfold binade
  simp only [hk1, hk2, pow2_eq]
  split
  · exact ⟨by assumption, up⟩
  · next h =>
    refine ⟨lo, ?_⟩
    rw [sub_add_cancel]; exact not_le.1 h

theorem roundEven_err (q : ℚ) : |(roundEven q : ℚ) - q| ≤ 1 / 2 := by
  have h1 := Int.floor_le q
  have h2 := Int.lt_floor_add_one q
  unfold roundEven
  simp only
  split
  · rw [abs_le]; constructor <;> linarith
  · split
    · push_cast; rw [abs_le]; constructor <;> linarith
    · have : q - ⌊q⌋ = 1 / 2 := le_antisymm (by linarith) (by linarith)
      split
      · rw [abs_le]; constructor <;> linarith
      · push_cast; rw [abs_le]; constructor <;> linarith

/-- A nearest integer is at least as near as any other. -/
theorem nearest_of_half {q : ℚ} {r : Int} (h : |(r : ℚ) - q| ≤ 1 / 2) (n : Int) :
    |(r : ℚ) - q| ≤ |(n : ℚ) - q| := by
  by_cases hn : n = r
  · rw [hn]
  · have hd : (1 : ℚ) ≤ |(n : ℚ) - r| := by
      have : 1 ≤ |n - r| := Int.one_le_abs (sub_ne_zero.2 hn)
      exact_mod_cast this
    have htri : |(n : ℚ) - r| ≤ |(n : ℚ) - q| + |(r : ℚ) - q| := by
      have : (n : ℚ) - r = (n - q) - (r - q) := by ring
      rw [this]; exact abs_sub _ _
    linarith

theorem roundEven_int (n : Int) : roundEven (n : ℚ) = n := by
  simp [roundEven]

/-- Numbers a float can hold, ignoring overflow: 24 bits of significand, exponent at least -149. -/
def Rep (q : ℚ) : Prop := ∃ m k : ℤ, |m| ≤ 2 ^ 24 ∧ -149 ≤ k ∧ q = m * (2 : ℚ) ^ k

theorem ulp_eq (q : ℚ) : ulp q = (2 : ℚ) ^ (max (binade |q|) (-126) - 23) := pow2_eq _

theorem ulp_pos (q : ℚ) : 0 < ulp q := by rw [ulp_eq]; positivity

theorem rne_zero : rne 0 = 0 := rfl

theorem rne_err (q : ℚ) : |rne q - q| ≤ ulp q / 2 := by
  unfold rne
  split
  · next h => subst h; simp only [sub_self, abs_zero]; have := ulp_pos 0; positivity
  · have hu := ulp_pos q
    have h := roundEven_err (q / ulp q)
    have e : (roundEven (q / ulp q) : ℚ) * ulp q - q = ((roundEven (q / ulp q) : ℚ) - q / ulp q) * ulp q := by
      field_simp
    rw [e, abs_mul, abs_of_pos hu]
    calc _ ≤ 1 / 2 * ulp q := by gcongr
      _ = ulp q / 2 := by ring

theorem rne_nearest (q s : ℚ) (hs : Rep s) : |rne q - q| ≤ |s - q| := by
  by_cases hq : q = 0
  · subst hq; simp [rne_zero]
  have hu := ulp_pos q
  -- nearest among the multiples of the spacing
  have hmul : ∀ n : Int, |rne q - q| ≤ |(n : ℚ) * ulp q - q| := by
    intro n
    have h := nearest_of_half (roundEven_err (q / ulp q)) n
    have e : ∀ n : Int, (n : ℚ) * ulp q - q = ((n : ℚ) - q / ulp q) * ulp q := by
      intro n; field_simp
    unfold rne
    rw [if_neg hq, e, e, abs_mul, abs_mul]
    gcongr
  have hpos : 0 < |q| := abs_pos.2 hq
  obtain ⟨hb1, hb2⟩ := binade_spec hpos
  obtain ⟨m, k, hm, hk, rfl⟩ := hs
  rw [ulp_eq] at hmul
  by_cases hke : max (binade |q|) (-126) - 23 ≤ k
  · -- a multiple of the spacing
    have := hmul (m * 2 ^ (k - (max (binade |q|) (-126) - 23)).toNat)
    convert this using 3
    push_cast
    rw [mul_assoc]
    congr 1
    rw [← zpow_natCast, ← zpow_add₀ (by norm_num)]
    congr 1; omega
  · -- below the binade of q
    have hke := not_le.1 hke
    have hemax : max (binade |q|) (-126) = binade |q| := by omega
    rw [hemax] at hmul hke
    have hsmall : |(m : ℚ) * 2 ^ k| ≤ (2 : ℚ) ^ binade |q| := by
      rw [abs_mul, abs_of_pos (pow2_pos k)]
      have hm' : |(m : ℚ)| ≤ 2 ^ (24 : ℤ) := by
        have : ((|m| : ℤ) : ℚ) ≤ ((2 ^ 24 : ℤ) : ℚ) := by exact_mod_cast hm
        push_cast at this; exact this
      calc |(m : ℚ)| * 2 ^ k ≤ 2 ^ (24 : ℤ) * 2 ^ k := by gcongr
        _ = 2 ^ (24 + k) := by rw [← zpow_add₀ (by norm_num)]
        _ ≤ 2 ^ binade |q| := by
          apply zpow_le_zpow_right₀ (by norm_num); omega
    have he : ((2 : ℚ) ^ (23 : ℕ)) * 2 ^ (binade |q| - 23) = 2 ^ binade |q| := by
      rw [← zpow_natCast, ← zpow_add₀ (by norm_num)]
      congr 1; push_cast; omega
    rcases lt_or_gt_of_ne hq with hneg | hqpos
    · have h := hmul (-(2 ^ 23))
      rw [Int.cast_neg, Int.cast_pow, Int.cast_ofNat, neg_mul, he] at h
      rw [abs_of_neg hneg] at *
      refine h.trans ?_
      rw [abs_le] at hsmall
      rw [abs_of_nonneg (by linarith), abs_of_nonneg (by linarith)]
      linarith [hsmall.1]
    · have h := hmul (2 ^ 23)
      rw [Int.cast_pow, Int.cast_ofNat, he] at h
      rw [abs_of_pos hqpos] at *
      refine h.trans ?_
      rw [abs_le] at hsmall
      rw [abs_of_nonpos (by linarith), abs_of_nonpos (by linarith)]
      linarith [hsmall.2]

theorem rne_exact {q : ℚ} (h : Rep q) : rne q = q := by
  have := rne_nearest q q h
  rw [sub_self, abs_zero] at this
  exact sub_eq_zero.1 (abs_eq_zero.1 (le_antisymm this (abs_nonneg _)))

theorem rne_rep (q : ℚ) : Rep (rne q) := by
  by_cases hq : q = 0
  · subst hq; exact ⟨0, 0, by norm_num, by norm_num, by simp [rne_zero]⟩
  have hpos : 0 < |q| := abs_pos.2 hq
  obtain ⟨hb1, hb2⟩ := binade_spec hpos
  refine ⟨roundEven (q / ulp q), max (binade |q|) (-126) - 23, ?_, by omega, ?_⟩
  · have herr := roundEven_err (q / ulp q)
    have hle : |q / ulp q| ≤ 2 ^ 24 := by
      rw [abs_div, abs_of_pos (ulp_pos q), div_le_iff₀ (ulp_pos q), ulp_eq]
      calc |q| ≤ 2 ^ (binade |q| + 1) := hb2.le
        _ ≤ 2 ^ ((24 : ℤ) + (max (binade |q|) (-126) - 23)) := by
          apply zpow_le_zpow_right₀ (by norm_num); omega
        _ = 2 ^ 24 * 2 ^ (max (binade |q|) (-126) - 23) := by
          rw [zpow_add₀ (by norm_num)]; norm_num
    by_contra hcon
    have hcon : 2 ^ 24 + 1 ≤ |roundEven (q / ulp q)| := by omega
    have hcon : (2 : ℚ) ^ 24 + 1 ≤ |(roundEven (q / ulp q) : ℚ)| := by exact_mod_cast hcon
    have : |(roundEven (q / ulp q) : ℚ)| ≤ |(roundEven (q / ulp q) : ℚ) - q / ulp q| + |q / ulp q| := by
      have := abs_add_le ((roundEven (q / ulp q) : ℚ) - q / ulp q) (q / ulp q)
      simpa using this
    linarith
  · unfold rne; rw [if_neg hq, ulp_eq]

theorem rne_mono {x y : ℚ} (h : x ≤ y) : rne x ≤ rne y := by
  rcases eq_or_lt_of_le h with rfl | hlt
  · exact le_rfl
  by_contra hcon
  have hcon := not_le.1 hcon
  have h1 := rne_nearest x (rne y) (rne_rep y)
  have h2 := rne_nearest y (rne x) (rne_rep x)
  rcases abs_cases (rne x - x) with ⟨a, a'⟩ | ⟨a, a'⟩ <;>
  rcases abs_cases (rne y - x) with ⟨b, b'⟩ | ⟨b, b'⟩ <;>
  rcases abs_cases (rne y - y) with ⟨c, c'⟩ | ⟨c, c'⟩ <;>
  rcases abs_cases (rne x - y) with ⟨d, d'⟩ | ⟨d, d'⟩ <;>
  rw [a, b] at h1 <;> rw [c, d] at h2 <;> linarith

/-- Relative error of rounding, for numbers that are not tiny. -/
theorem rne_rel {q : ℚ} (hq : (2 : ℚ) ^ (-126 : ℤ) ≤ |q|) : |rne q - q| ≤ |q| / 2 ^ 24 := by
  have hpos : 0 < |q| := lt_of_lt_of_le (by positivity) hq
  obtain ⟨hb1, hb2⟩ := binade_spec hpos
  have hge : -126 ≤ binade |q| := by
    by_contra hcon
    have : (2 : ℚ) ^ (binade |q| + 1) ≤ 2 ^ (-126 : ℤ) := by
      apply zpow_le_zpow_right₀ (by norm_num); omega
    linarith
  refine (rne_err q).trans ?_
  rw [ulp_eq, max_eq_left hge, zpow_sub₀ (by norm_num)]
  have : ((2 : ℚ) ^ (23 : ℤ)) = 2 ^ 23 := by norm_cast
  rw [this]
  rw [div_div, ← pow_succ]
  gcongr

/-- Absolute error of rounding for numbers below a power of two. -/
theorem rne_abs {q : ℚ} {e : ℤ} (he : -126 ≤ e) (hq : |q| ≤ (2 : ℚ) ^ (e + 1)) :
    |rne q - q| ≤ (2 : ℚ) ^ (e - 24) := by
  by_cases hq0 : q = 0
  · subst hq0; simp [rne_zero]; positivity
  rcases eq_or_lt_of_le hq with heq | hlt
  · -- a power of two is representable
    have hrep : Rep q := by
      rcases abs_choice q with h | h
      · exact ⟨1, e + 1, by norm_num, by omega, by rw [h] at heq; simp [heq]⟩
      · exact ⟨-1, e + 1, by norm_num, by omega, by rw [h] at heq; push_cast; linarith⟩
    rw [rne_exact hrep, sub_self, abs_zero]; positivity
  · have hpos : 0 < |q| := abs_pos.2 hq0
    obtain ⟨hb1, hb2⟩ := binade_spec hpos
    have hle : binade |q| ≤ e := by
      by_contra hcon
      have : (2 : ℚ) ^ (e + 1) ≤ 2 ^ (binade |q|) := by
        apply zpow_le_zpow_right₀ (by norm_num); omega
      linarith
    refine (rne_err q).trans ?_
    rw [ulp_eq]
    have : (2 : ℚ) ^ (max (binade |q|) (-126) - 23) ≤ 2 ^ (e - 23) := by
      apply zpow_le_zpow_right₀ (by norm_num); omega
    have e2 : (2 : ℚ) ^ (e - 23) = 2 * 2 ^ (e - 24) := by
      have : e - 23 = 1 + (e - 24) := by ring
      rw [this, zpow_add₀ (by norm_num)]; norm_num
    linarith

theorem rep_int {n : ℤ} (h : |n| ≤ 2 ^ 24) : Rep (n : ℚ) := ⟨n, 0, h, by norm_num, by simp⟩

/-- Every finite float is representable. -/
theorem ofBits_rep {n : Nat} {q : ℚ} (h : F32.ofBits n = .fin q) : Rep q := by
  unfold F32.ofBits at h
  simp only at h
  have hm : n % 2 ^ 23 < 2 ^ 23 := Nat.mod_lt _ (by norm_num)
  generalize hmm : n % 2 ^ 23 = m at h hm
  generalize hee : n / 2 ^ 23 % 256 = e at h
  have hs : ∀ s : ℚ, (s = if n / 2 ^ 31 % 2 = 1 then -1 else 1) → ∃ t : ℤ, |t| = 1 ∧ s = t := by
    rintro s rfl; split
    · exact ⟨-1, by norm_num, by norm_num⟩
    · exact ⟨1, by norm_num, by norm_num⟩
  obtain ⟨t, ht, hs⟩ := hs _ rfl
  rw [hs] at h
  split at h
  · split at h <;> cases h
  split at h
  · simp only [F32.fin.injEq] at h
    have he149 : (2 : ℚ) ^ (-149 : ℤ) = ((2 : ℚ) ^ (149 : ℕ))⁻¹ := by
      rw [← zpow_natCast, ← zpow_neg]; rfl
    refine ⟨t * m, -149, ?_, le_rfl, ?_⟩
    · rw [abs_mul, ht, one_mul, abs_of_nonneg (by positivity)]; omega
    · rw [← h, he149, div_eq_mul_inv, Int.cast_mul, Int.cast_natCast]
  have hb : |t * ((2 ^ 23 + m : ℕ) : ℤ)| ≤ 2 ^ 24 := by
    rw [abs_mul, ht, one_mul, abs_of_nonneg (by positivity)]; omega
  split at h
  · next h1 h2 h3 =>
    simp only [F32.fin.injEq] at h
    refine ⟨t * ((2 ^ 23 + m : ℕ) : ℤ), (e : ℤ) - 150, hb, by omega, ?_⟩
    have e1 : ((2 : ℚ) ^ (150 - e : ℕ))⁻¹ = (2 : ℚ) ^ ((e : ℤ) - 150) := by
      rw [← zpow_natCast, ← zpow_neg, show -((150 - e : ℕ) : ℤ) = (e : ℤ) - 150 by omega]
    rw [← h, div_eq_mul_inv, e1, Int.cast_mul, Int.cast_natCast]
  · next h1 h2 h3 =>
    simp only [F32.fin.injEq] at h
    refine ⟨t * ((2 ^ 23 + m : ℕ) : ℤ), (e : ℤ) - 150, hb, by omega, ?_⟩
    have e1 : (2 : ℚ) ^ (e - 150 : ℕ) = (2 : ℚ) ^ ((e : ℤ) - 150) := by
      rw [← zpow_natCast, show ((e - 150 : ℕ) : ℤ) = (e : ℤ) - 150 by omega]
    rw [← h, e1, Int.cast_mul, Int.cast_natCast]

/-- Rounding does not overflow below 2^127. -/
theorem round_fin {q : ℚ} (h : |q| ≤ (2 : ℚ) ^ (127 : ℤ)) : F32.round q = .fin (rne q) := by
  unfold F32.round
  rw [if_neg]
  rw [not_le]
  have h1 : |rne q| ≤ (2 : ℚ) ^ (127 : ℤ) := by
    have r1 : Rep ((2 : ℚ) ^ (127 : ℤ)) := ⟨1, 127, by norm_num, by norm_num, by simp⟩
    have r2 : Rep (-(2 : ℚ) ^ (127 : ℤ)) := ⟨-1, 127, by norm_num, by norm_num, by simp⟩
    obtain ⟨h1, h2⟩ := abs_le.1 h
    rw [abs_le]
    constructor
    · rw [← rne_exact r2]; exact rne_mono h1
    · rw [← rne_exact r1]; exact rne_mono h2
  refine lt_of_le_of_lt h1 ?_
  norm_num

theorem roundAway_err (q : ℚ) : |(roundAwayQ q : ℚ) - q| ≤ 1 / 2 := by
  unfold roundAwayQ
  split
  · have h1 := Int.floor_le (q + 1 / 2)
    have h2 := Int.lt_floor_add_one (q + 1 / 2)
    rw [abs_le]; constructor <;> linarith
  · have h1 := Int.floor_le (-q + 1 / 2)
    have h2 := Int.lt_floor_add_one (-q + 1 / 2)
    push_cast
    rw [abs_le]; constructor <;> linarith

theorem roundAway_int (n : ℤ) : roundAwayQ (n : ℚ) = n := by
  unfold roundAwayQ
  have h : ∀ n : ℤ, ⌊(n : ℚ) + 1 / 2⌋ = n := by
    intro n; rw [Int.floor_eq_iff]; constructor <;> linarith
  split
  · exact h n
  · have := h (-n)
    push_cast at this
    rw [this]; ring

theorem roundAway_mono {x y : ℚ} (h : x ≤ y) : roundAwayQ x ≤ roundAwayQ y := by
  unfold roundAwayQ
  by_cases hx : 0 ≤ x
  · rw [if_pos hx, if_pos (hx.trans h)]
    exact Int.floor_le_floor (by linarith)
  · rw [if_neg hx]
    by_cases hy : 0 ≤ y
    · rw [if_pos hy]
      have h1 : 0 ≤ ⌊-x + 1 / 2⌋ := Int.floor_nonneg.2 (by linarith [not_le.1 hx])
      have h2 : 0 ≤ ⌊y + 1 / 2⌋ := Int.floor_nonneg.2 (by linarith)
      omega
    · rw [if_neg hy]
      have := Int.floor_le_floor (show -y + 1 / 2 ≤ -x + 1 / 2 by linarith)
      omega

/-- Truncation of an integer is itself. -/
theorem cast_int {lo hi n : ℤ} (h1 : lo ≤ n) (h2 : n ≤ hi) : F32.cast lo hi (.fin n) = .ok n := by
  unfold F32.cast
  have : (if (0 : ℚ) ≤ (n : ℚ) then ⌊(n : ℚ)⌋ else -⌊-(n : ℚ)⌋) = n := by
    split
    · exact Int.floor_intCast n
    · rw [show -(n : ℚ) = ((-n : ℤ) : ℚ) by push_cast; rfl, Int.floor_intCast]; ring
  simp only [this]
  rw [if_pos ⟨h1, h2⟩]

end Cuttlefish
