import Mathlib.Data.Nat.Bitwise
import Verif.Proofs.Num
import Verif.Spec.HalfFloat
/-
Half floats: the bits computed by `halfMagnitude` denote the nearest half float.
-/
namespace Cuttlefish
open Spec

/-- The number of the lower 15 bits. -/
def magVal (n : Nat) : ℚ :=
  if n < 1024 then (n : ℚ) / 2 ^ 24 else (1024 + (n % 1024 : ℕ)) * 2 ^ (n / 1024) / 2 ^ 25

theorem halfVal_fin {n : Nat} {v : ℚ} (h : halfVal n = .fin v) :
    v = (if n / 2 ^ 15 % 2 = 1 then -1 else 1) * magVal (n % 2 ^ 15) ∧ n % 2 ^ 15 < 0x7C00 := by
  unfold halfVal at h
  simp only at h
  have e1 : n % 2 ^ 15 / 1024 = n / 2 ^ 10 % 32 := by omega
  have e2 : n % 2 ^ 15 % 1024 = n % 2 ^ 10 := by omega
  split at h
  · split at h <;> cases h
  · rename_i h31
    split at h
    · rename_i h0
      simp only [F32.fin.injEq] at h
      have hlt : n % 2 ^ 15 < 1024 := by omega
      refine ⟨?_, by omega⟩
      rw [← h, magVal, if_pos hlt, show n % 2 ^ 15 = n % 2 ^ 10 by omega]
    · rename_i h0
      simp only [F32.fin.injEq] at h
      have hlt : ¬ n % 2 ^ 15 < 1024 := by omega
      refine ⟨?_, by omega⟩
      rw [← h, magVal, if_neg hlt, e1, e2]
      norm_num

theorem halfVal_of {s m : Nat} (hs : s < 2) (hm : m < 0x7C00) :
    halfVal (s * 2 ^ 15 + m) = .fin ((if s = 1 then -1 else 1) * magVal m) := by
  have e0 : (s * 2 ^ 15 + m) / 2 ^ 15 % 2 = s := by omega
  have e1 : (s * 2 ^ 15 + m) / 2 ^ 10 % 32 = m / 1024 := by omega
  have e2 : (s * 2 ^ 15 + m) % 2 ^ 10 = m % 1024 := by omega
  unfold halfVal
  simp only [e0, e1, e2]
  rw [if_neg (by omega), magVal]
  by_cases h : m < 1024
  · rw [if_pos (by omega), if_pos h, Nat.mod_eq_of_lt h]
  · rw [if_neg (by omega), if_neg h]
    norm_num

/-- Counting in the spacing of a binade gives the bits. -/
theorem magVal_count {k r : Nat} (hr : r ≤ 2048) (h : k = 0 ∨ 1024 ≤ r) :
    magVal (k * 1024 + r) = r * (2 : ℚ) ^ ((k : ℤ) - 24) := by
  have hp : (2 : ℚ) ^ ((k : ℤ) - 24) = 2 ^ k / 2 ^ 24 := by
    rw [zpow_sub₀ (by norm_num)]; norm_cast
  rw [hp]
  by_cases h1 : r < 1024
  · obtain rfl : k = 0 := by omega
    simp only [zero_mul, zero_add, magVal, if_pos h1, pow_zero]
    ring
  · by_cases h2 : r < 2048
    · have a : (k * 1024 + r) / 1024 = k + 1 := by omega
      have b : (k * 1024 + r) % 1024 = r - 1024 := by omega
      rw [magVal, if_neg (by omega), a, b, Nat.cast_sub (by omega), pow_succ]
      push_cast; ring
    · obtain rfl : r = 2048 := by omega
      have a : (k * 1024 + 2048) / 1024 = k + 2 := by omega
      have b : (k * 1024 + 2048) % 1024 = 0 := by omega
      rw [magVal, if_neg (by omega), a, b, pow_add]
      push_cast; ring

/-- Every half float is a count of at most 11 bits in a spacing of at least 2^-24. -/
theorem magVal_rep (n : Nat) : ∃ (k r : ℕ), r ≤ 2047 ∧ magVal n = r * (2 : ℚ) ^ ((k : ℤ) - 24) := by
  by_cases h : n < 1024
  · refine ⟨0, n, by omega, ?_⟩
    have := magVal_count (k := 0) (r := n) (by omega) (Or.inl rfl)
    simpa using this
  · refine ⟨n / 1024 - 1, 1024 + n % 1024, by omega, ?_⟩
    rw [← magVal_count (by omega) (by omega)]
    congr 1; omega

/-- The exponent and the count of `halfMagnitude`. -/
theorem half_parts {q : ℚ} (hq : 0 < q) : ∃ (k : Nat) (r : ℕ),
    halfMagnitude q = min 0x7C00 (k * 1024 + r) ∧ (k : ℤ) = max (binade q) (-14) + 14 ∧
    (r : ℤ) = roundEven (q / (2 : ℚ) ^ ((k : ℤ) - 24)) ∧ r ≤ 2048 ∧ (k = 0 ∨ 1024 ≤ r) ∧
    q < (2 : ℚ) ^ ((k : ℤ) - 13) ∧ (k ≠ 0 → (2 : ℚ) ^ ((k : ℤ) - 14) ≤ q) := by
  obtain ⟨b1, b2⟩ := binade_spec hq
  have hk : (((max (binade q) (-14) + 14).toNat : ℕ) : ℤ) = max (binade q) (-14) + 14 :=
    Int.toNat_of_nonneg (by omega)
  generalize hkk : (max (binade q) (-14) + 14).toNat = k at hk
  have he : max (binade q) (-14) - 10 = (k : ℤ) - 24 := by omega
  have hu : (0 : ℚ) < (2 : ℚ) ^ ((k : ℤ) - 24) := by positivity
  have hup : q < (2 : ℚ) ^ ((k : ℤ) - 13) :=
    b2.trans_le (zpow_le_zpow_right₀ (by norm_num) (by omega))
  have hlow : k ≠ 0 → (2 : ℚ) ^ ((k : ℤ) - 14) ≤ q := by
    intro h0
    have : (k : ℤ) - 14 = binade q := by omega
    rw [this]; exact b1
  have hx0 : 0 < q / (2 : ℚ) ^ ((k : ℤ) - 24) := by positivity
  have hx1 : q / (2 : ℚ) ^ ((k : ℤ) - 24) < 2048 := by
    rw [div_lt_iff₀ hu]
    have : (2048 : ℚ) * (2 : ℚ) ^ ((k : ℤ) - 24) = (2 : ℚ) ^ ((k : ℤ) - 13) := by
      rw [show (2048 : ℚ) = (2 : ℚ) ^ (11 : ℤ) by norm_num, ← zpow_add₀ (by norm_num)]
      congr 1; ring
    rw [this]; exact hup
  have hx2 : k ≠ 0 → 1024 ≤ q / (2 : ℚ) ^ ((k : ℤ) - 24) := by
    intro h0
    rw [le_div_iff₀ hu]
    have : (1024 : ℚ) * (2 : ℚ) ^ ((k : ℤ) - 24) = (2 : ℚ) ^ ((k : ℤ) - 14) := by
      rw [show (1024 : ℚ) = (2 : ℚ) ^ (10 : ℤ) by norm_num, ← zpow_add₀ (by norm_num)]
      congr 1; ring
    rw [this]; exact hlow h0
  have herr := abs_le.1 (roundEven_err (q / (2 : ℚ) ^ ((k : ℤ) - 24)))
  generalize hz : roundEven (q / (2 : ℚ) ^ ((k : ℤ) - 24)) = z at herr
  have z0 : 0 ≤ z := by
    have : (-1 : ℚ) < z := by linarith [herr.1]
    have : (-1 : ℤ) < z := by exact_mod_cast this
    omega
  have z1 : z ≤ 2048 := by
    have : (z : ℚ) < 2049 := by linarith [herr.2]
    have : z < 2049 := by exact_mod_cast this
    omega
  have z2 : k ≠ 0 → 1024 ≤ z := by
    intro h0
    have : (1023 : ℚ) < z := by linarith [herr.1, hx2 h0]
    have : (1023 : ℤ) < z := by exact_mod_cast this
    omega
  refine ⟨k, z.toNat, ?_, hk, ?_, by omega, ?_, hup, hlow⟩
  · unfold halfMagnitude
    rw [if_neg (ne_of_gt hq)]
    simp only [pow2_eq, he, hkk, hz]
  · rw [Int.toNat_of_nonneg z0, hz]
  · by_cases h0 : k = 0
    · exact Or.inl h0
    · have := z2 h0
      right; omega

/-- Which numbers become infinite. -/
theorem half_over {q : ℚ} (hq : 0 < q) : halfMagnitude q = 0x7C00 ↔ 65520 ≤ q := by
  obtain ⟨k, r, h1, hk, hr, r1, r2, u, l⟩ := half_parts hq
  rw [h1]
  have hmin : min 0x7C00 (k * 1024 + r) = 0x7C00 ↔ 0x7C00 ≤ k * 1024 + r := by omega
  rw [hmin]
  have e16 : (2 : ℚ) ^ (16 : ℤ) = 65536 := by norm_num
  rcases lt_trichotomy k 29 with h | h | h
  · constructor
    · intro hh; exfalso; omega
    · intro hh
      exfalso
      have : (2 : ℚ) ^ ((k : ℤ) - 13) ≤ (2 : ℚ) ^ (15 : ℤ) :=
        zpow_le_zpow_right₀ (by norm_num) (by omega)
      have e15 : (2 : ℚ) ^ (15 : ℤ) = 32768 := by norm_num
      linarith
  · subst h
    have e5 : (2 : ℚ) ^ (((29 : ℕ) : ℤ) - 24) = 32 := by norm_num
    rw [e5] at hr
    have herr := abs_le.1 (roundEven_err (q / 32))
    rw [← hr] at herr
    push_cast at herr
    constructor
    · intro hh
      have : (2048 : ℚ) ≤ r := by exact_mod_cast (by omega : 2048 ≤ r)
      have := herr.2
      linarith
    · intro hh
      by_contra hc
      have hr' : r ≤ 2047 := by omega
      have hrq : (r : ℚ) ≤ 2047 := by exact_mod_cast hr'
      have hx : q / 32 = 2047 + 1 / 2 := by
        have := herr.1
        linarith
      have : roundEven (2047 + 1 / 2 : ℚ) = 2048 := by
        have hf : ⌊(2047 + 1 / 2 : ℚ)⌋ = 2047 := by
          rw [Int.floor_eq_iff]; norm_num
        unfold roundEven
        rw [hf]
        norm_num
      rw [hx, this] at hr
      omega
  · constructor
    · intro _
      have := l (by omega)
      have h2 : (2 : ℚ) ^ (16 : ℤ) ≤ (2 : ℚ) ^ ((k : ℤ) - 14) :=
        zpow_le_zpow_right₀ (by norm_num) (by omega)
      linarith
    · intro _
      omega

theorem half_le (q : ℚ) : halfMagnitude q ≤ 0x7C00 := by
  unfold halfMagnitude
  split
  · omega
  · exact Nat.min_le_left _ _

/-- The spacing at `q` counts every half float that is not below the binade of `q`. -/
theorem half_other {k k' r' : ℕ} (hr : r' ≤ 2047) :
    (∃ z : ℕ, (r' : ℚ) * (2 : ℚ) ^ ((k' : ℤ) - 24) = z * (2 : ℚ) ^ ((k : ℤ) - 24)) ∨
    (k ≠ 0 ∧ (r' : ℚ) * (2 : ℚ) ^ ((k' : ℤ) - 24) < (2 : ℚ) ^ ((k : ℤ) - 14)) := by
  by_cases h : k ≤ k'
  · left
    refine ⟨r' * 2 ^ (k' - k), ?_⟩
    push_cast
    rw [mul_assoc]
    congr 1
    rw [← zpow_natCast, ← zpow_add₀ (by norm_num)]
    congr 1; omega
  · right
    refine ⟨by omega, ?_⟩
    have hr' : (r' : ℚ) < 2 ^ (11 : ℤ) := by
      have : (r' : ℚ) ≤ 2047 := by exact_mod_cast hr
      norm_num; linarith
    calc (r' : ℚ) * (2 : ℚ) ^ ((k' : ℤ) - 24) < 2 ^ (11 : ℤ) * (2 : ℚ) ^ ((k' : ℤ) - 24) := by gcongr
      _ = (2 : ℚ) ^ (11 + ((k' : ℤ) - 24)) := by rw [← zpow_add₀ (by norm_num)]
      _ ≤ (2 : ℚ) ^ ((k : ℤ) - 14) := zpow_le_zpow_right₀ (by norm_num) (by omega)

/-- Ties of `roundEven` go to the even integer. -/
theorem roundEven_tie {x : ℚ} {z : ℤ} (hz : z ≠ roundEven x)
    (h : |(z : ℚ) - x| = |(roundEven x : ℚ) - x|) : roundEven x % 2 = 0 := by
  have he := roundEven_err x
  have h1 : (1 : ℚ) ≤ |(z : ℚ) - roundEven x| := by
    have : 1 ≤ |z - roundEven x| := Int.one_le_abs (sub_ne_zero.2 hz)
    exact_mod_cast this
  have h2 : |(z : ℚ) - roundEven x| ≤ |(z : ℚ) - x| + |(roundEven x : ℚ) - x| := by
    have : (z : ℚ) - roundEven x = (z - x) - (roundEven x - x) := by ring
    rw [this]; exact abs_sub _ _
  have h3 : |(roundEven x : ℚ) - x| = 1 / 2 := by linarith
  have f1 := Int.floor_le x
  have f2 := Int.lt_floor_add_one x
  unfold roundEven at h3 ⊢
  simp only at h3 ⊢
  split
  · rename_i c
    rw [if_pos c, abs_of_nonpos (by linarith)] at h3
    exfalso; linarith
  · rename_i c
    rw [if_neg c] at h3
    split
    · rename_i d
      rw [if_pos d] at h3
      push_cast at h3
      rw [abs_of_nonneg (by linarith)] at h3
      exfalso; linarith
    · split
      · assumption
      · omega

/-- Nearest among the half floats, ties to even. -/
theorem half_nearest {q : ℚ} (hq : 0 ≤ q) (hb : q < 65520) :
    halfMagnitude q < 0x7C00 ∧
    ∀ n, |magVal (halfMagnitude q) - q| ≤ |magVal n - q| ∧
      (magVal n ≠ magVal (halfMagnitude q) → |magVal n - q| = |magVal (halfMagnitude q) - q| →
        halfMagnitude q % 2 = 0) := by
  rcases hq.eq_or_lt with rfl | hq
  · have : halfMagnitude 0 = 0 := rfl
    rw [this]
    refine ⟨by norm_num, fun n => ⟨?_, fun _ _ => rfl⟩⟩
    simp [magVal]
  have hlt : halfMagnitude q < 0x7C00 := by
    have h1 := half_le q
    have h2 : halfMagnitude q ≠ 0x7C00 := fun e => absurd ((half_over hq).1 e) (by linarith)
    omega
  refine ⟨hlt, ?_⟩
  obtain ⟨k, r, h1, hk, hr, r1, r2, u, l⟩ := half_parts hq
  have hm : halfMagnitude q = k * 1024 + r := by omega
  have hv : magVal (halfMagnitude q) = r * (2 : ℚ) ^ ((k : ℤ) - 24) := by rw [hm, magVal_count r1 r2]
  have hu : (0 : ℚ) < (2 : ℚ) ^ ((k : ℤ) - 24) := by positivity
  have e : ∀ z : ℚ, z * (2 : ℚ) ^ ((k : ℤ) - 24) - q =
      (z - q / (2 : ℚ) ^ ((k : ℤ) - 24)) * (2 : ℚ) ^ ((k : ℤ) - 24) := by
    intro z; field_simp
  have hrq : (r : ℚ) = (roundEven (q / (2 : ℚ) ^ ((k : ℤ) - 24)) : ℚ) := by
    rw [← hr]; push_cast; rfl
  have near : ∀ z : ℤ, |magVal (halfMagnitude q) - q| ≤ |(z : ℚ) * (2 : ℚ) ^ ((k : ℤ) - 24) - q| := by
    intro z
    rw [hv, e, e, abs_mul, abs_mul, hrq]
    gcongr ?_ * _
    exact nearest_of_half (roundEven_err _) z
  have e14 : ((1024 : ℤ) : ℚ) * (2 : ℚ) ^ ((k : ℤ) - 24) = (2 : ℚ) ^ ((k : ℤ) - 14) := by
    rw [show ((1024 : ℤ) : ℚ) = (2 : ℚ) ^ (10 : ℤ) by norm_num, ← zpow_add₀ (by norm_num)]
    congr 1; ring
  intro n
  obtain ⟨k', r', hr', hn⟩ := magVal_rep n
  rw [hn]
  rcases half_other (k := k) (k' := k') hr' with ⟨z, hz⟩ | ⟨h0, hlt'⟩
  · rw [hz]
    refine ⟨by simpa using near z, ?_⟩
    intro hne heq
    rw [hv] at hne heq
    have hzr : (z : ℤ) ≠ roundEven (q / (2 : ℚ) ^ ((k : ℤ) - 24)) := by
      intro h
      apply hne
      rw [hrq, ← h]
      push_cast; rfl
    rw [e, e, abs_mul, abs_mul, hrq] at heq
    have heq' := mul_right_cancel₀ (ne_of_gt (abs_pos.2 (ne_of_gt hu))) heq
    have := roundEven_tie hzr (by simpa using heq')
    rw [← hr] at this
    omega
  · have hq' := l h0
    have h3 := near 1024
    rw [e14, abs_of_nonpos (a := (2 : ℚ) ^ ((k : ℤ) - 14) - q) (by linarith)] at h3
    have h4 : |magVal (halfMagnitude q) - q| < |(r' : ℚ) * (2 : ℚ) ^ ((k' : ℤ) - 24) - q| := by
      rw [abs_of_nonpos (a := (r' : ℚ) * (2 : ℚ) ^ ((k' : ℤ) - 24) - q) (by linarith)]
      linarith
    exact ⟨h4.le, fun _ heq => absurd heq (ne_of_gt h4)⟩

/-- The sign bit is the sign. -/
theorem ofBits_sign {w : Nat} {q : ℚ} (h : F32.ofBits w = .fin q) :
    (w / 2 ^ 31 % 2 = 1 → q ≤ 0) ∧ (w / 2 ^ 31 % 2 ≠ 1 → 0 ≤ q) := by
  unfold F32.ofBits at h
  simp only at h
  have hm : ∀ a : ℚ, 0 ≤ a → (w / 2 ^ 31 % 2 = 1 → (if w / 2 ^ 31 % 2 = 1 then (-1 : ℚ) else 1) * a ≤ 0) ∧
      (w / 2 ^ 31 % 2 ≠ 1 → 0 ≤ (if w / 2 ^ 31 % 2 = 1 then (-1 : ℚ) else 1) * a) := by
    intro a ha
    constructor
    · intro hs; rw [if_pos hs]; linarith
    · intro hs; rw [if_neg hs]; linarith
  split at h
  · split at h <;> cases h
  · split at h
    · simp only [F32.fin.injEq] at h
      rw [← h, mul_div_assoc]; exact hm _ (by positivity)
    · split at h
      · simp only [F32.fin.injEq] at h
        rw [← h, mul_div_assoc]; exact hm _ (by positivity)
      · simp only [F32.fin.injEq] at h
        rw [← h, mul_assoc]; exact hm _ (by positivity)

theorem ofBits_inf {w : Nat} {s : Bool} (h : F32.ofBits w = .inf s) :
    s = decide (w / 2 ^ 31 % 2 = 1) := by
  unfold F32.ofBits at h
  simp only at h
  split at h
  · split at h
    · simp only [F32.inf.injEq] at h; exact h.symm
    · cases h
  · split at h
    · cases h
    · split at h <;> cases h

theorem quiet_bits : ∀ m : Fin 1024, 0x7C00 < (0x7E00 ||| m.val) ∧ (0x7E00 ||| m.val) < 0x8000 := by
  decide +kernel

theorem halfVal_inf {s : Nat} (hs : s < 2) : halfVal (s * 2 ^ 15 + 0x7C00) = .inf (decide (s = 1)) := by
  obtain rfl | rfl : s = 0 ∨ s = 1 := by omega
  · decide +kernel
  · decide +kernel

theorem halfVal_nan {s m : Nat} (hs : s < 2) (h1 : 0x7C00 < m) (h2 : m < 0x8000) :
    halfVal (s * 2 ^ 15 + m) = .nan := by
  unfold halfVal
  simp only
  rw [if_pos (by omega), if_neg (by omega)]

/-- Distance of a signed half float from a signed number. -/
theorem signed_dist {s a b q : ℚ} (hs : s = 1 ∨ s = -1) (hq : q = s * |q|) :
    |s * a - q| = |a - (|q|)| ∧ (0 ≤ b → |b - (|q|)| ≤ |-s * b - q|) ∧ |s * b - q| = |b - (|q|)| := by
  have key : ∀ c : ℚ, |s * c - q| = |c - (|q|)| := by
    intro c
    have : s * c - q = s * (c - |q|) := by
      conv_lhs => rw [hq]
      ring
    rw [this, abs_mul]
    rcases hs with rfl | rfl <;> simp
  refine ⟨key a, ?_, key b⟩
  intro hb
  have : -s * b - q = s * (-b - |q|) := by
    conv_lhs => rw [hq]
    ring
  rw [this, abs_mul]
  have h1 : |s| = 1 := by rcases hs with rfl | rfl <;> simp
  rw [h1, one_mul]
  have hq0 := abs_nonneg q
  rw [abs_of_nonpos (a := -b - |q|) (by linarith)]
  rw [abs_le]; constructor <;> linarith

theorem magVal_nonneg (n : Nat) : 0 ≤ magVal n := by
  unfold magVal; split <;> positivity

/-- The instruction converts to the nearest half float. -/
theorem hardwareHalf_spec (w : Nat) : IsHalf w (hardwareHalf w) ∧ TiesEven w (hardwareHalf w) := by
  have hs : w / 2 ^ 31 % 2 < 2 := Nat.mod_lt _ (by norm_num)
  generalize hsg : w / 2 ^ 31 % 2 = sg at hs
  cases hv : F32.ofBits w with
  | nan =>
    obtain ⟨b1, b2⟩ := quiet_bits ⟨w % 2 ^ 23 / 2 ^ 13, by omega⟩
    simp only at b1 b2
    have he : hardwareHalf w = sg * 2 ^ 15 + (0x7E00 ||| (w % 2 ^ 23 / 2 ^ 13)) := by
      unfold hardwareHalf; rw [hv, hsg]
    refine ⟨?_, fun q v h' v' hq => by rw [hv] at hq; cases hq⟩
    unfold IsHalf
    rw [he, hv, hsg]
    exact ⟨by omega, by omega, halfVal_nan hs b1 b2⟩
  | inf s =>
    have he : hardwareHalf w = sg * 2 ^ 15 + 0x7C00 := by
      unfold hardwareHalf; rw [hv, hsg]
    refine ⟨?_, fun q v h' v' hq => by rw [hv] at hq; cases hq⟩
    unfold IsHalf
    rw [he, hv, hsg]
    refine ⟨by omega, by omega, ?_⟩
    simp only
    rw [halfVal_inf hs, ofBits_inf hv, hsg]
  | fin q =>
    have he : hardwareHalf w = sg * 2 ^ 15 + halfMagnitude |q| := by
      unfold hardwareHalf; rw [hv, hsg]
    have hle := half_le |q|
    obtain ⟨s1, s2⟩ := ofBits_sign hv
    rw [hsg] at s1 s2
    have hq : q = (if sg = 1 then (-1 : ℚ) else 1) * |q| := by
      split
      · rename_i h; rw [abs_of_nonpos (s1 h)]; ring
      · rename_i h; rw [abs_of_nonneg (s2 h)]; ring
    have hsq : (if sg = 1 then (-1 : ℚ) else 1) = 1 ∨ (if sg = 1 then (-1 : ℚ) else 1) = -1 := by
      split <;> simp
    generalize hss : (if sg = 1 then (-1 : ℚ) else 1) = s at hq hsq
    by_cases hb : 65520 ≤ |q|
    · have hpos : 0 < |q| := by linarith
      have ho := (half_over hpos).2 hb
      refine ⟨?_, ?_⟩
      · unfold IsHalf
        rw [he, hv, hsg, ho]
        refine ⟨by omega, by omega, ?_⟩
        simp only
        rw [if_pos hb, halfVal_inf hs]
        have hne : q ≠ 0 := abs_pos.1 hpos
        congr 1
        by_cases h1 : sg = 1
        · simp only [h1, decide_true]
          exact (decide_eq_true (lt_of_le_of_ne (s1 h1) hne)).symm
        · simp only [h1, decide_false]
          exact (decide_eq_false (not_lt.2 (s2 h1))).symm
      · intro q' v h' v' _ hh
        rw [he, ho, halfVal_inf hs] at hh
        cases hh
    · have hb' := not_le.1 hb
      obtain ⟨hlt, hall⟩ := half_nearest (abs_nonneg q) hb'
      have hval : halfVal (hardwareHalf w) = .fin (s * magVal (halfMagnitude |q|)) := by
        rw [he, halfVal_of hs hlt, hss]
      -- another half float: same sign or opposite sign
      have other : ∀ h' v', halfVal h' = .fin v' → ∃ n, (v' = s * magVal n ∨ v' = -s * magVal n) := by
        intro h' v' hh
        obtain ⟨hv', -⟩ := halfVal_fin hh
        refine ⟨h' % 2 ^ 15, ?_⟩
        rw [hv']
        rcases hsq with rfl | rfl <;> split <;> simp
      refine ⟨?_, ?_⟩
      · unfold IsHalf
        rw [hv, hsg]
        refine ⟨by rw [he]; omega, by rw [he]; omega, ?_⟩
        simp only
        rw [if_neg hb]
        refine ⟨_, hval, ?_⟩
        intro h' v' hh
        obtain ⟨n, hn⟩ := other h' v' hh
        obtain ⟨d1, d2, d3⟩ := signed_dist (a := magVal (halfMagnitude |q|)) (b := magVal n) hsq hq
        rw [d1]
        refine (hall n).1.trans ?_
        rcases hn with rfl | rfl
        · rw [d3]
        · exact d2 (magVal_nonneg n)
      · intro q' v h' v' hq' hh hh' hne heq
        rw [hv] at hq'
        simp only [F32.fin.injEq] at hq'
        subst hq'
        rw [hval] at hh
        simp only [F32.fin.injEq] at hh
        subst hh
        have hgoal : halfMagnitude |q| % 2 = 0 → hardwareHalf w % 2 = 0 := by
          intro h; rw [he]; omega
        apply hgoal
        obtain ⟨n, hn⟩ := other h' v' hh'
        obtain ⟨d1, d2, d3⟩ := signed_dist (a := magVal (halfMagnitude |q|)) (b := magVal n) hsq hq
        rw [d1] at heq
        rcases hn with rfl | rfl
        · rw [d3] at heq
          exact (hall n).2 (fun e => hne (by rw [e])) heq
        · -- the opposite sign: zero is at least as near
          have h1 := d2 (magVal_nonneg n)
          rw [heq] at h1
          have h2 : |magVal n - (|q|)| = |magVal (halfMagnitude |q|) - (|q|)| := le_antisymm h1 (hall n).1
          by_cases e : magVal n = magVal (halfMagnitude |q|)
          · have h3 : |-s * magVal n - q| = magVal n + |q| := by
              have : -s * magVal n - q = -s * (magVal n + |q|) := by
                conv_lhs => rw [hq]
                ring
              rw [this, abs_mul]
              have hp : 0 ≤ magVal n + |q| := add_nonneg (magVal_nonneg n) (abs_nonneg q)
              rw [abs_of_nonneg hp]
              rcases hsq with rfl | rfl <;> simp
            have h0 := (hall 0).1
            have hz : magVal 0 = 0 := by simp [magVal]
            rw [hz, zero_sub, abs_neg, abs_abs] at h0
            rw [h3] at heq
            have hn0 : magVal n ≤ 0 := by linarith
            have hn0' := le_antisymm hn0 (magVal_nonneg n)
            exfalso
            apply hne
            rw [← e, hn0']
            ring
          · exact (hall n).2 e h2

/-- The bit of `cpuid` that is tested. -/
theorem cpu_bit (ecx : Nat) : (Cpu.sse ecx).hasHardwareHalfFloat = true ↔ ecx / 2 ^ 29 % 2 = 1 := by
  show ((ecx &&& (1 <<< 29)) != 0) = true ↔ _
  have h : (ecx &&& (1 <<< 29)) = if ecx.testBit 29 then 2 ^ 29 else 0 := by
    rw [Nat.one_shiftLeft]
    rw [Nat.and_two_pow]
    cases ecx.testBit 29 <;> simp
  rw [h]
  have hb : ecx.testBit 29 = decide (ecx / 2 ^ 29 % 2 = 1) := by
    rw [Nat.testBit_eq_decide_div_mod_eq]
  rw [hb]
  by_cases h1 : ecx / 2 ^ 29 % 2 = 1
  · simp [h1]
  · simp [h1]

theorem half_spec {X : Ext} (h : NearestHalves X) {w : Nat} (hw : w < 2 ^ 32) : IsHalf w (X.half w) := by
  unfold Ext.half
  split
  · exact (hardwareHalf_spec w).1
  · rename_i hc
    rcases h with ⟨ecx, he, hb⟩ | he | hg
    · rw [he] at hc
      exact absurd ((cpu_bit ecx).2 hb) hc
    · rw [he] at hc
      exact absurd rfl hc
    · exact hg w hw

end Cuttlefish
