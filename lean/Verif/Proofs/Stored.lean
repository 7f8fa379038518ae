import Verif.Proofs.FieldsPacked
/-
The stored fields meet their specification: nearest, monotone, exact on representable values.
-/
namespace Cuttlefish
open Spec

theorem signedVal_bits {n : Nat} {i : ℤ} (hn : 1 ≤ n) (h1 : -2 ^ (n - 1) ≤ i) (h2 : i < 2 ^ (n - 1)) :
    signedVal n (bits n i) = i ∧ bits n i < 2 ^ n := by
  obtain ⟨m, rfl⟩ : ∃ m, n = m + 1 := ⟨n - 1, by omega⟩
  simp only [Nat.add_sub_cancel] at h1 h2
  have hp : (2 : ℤ) ^ (m + 1) = 2 ^ m + 2 ^ m := by rw [pow_succ]; ring
  have hpos : (0 : ℤ) < 2 ^ m := by positivity
  have hcast : ((2 ^ m : ℕ) : ℤ) = 2 ^ m := by push_cast; rfl
  have hcast2 : ((2 ^ (m + 1) : ℕ) : ℤ) = 2 ^ (m + 1) := by push_cast; rfl
  unfold signedVal bits
  simp only [Nat.add_sub_cancel]
  by_cases h0 : 0 ≤ i
  · have e : i % 2 ^ (m + 1) = i := Int.emod_eq_of_lt h0 (by omega)
    rw [e]
    constructor
    · rw [if_pos (by omega)]; omega
    · omega
  · have e : i % 2 ^ (m + 1) = i + 2 ^ (m + 1) := by
      rw [← Int.add_emod_right, Int.emod_eq_of_lt (by omega) (by omega)]
    rw [e]
    constructor
    · rw [if_neg (by omega), Int.toNat_of_nonneg (by omega)]; ring
    · omega

theorem two_pow_cast (n : Nat) : ((2 ^ n - 1 : ℕ) : ℚ) = 2 ^ n - 1 := by
  rw [Nat.cast_sub (by have : 0 < 2 ^ n := by positivity
                       omega)]; push_cast; rfl

theorem clampQ_range {w : Nat} (h : F32.ofBits w ≠ .nan) {lo hi : ℚ} (hl : lo ≤ hi) :
    lo ≤ clampQ lo hi w ∧ clampQ lo hi w ≤ hi := clampVal_range hl (clampQ_some h lo hi)

theorem stored_unorm {n w : Nat} (hn : n ≤ 24) (h : F32.ofBits w ≠ .nan) :
    IsUNorm n w (quantQ .UNorm n w) := by
  refine ⟨clampQ 0 1 w, clampQ_some h 0 1, ?_, ?_⟩
  · have := unorm_lt h hn; omega
  obtain ⟨h1, h2⟩ := clampQ_range h (lo := 0) (hi := 1) (by norm_num)
  have hm : ((2 ^ n - 1 : ℕ) : ℤ) ≤ 2 ^ n := by
    have : ((2 ^ n - 1 : ℕ) : ℤ) ≤ ((2 ^ n : ℕ) : ℤ) := by exact_mod_cast Nat.sub_le _ _
    push_cast at this ⊢; exact this
  have key := quant_err (c := clampQ 0 1 w) (m := ((2 ^ n - 1 : ℕ) : ℤ)) hn (by positivity) hm
    (by linarith) h2
  have hle : 2 ^ n ≤ 2 ^ 24 := Nat.pow_le_pow_right (by norm_num) hn
  obtain ⟨-, h0, -⟩ := toUNorm_eq (top := 2 ^ n - 1) (m := 2 ^ n - 1) (clampQ_some h 0 1)
    (le_trans (Nat.sub_le _ _) hle) (le_refl _)
  have hcast : ((2 ^ n - 1 : ℕ) : ℤ) = (((2 ^ n - 1 : ℕ) : ℤ) : ℚ) := by norm_cast
  have hq : ((quantQ .UNorm n w : ℕ) : ℚ) = ((roundAwayQ (rne (clampQ 0 1 w * ((2 ^ n - 1 : ℕ) : ℚ))) : ℤ) : ℚ) := by
    simp only [quantQ]
    have : ((roundAwayQ (rne (clampQ 0 1 w * ((2 ^ n - 1 : ℕ) : ℚ)))).toNat : ℤ) =
      roundAwayQ (rne (clampQ 0 1 w * ((2 ^ n - 1 : ℕ) : ℚ))) := Int.toNat_of_nonneg h0
    exact_mod_cast this
  rw [hq, ← two_pow_cast n]
  exact_mod_cast key

theorem stored_snorm {n w : Nat} (hn : 1 ≤ n) (hn2 : n ≤ 16) (h : F32.ofBits w ≠ .nan) :
    IsSNorm n w (quantQ .SNorm n w) := by
  obtain ⟨h1, h2⟩ := clampQ_range h (lo := -1) (hi := 1) (by norm_num)
  have hpos : (1 : ℤ) ≤ 2 ^ (n - 1) := by
    have : (0:ℤ) < 2 ^ (n-1) := by positivity
    omega
  have hle : (2 : ℤ) ^ (n - 1) ≤ 2 ^ 15 := pow_le_pow_right₀ (by norm_num) (by omega)
  obtain ⟨-, r1, r2⟩ := toSNorm_eq (clampQ_some h (-1) 1) hn hn2
  have key := quant_err (c := clampQ (-1) 1 w) (m := 2 ^ (n - 1) - 1) (n := n - 1) (by omega)
    (by omega) (by omega) h1 h2
  set i := roundAwayQ (rne (clampQ (-1) 1 w * ((2 ^ (n - 1) - 1 : ℤ) : ℚ))) with hi
  obtain ⟨e1, e2⟩ := signedVal_bits (n := n) (i := i) hn (by omega) (by omega)
  have hqq : quantQ .SNorm n w = bits n i := rfl
  refine ⟨clampQ (-1) 1 w, clampQ_some h _ _, ?_, ?_, ?_⟩
  · rw [hqq]; exact e2
  · rw [hqq, e1]; omega
  · rw [hqq, e1]
    have hc : ((2 ^ (n - 1) - 1 : ℤ) : ℚ) = 2 ^ (n - 1) - 1 := by push_cast; rfl
    rw [← hc]
    exact key

theorem round_between {c : ℚ} {lo hi : ℤ} (h1 : (lo : ℚ) ≤ c) (h2 : c ≤ hi) :
    lo ≤ roundAwayQ c ∧ roundAwayQ c ≤ hi := by
  have a := roundAway_mono h1
  have b := roundAway_mono h2
  rw [roundAway_int] at a b
  exact ⟨a, b⟩

theorem stored_uint {n w : Nat} (h : F32.ofBits w ≠ .nan) : IsUInt n w (quantQ .UInt n w) := by
  have hp : (1 : ℚ) ≤ 2 ^ n := one_le_pow₀ (by norm_num)
  obtain ⟨h1, h2⟩ := clampQ_range h (lo := 0) (hi := 2 ^ n - 1) (by linarith)
  have hc : (((2 : ℤ) ^ n - 1 : ℤ) : ℚ) = 2 ^ n - 1 := by push_cast; rfl
  obtain ⟨a, b⟩ := round_between (lo := 0) (hi := 2 ^ n - 1) (c := clampQ 0 (2 ^ n - 1) w)
    (by exact_mod_cast h1) (by rw [hc]; exact h2)
  have hN : ((2 ^ n : ℕ) : ℤ) = 2 ^ n := by push_cast; rfl
  refine ⟨_, clampQ_some h _ _, ?_, ?_⟩
  · simp only [quantQ]; omega
  · have : ((quantQ .UInt n w : ℕ) : ℚ) = (roundAwayQ (clampQ 0 (2 ^ n - 1) w) : ℚ) := by
      simp only [quantQ]
      have : ((roundAwayQ (clampQ 0 (2 ^ n - 1) w)).toNat : ℤ) = roundAwayQ (clampQ 0 (2 ^ n - 1) w) :=
        Int.toNat_of_nonneg a
      exact_mod_cast this
    rw [this]
    exact roundAway_err _

theorem stored_int {n w : Nat} (hn : 1 ≤ n) (h : F32.ofBits w ≠ .nan) :
    IsInt n w (quantQ .Int n w) := by
  have hp : (1 : ℚ) ≤ 2 ^ (n - 1) := one_le_pow₀ (by norm_num)
  obtain ⟨h1, h2⟩ := clampQ_range h (lo := -2 ^ (n - 1)) (hi := 2 ^ (n - 1) - 1) (by linarith)
  have hc : (((2 : ℤ) ^ (n - 1) - 1 : ℤ) : ℚ) = 2 ^ (n - 1) - 1 := by push_cast; rfl
  have hc2 : ((-(2 : ℤ) ^ (n - 1) : ℤ) : ℚ) = -2 ^ (n - 1) := by push_cast; rfl
  obtain ⟨a, b⟩ := round_between (lo := -2 ^ (n - 1)) (hi := 2 ^ (n - 1) - 1)
    (c := clampQ (-2 ^ (n - 1)) (2 ^ (n - 1) - 1) w)
    (by rw [hc2]; exact h1) (by rw [hc]; exact h2)
  obtain ⟨e1, e2⟩ := signedVal_bits hn a (by omega)
  have hqq : quantQ .Int n w = bits n (roundAwayQ (clampQ (-2 ^ (n - 1)) (2 ^ (n - 1) - 1) w)) := rfl
  refine ⟨_, clampQ_some h _ _, ?_, ?_⟩
  · rw [hqq]; exact e2
  · rw [hqq, e1]; exact roundAway_err _

/-- Every channel width used by a type of the uncompressed formats is small enough. -/
theorem layout_widths {c : Features} {f : Format} {t : TType} {k : Conv}
    (hk : createConverter c f t = some k) {cs : List (Chan × Nat)} (hl : layout f = some cs) :
    (cs.all (fun e => 1 ≤ e.2 && (t != .UNorm || e.2 ≤ 16) && (t != .SNorm || e.2 ≤ 16) &&
      e.2 ≤ 32)) = true := by
  cases f <;> simp only [layout, Option.some.injEq, reduceCtorEq] at hl <;> subst hl <;>
    cases t <;> simp only [createConverter, ifUNorm, create8, create16, create32, reduceCtorEq,
      if_true, if_false, Option.some.injEq] at hk <;> decide

theorem stored_all {c : Features} {f : Format} {t : TType} {k : Conv}
    (hk : createConverter c f t = some k) {cs : List (Chan × Nat)} (hl : layout f = some cs)
    {e : Chan × Nat} (he : e ∈ cs) {w : Nat} (h : F32.ofBits w ≠ .nan) :
    IsStored t e.2 w (quantQ t e.2 w) := by
  have := List.all_eq_true.1 (layout_widths hk hl) e he
  simp only [Bool.and_eq_true, Bool.or_eq_true, decide_eq_true_eq, bne_iff_ne] at this
  obtain ⟨⟨⟨h1, h2⟩, h3⟩, h4⟩ := this
  cases t with
  | UNorm => exact stored_unorm (by rcases h2 with h | h <;> [exact absurd rfl h; omega]) h
  | SNorm => exact stored_snorm h1 (by rcases h3 with h | h <;> [exact absurd rfl h; exact h]) h
  | UInt => exact stored_uint h
  | Int => exact stored_int h1 h
  | UFloat => rfl
  | Float => rfl

theorem unorm_mono {n w w' : Nat} (h : clampQ 0 1 w ≤ clampQ 0 1 w') :
    quantQ .UNorm n w ≤ quantQ .UNorm n w' := by
  simp only [quantQ]
  apply Int.toNat_le_toNat
  apply roundAway_mono
  apply rne_mono
  exact mul_le_mul_of_nonneg_right h (by positivity)

theorem snorm_val {n w : Nat} (hn : 1 ≤ n) (hn2 : n ≤ 16) (h : F32.ofBits w ≠ .nan) :
    signedVal n (quantQ .SNorm n w) =
      roundAwayQ (rne (clampQ (-1) 1 w * ((2 ^ (n - 1) - 1 : ℤ) : ℚ))) := by
  have hpos : (1 : ℤ) ≤ 2 ^ (n - 1) := by
    have : (0:ℤ) < 2 ^ (n-1) := by positivity
    omega
  obtain ⟨-, r1, r2⟩ := toSNorm_eq (clampQ_some h (-1) 1) hn hn2
  exact (signedVal_bits (n := n) hn (by omega) (by omega)).1

theorem snorm_mono {n w w' : Nat} (hn : 1 ≤ n) (hn2 : n ≤ 16) (hw : F32.ofBits w ≠ .nan)
    (hw' : F32.ofBits w' ≠ .nan) (h : clampQ (-1) 1 w ≤ clampQ (-1) 1 w') :
    signedVal n (quantQ .SNorm n w) ≤ signedVal n (quantQ .SNorm n w') := by
  rw [snorm_val hn hn2 hw, snorm_val hn hn2 hw']
  apply roundAway_mono
  apply rne_mono
  apply mul_le_mul_of_nonneg_right h
  have : (1 : ℤ) ≤ 2 ^ (n - 1) := by
    have : (0:ℤ) < 2 ^ (n-1) := by positivity
    omega
  have : (0 : ℤ) ≤ 2 ^ (n - 1) - 1 := by omega
  exact_mod_cast this

/-- The nearest float to a fraction is stored as the numerator. -/
theorem exact_core {k m d : ℤ} {n : Nat} {c : ℚ} (hn : n ≤ 16) (hm0 : 0 < m) (hm : m ≤ 2 ^ n)
    (hk : |k| ≤ m) (hc : c = rne ((k : ℚ) / m))
    (hd : |(d : ℚ) - c * m| ≤ 1 / 2 + 2 ^ n / 2 ^ 25) : d = k := by
  have hm0' : (0 : ℚ) < m := by exact_mod_cast hm0
  have hm' : (m : ℚ) ≤ 2 ^ n := by exact_mod_cast hm
  have hk' : |(k : ℚ)| ≤ m := by exact_mod_cast hk
  have hb : |(k : ℚ) / m| ≤ (2 : ℚ) ^ ((-1 : ℤ) + 1) := by
    rw [abs_div, abs_of_pos hm0']
    norm_num
    exact div_le_one_of_le₀ hk' hm0'.le
  have h1 := rne_abs (q := (k : ℚ) / m) (e := -1) (by norm_num) hb
  rw [← hc] at h1
  have h2 : |c * m - k| ≤ 2 ^ n / 2 ^ 25 := by
    have e : c * m - k = (c - (k : ℚ) / m) * m := by field_simp
    rw [e, abs_mul, abs_of_pos hm0']
    have : (2 : ℚ) ^ ((-1 : ℤ) - 24) = 1 / 2 ^ 25 := by norm_num [zpow_neg]
    rw [this] at h1
    calc |c - (k : ℚ) / m| * m ≤ (1 / 2 ^ 25) * m := mul_le_mul_of_nonneg_right h1 hm0'.le
      _ ≤ (1 / 2 ^ 25) * 2 ^ n := mul_le_mul_of_nonneg_left hm' (by positivity)
      _ = _ := by ring
  have hn' : (2 : ℚ) ^ n ≤ 2 ^ 16 := pow_le_pow_right₀ (by norm_num) hn
  have h3 : |(d : ℚ) - k| < 1 := by
    calc |(d : ℚ) - k| = |((d : ℚ) - c * m) + (c * m - k)| := by ring_nf
      _ ≤ _ := abs_add_le _ _
      _ ≤ 1 / 2 + 2 ^ n / 2 ^ 25 + 2 ^ n / 2 ^ 25 := by linarith
      _ < 1 := by
        have : (2 : ℚ) ^ n / 2 ^ 25 ≤ 2 ^ 16 / 2 ^ 25 := div_le_div_of_nonneg_right hn' (by positivity)
        norm_num at this ⊢
        linarith
  have h4 : |d - k| < 1 := by
    have : ((|d - k| : ℤ) : ℚ) < 1 := by push_cast; exact h3
    exact_mod_cast this
  have := Int.abs_lt_one_iff.1 h4
  omega

end Cuttlefish
