import Verif.Proofs.Num
import Verif.Model.Encode
/-
`F32.toBits` is a right inverse of `F32.ofBits` on representable numbers.
-/
namespace Cuttlefish

theorem toNat_num {z : ℤ} (h : 0 ≤ z) : (((z : ℚ)).num.toNat : ℚ) = z := by
  rw [Rat.num_intCast]
  exact_mod_cast Int.toNat_of_nonneg h

/-- Decoding a word put together from sign, exponent and fraction. -/
theorem ofBits_parts {sg e m : Nat} (hs : sg = 0 ∨ sg = 1) (he : e < 255) (hm : m < 2 ^ 23) :
    F32.ofBits (sg * 2 ^ 31 + e * 2 ^ 23 + m) =
      .fin ((if sg = 1 then -1 else 1) *
        (if e = 0 then (m : ℚ) * (2 : ℚ) ^ (-149 : ℤ)
         else ((2 ^ 23 + m : ℕ) : ℚ) * (2 : ℚ) ^ ((e : ℤ) - 150))) := by
  have h1 : (sg * 2 ^ 31 + e * 2 ^ 23 + m) / 2 ^ 31 % 2 = sg := by
    rcases hs with rfl | rfl <;> omega
  have h2 : (sg * 2 ^ 31 + e * 2 ^ 23 + m) / 2 ^ 23 % 256 = e := by
    rcases hs with rfl | rfl <;> omega
  have h3 : (sg * 2 ^ 31 + e * 2 ^ 23 + m) % 2 ^ 23 = m := by
    rcases hs with rfl | rfl <;> omega
  unfold F32.ofBits
  simp only [h1, h2, h3]
  rw [if_neg (by omega)]
  have he149 : (2 : ℚ) ^ (-149 : ℤ) = ((2 : ℚ) ^ (149 : ℕ))⁻¹ := by
    rw [← zpow_natCast, ← zpow_neg]; rfl
  by_cases h0 : e = 0
  · rw [if_pos h0, if_pos h0, he149, mul_div_assoc, div_eq_mul_inv]
  · rw [if_neg h0, if_neg h0]
    by_cases h5 : e < 150
    · have e1 : ((2 : ℚ) ^ (150 - e : ℕ))⁻¹ = (2 : ℚ) ^ ((e : ℤ) - 150) := by
        rw [← zpow_natCast, ← zpow_neg, show -((150 - e : ℕ) : ℤ) = (e : ℤ) - 150 by omega]
      rw [if_pos h5, mul_div_assoc, div_eq_mul_inv, e1]
    · have e1 : (2 : ℚ) ^ (e - 150 : ℕ) = (2 : ℚ) ^ ((e : ℤ) - 150) := by
        rw [← zpow_natCast, show ((e - 150 : ℕ) : ℤ) = (e : ℤ) - 150 by omega]
      rw [if_neg h5, mul_assoc, e1]

/-- A representable number is an integer multiple of the spacing of its binade. -/
theorem rep_multiple {q : ℚ} (h : Rep q) : ∃ z : ℤ, q = z * ulp q := by
  have := rne_exact h
  by_cases h0 : q = 0
  · exact ⟨0, by simp [h0]⟩
  · unfold rne at this
    rw [if_neg h0] at this
    exact ⟨_, this.symm⟩

theorem toBits_spec {q : ℚ} (h : Rep q) (hb : |q| < (2 : ℚ) ^ (128 : ℤ)) :
    F32.ofBits (F32.toBits (.fin q)) = .fin q ∧ F32.toBits (.fin q) < 2 ^ 32 := by
  by_cases hq0 : q = 0
  · subst hq0; exact ⟨by decide +kernel, by decide +kernel⟩
  obtain ⟨sg, hsg, hs2, hsq⟩ : ∃ sg : Nat, (sg = 0 ∨ sg = 1) ∧
      (if q < 0 then 2 ^ 31 else 0 : Nat) = sg * 2 ^ 31 ∧
      q = (if sg = 1 then -1 else 1) * |q| := by
    by_cases hq : q < 0
    · exact ⟨1, Or.inr rfl, by rw [if_pos hq]; norm_num, by rw [if_pos rfl, abs_of_neg hq]; ring⟩
    · exact ⟨0, Or.inl rfl, by rw [if_neg hq]; norm_num, by
        rw [if_neg (by norm_num), abs_of_nonneg (not_lt.1 hq)]; ring⟩
  obtain ⟨z, hz⟩ := rep_multiple h
  have hu := ulp_pos q
  have hz' : |q| = ((|z| : ℤ) : ℚ) * ulp q := by
    have : |q| = |(z : ℚ) * ulp q| := by rw [← hz]
    rw [this, abs_mul, abs_of_pos hu, Int.cast_abs]
  unfold F32.toBits
  simp only [hs2]
  by_cases hsub : |q| < pow2 (-126)
  · rw [if_pos hsub]
    rw [pow2_eq] at hsub
    have hul : ulp q = (2 : ℚ) ^ (-149 : ℤ) := by
      rw [ulp_eq]
      have h1 := (binade_spec (abs_pos.2 hq0)).1
      have : (2 : ℚ) ^ binade |q| < (2 : ℚ) ^ (-126 : ℤ) := lt_of_le_of_lt h1 hsub
      have := (zpow_lt_zpow_iff_right₀ (by norm_num : (1 : ℚ) < 2)).1 this
      rw [max_eq_right (by omega)]; rfl
    have hm : |q| * 2 ^ 149 = ((|z| : ℤ) : ℚ) := by
      rw [hz', hul]
      rw [mul_assoc, ← zpow_natCast, ← zpow_add₀ (by norm_num)]
      norm_num
    rw [hm]
    have hzl : |z| < 2 ^ 23 := by
      have : ((|z| : ℤ) : ℚ) < 2 ^ 23 := by
        rw [← hm]
        calc |q| * 2 ^ 149 < (2 : ℚ) ^ (-126 : ℤ) * 2 ^ 149 := by gcongr
          _ = 2 ^ 23 := by norm_num
      exact_mod_cast this
    have hn := toNat_num (abs_nonneg z)
    have hlt : ((|z| : ℤ) : ℚ).num.toNat < 2 ^ 23 := by
      rw [Rat.num_intCast]; omega
    have := ofBits_parts (e := 0) hsg (by norm_num) hlt
    rw [Nat.zero_mul, Nat.add_zero] at this
    refine ⟨by rw [this, if_pos rfl, hn, ← hul, ← hz', ← hsq], ?_⟩
    generalize ((|z| : ℤ) : ℚ).num.toNat = m at *
    omega
  · rw [if_neg hsub]
    rw [pow2_eq, not_lt] at hsub
    have hpos : 0 < |q| := lt_of_lt_of_le (by positivity) hsub
    obtain ⟨b1, b2⟩ := binade_spec hpos
    have hlo : -126 ≤ binade |q| := by
      by_contra hc
      have : (2 : ℚ) ^ (binade |q| + 1) ≤ (2 : ℚ) ^ (-126 : ℤ) :=
        zpow_le_zpow_right₀ (by norm_num) (by omega)
      linarith
    have hhi : binade |q| < 128 := by
      have : (2 : ℚ) ^ binade |q| < (2 : ℚ) ^ (128 : ℤ) := lt_of_le_of_lt b1 hb
      exact (zpow_lt_zpow_iff_right₀ (by norm_num : (1 : ℚ) < 2)).1 this
    have hul : ulp q = (2 : ℚ) ^ (binade |q| - 23) := by rw [ulp_eq, max_eq_left hlo]
    generalize hbe : binade |q| = e at *
    have hm : |q| / pow2 (e - 23) = ((|z| : ℤ) : ℚ) := by
      rw [hz', hul, pow2_eq]
      rw [mul_div_assoc, div_self (by positivity), mul_one]
    rw [hm]
    have hsplit : (2 : ℚ) ^ e = 2 ^ 23 * (2 : ℚ) ^ (e - 23) := by
      rw [← zpow_natCast, ← zpow_add₀ (by norm_num)]; congr 1; push_cast; ring
    have hsplit2 : (2 : ℚ) ^ (e + 1) = 2 ^ 24 * (2 : ℚ) ^ (e - 23) := by
      rw [← zpow_natCast, ← zpow_add₀ (by norm_num)]; congr 1; push_cast; ring
    have hp : (0 : ℚ) < (2 : ℚ) ^ (e - 23) := by positivity
    rw [hsplit, hz', hul] at b1
    rw [hsplit2, hz', hul] at b2
    have hz1 : (2 : ℤ) ^ 23 ≤ |z| := by
      have h1 : (2 : ℚ) ^ 23 ≤ ((|z| : ℤ) : ℚ) := le_of_mul_le_mul_right b1 hp
      have h2 : (2 : ℚ) ^ 23 = ((2 ^ 23 : ℤ) : ℚ) := by norm_num
      rw [h2] at h1
      exact Int.cast_le.1 h1
    have hz2 : |z| < (2 : ℤ) ^ 24 := by
      have h1 : ((|z| : ℤ) : ℚ) < (2 : ℚ) ^ 24 := lt_of_mul_lt_mul_right b2 hp.le
      have h2 : (2 : ℚ) ^ 24 = ((2 ^ 24 : ℤ) : ℚ) := by norm_num
      rw [h2] at h1
      exact Int.cast_lt.1 h1
    have hn := toNat_num (abs_nonneg z)
    have hnat : (2 : ℕ) ^ 23 ≤ ((|z| : ℤ) : ℚ).num.toNat ∧ ((|z| : ℤ) : ℚ).num.toNat < 2 ^ 24 := by
      rw [Rat.num_intCast]; omega
    generalize ((|z| : ℤ) : ℚ).num.toNat = m at *
    have := ofBits_parts (e := (e + 127).toNat) (m := m - 2 ^ 23) hsg (by omega) (by omega)
    refine ⟨?_, by omega⟩
    rw [this, if_neg (show ¬ (e + 127).toNat = 0 by omega)]
    have e1 : (((e + 127).toNat : ℕ) : ℤ) - 150 = e - 23 := by omega
    have e2 : 2 ^ 23 + (m - 2 ^ 23) = m := by omega
    rw [e1, e2, hn, ← hul, ← hz', ← hsq]

theorem ofBits_toBits {q : ℚ} (h : Rep q) (hb : |q| < (2 : ℚ) ^ (128 : ℤ)) :
    F32.ofBits (F32.toBits (.fin q)) = .fin q := (toBits_spec h hb).1

end Cuttlefish
