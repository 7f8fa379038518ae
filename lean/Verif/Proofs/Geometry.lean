import Verif.Model.Geometry
import Verif.Proofs.Basic
import Verif.Spec.Mip
namespace Cuttlefish
open Spec

theorem extent_eq_max (n k : Nat) (hn : 0 < n) : extent n k = max (n >>> k) 1 := by
  induction k with
  | zero => simp [extent]; omega
  | succ k ih =>
    simp only [extent, ih, halve, Nat.shiftRight_succ]
    split <;> omega

theorem extent_pos (n k : Nat) (hn : 0 < n) : 0 < extent n k := by
  rw [extent_eq_max n k hn]; omega

theorem extent_eq_one (n k : Nat) (hn : 0 < n) : extent n k = 1 ↔ Nat.log2 n ≤ k := by
  rw [extent_eq_max n k hn, Nat.shiftRight_eq_div_pow]
  constructor
  · intro h
    by_contra hk
    have hk : k + 1 ≤ Nat.log2 n := by omega
    have h1 : 2 ^ Nat.log2 n ≤ n := Nat.log2_self_le (by omega)
    have h2 : 2 ^ (k+1) ≤ n := Nat.le_trans (Nat.pow_le_pow_right (by omega) hk) h1
    have h3 : 2 ≤ n / 2 ^ k := by
      rw [Nat.le_div_iff_mul_le (Nat.two_pow_pos k)]; rw [Nat.pow_succ] at h2; omega
    omega
  · intro h
    have h1 : n < 2 ^ (Nat.log2 n + 1) := Nat.lt_log2_self
    have h2 : n < 2 ^ (k+1) := Nat.lt_of_lt_of_le h1 (Nat.pow_le_pow_right (by omega) (by omega))
    have h3 : n / 2 ^ k < 2 := by
      rw [Nat.div_lt_iff_lt_mul (Nat.two_pow_pos k)]; rw [Nat.pow_succ] at h2; omega
    omega

theorem log2_lt_32 (n : Nat) (h : n < pow32) : Nat.log2 n < 32 := by
  by_cases h0 : n = 0
  · subst h0; decide
  · rw [Nat.log2_lt h0]; exact h

theorem levels_of (n : Nat) (h0 : 0 < n) (h : n < pow32) : 32 - clz n = Nat.log2 n + 1 := by
  have := log2_lt_32 n h
  unfold clz; rw [if_neg (by omega)]; omega

theorem maxMip_eq (dim : Dimension) (w h d : Nat) (hw : 0 < w) (hw' : w < pow32)
    (hh : 0 < h) (hh' : h < pow32) (hd : dim = .Dim3D → 0 < d ∧ d < pow32) :
    maxMipmapLevels dim w h d =
      (if dim = .Dim3D then max (max (Nat.log2 w) (Nat.log2 h)) (Nat.log2 d)
       else max (Nat.log2 w) (Nat.log2 h)) + 1 := by
  unfold maxMipmapLevels
  simp only [levels_of w hw hw', levels_of h hh hh']
  split
  · rename_i h3
    rw [levels_of d (hd h3).1 (hd h3).2]; omega
  · omega

theorem shr32_ok (x k : Nat) (h : k < 32) : shr32 x k = .ok (x >>> k) := by
  simp [shr32, h]

theorem maxMip_pos (dim : Dimension) (w h d : Nat) (hw : 0 < w) (hw' : w < pow32)
    (hh : 0 < h) (hh' : h < pow32) (hd : dim = .Dim3D → 0 < d ∧ d < pow32) :
    0 < maxMipmapLevels dim w h d := by
  rw [maxMip_eq dim w h d hw hw' hh hh' hd]; omega

theorem maxMip_le (dim : Dimension) (w h d : Nat) : maxMipmapLevels dim w h d ≤ 32 := by
  unfold maxMipmapLevels
  simp only
  split <;> omega

end Cuttlefish
