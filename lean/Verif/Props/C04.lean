import Verif.Proofs.Geometry
/-
C04: length of the mip chain.
-/
namespace Cuttlefish
open Spec

/-- `maxMipmapLevels` is at least one; the level with the last index has every mipped extent equal
to one and no earlier level has; and it fits the 32 levels an `unsigned int` extent can be shifted
by. -/
theorem C04_chain_length (dim : Dimension) (w h d : Nat)
    (hw : 0 < w ∧ w < 2 ^ 32) (hh : 0 < h ∧ h < 2 ^ 32)
    (hd : dim = .Dim3D → 0 < d ∧ d < 2 ^ 32) :
    1 ≤ maxMipmapLevels dim w h d ∧ maxMipmapLevels dim w h d ≤ 32 ∧
    isLast dim w h d (maxMipmapLevels dim w h d - 1) ∧
    ∀ k, k < maxMipmapLevels dim w h d - 1 → ¬ isLast dim w h d k := by
  have hpos := maxMip_pos dim w h d hw.1 hw.2 hh.1 hh.2 hd
  have hle := maxMip_le dim w h d
  have heq := maxMip_eq dim w h d hw.1 hw.2 hh.1 hh.2 hd
  refine ⟨hpos, hle, ?_, ?_⟩
  · rw [heq]
    intro n hn
    unfold mipped at hn
    by_cases h3 : dim = .Dim3D
    · simp only [h3, if_true, List.mem_cons, List.not_mem_nil, or_false] at hn ⊢
      rcases hn with rfl | rfl | rfl
      · rw [extent_eq_one _ _ hw.1]; omega
      · rw [extent_eq_one _ _ hh.1]; omega
      · rw [extent_eq_one _ _ (hd h3).1]; omega
    · simp only [h3, if_false, List.mem_cons, List.not_mem_nil, or_false] at hn ⊢
      rcases hn with rfl | rfl
      · rw [extent_eq_one _ _ hw.1]; omega
      · rw [extent_eq_one _ _ hh.1]; omega
  · intro k hk hl
    rw [heq] at hk
    unfold isLast mipped at hl
    by_cases h3 : dim = .Dim3D
    · simp only [h3, if_true] at hl hk
      have a := (extent_eq_one w k hw.1).1 (hl w (by simp))
      have b := (extent_eq_one h k hh.1).1 (hl h (by simp))
      have c := (extent_eq_one d k (hd h3).1).1 (hl d (by simp))
      omega
    · simp only [h3, if_false] at hl hk
      have a := (extent_eq_one w k hw.1).1 (hl w (by simp))
      have b := (extent_eq_one h k hh.1).1 (hl h (by simp))
      omega

/-- The depth (number of array layers) of a texture that is not 3D never matters. -/
theorem C04_depth_ignored (dim : Dimension) (h3 : dim ≠ .Dim3D) (w h d d' : Nat) :
    maxMipmapLevels dim w h d = maxMipmapLevels dim w h d' := by
  simp [maxMipmapLevels, h3]

example : maxMipmapLevels .Dim3D 100 7 300 = 9 ∧ isLast .Dim3D 100 7 300 8 ∧
    ¬ isLast .Dim3D 100 7 300 7 := by
  refine ⟨by decide, ?_, ?_⟩ <;> unfold isLast <;> decide
example : maxMipmapLevels .Cube 4294967295 1 0 = 32 := by decide

end Cuttlefish
