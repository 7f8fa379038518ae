import Verif.Spec.Unit
import Verif.Proofs.ImageMap
import Mathlib.Analysis.SpecialFunctions.Pow.Real
/-
A `pow` that meets the assumption of accuracy, and an sRGB image, for the examples.
-/
namespace Cuttlefish.Toy
open Spec

/-- A `pow` that is exact to 50 bits. -/
noncomputable def accurate : Libm where
  sqrt x := x
  pow
    | .fin x, .fin y => .fin (⌊(x : ℝ) ^ (y : ℝ) * 2 ^ 50⌋ / 2 ^ 50)
    | _, _ => .nan

theorem accurate_pow : AccuratePow accurate := by
  intro x y h0 h1 hy
  have r0 : (0 : ℝ) ≤ x := by exact_mod_cast h0
  have r1 : (x : ℝ) ≤ 1 := by exact_mod_cast h1
  have ry : (0 : ℝ) < y := by exact_mod_cast hy
  have p0 : 0 ≤ (x : ℝ) ^ (y : ℝ) := Real.rpow_nonneg r0 _
  have p1 : (x : ℝ) ^ (y : ℝ) ≤ 1 := Real.rpow_le_one r0 r1 ry.le
  have f1 := Int.floor_le ((x : ℝ) ^ (y : ℝ) * 2 ^ 50)
  have f2 := Int.lt_floor_add_one ((x : ℝ) ^ (y : ℝ) * 2 ^ 50)
  have f0 : 0 ≤ ⌊(x : ℝ) ^ (y : ℝ) * 2 ^ 50⌋ := Int.floor_nonneg.2 (by positivity)
  have f3 : ⌊(x : ℝ) ^ (y : ℝ) * 2 ^ 50⌋ ≤ 2 ^ 50 := by
    have : ((⌊(x : ℝ) ^ (y : ℝ) * 2 ^ 50⌋ : ℤ) : ℝ) ≤ ((2 ^ 50 : ℤ) : ℝ) := by push_cast; linarith
    exact_mod_cast this
  refine ⟨_, rfl, ?_, ?_, ?_⟩
  · have : (0 : ℚ) ≤ (⌊(x : ℝ) ^ (y : ℝ) * 2 ^ 50⌋ : ℤ) := by exact_mod_cast f0
    positivity
  · have : ((⌊(x : ℝ) ^ (y : ℝ) * 2 ^ 50⌋ : ℤ) : ℚ) ≤ 2 ^ 50 := by exact_mod_cast f3
    rw [div_le_one (by norm_num)]
    exact this
  · push_cast
    rw [abs_le]
    constructor
    · rw [neg_le_sub_iff_le_add, ← add_div, le_div_iff₀ (by norm_num)]
      linarith
    · rw [sub_le_iff_le_add, div_le_iff₀ (by norm_num), add_mul]
      norm_num at f1 f2 ⊢
      linarith

/-- An sRGB image of 3 x 2 floats from 0 to 1. -/
def srgb3x2 : Image Dbl :=
  ⟨.RGBAF, .sRGB, ⟨3, 2, fun _ x => .nums [if x = 0 then .fin 0 else .fin 1, .fin (1 / 2), .fin 1, .fin (1 / 4)]⟩⟩

theorem srgb3x2_ok (Lm : Libm) : ImgOk (Arith.ieee Lm) srgb3x2 ∧ Spec.Countable srgb3x2 ∧ UnitImage Lm srgb3x2 := by
  refine ⟨?_, by simp [Spec.Countable, srgb3x2], ?_⟩
  · intro y x _ _
    show Dbl.single (if x = 0 then .fin 0 else .fin 1) = (if x = 0 then .fin 0 else .fin 1) ∧
      Dbl.single (.fin (1 / 2)) = .fin (1 / 2) ∧ Dbl.single (.fin 1) = .fin 1 ∧ Dbl.single (.fin (1 / 4)) = .fin (1 / 4)
    refine ⟨?_, by decide +kernel⟩
    split <;> decide +kernel
  · rintro c ⟨x, y, e⟩
    obtain ⟨-, -, k⟩ := getPixel_some e
    cases k
    simp only [UnitColor, doubleChannels, List.forall_mem_cons, List.not_mem_nil, IsEmpty.forall_iff, implies_true,
      and_true]
    refine ⟨?_, ⟨_, rfl, by norm_num, by norm_num⟩, ⟨_, rfl, by norm_num, by norm_num⟩, _, rfl, by norm_num, by norm_num⟩
    split
    · exact ⟨_, rfl, by norm_num, by norm_num⟩
    · exact ⟨_, rfl, by norm_num, by norm_num⟩

end Cuttlefish.Toy
