import Verif.Spec.Formats
/-
C42: `hasAlpha` matches the formats.
-/
namespace Cuttlefish
open Spec

/-- For every format but `A4R4G4B4`, `hasAlpha` is true exactly if the format stores alpha.

Partial: the full claim has no exception; it is false, see `C42_fails_A4R4G4B4`. -/
theorem C42_hasAlpha_partial (f : Format) (hf : f ≠ .A4R4G4B4) :
    hasAlpha f = true ↔ StoresAlpha f := by
  unfold StoresAlpha
  cases f <;> simp_all [hasAlpha, layout, compressedAlpha]

/-- `A4R4G4B4` stores alpha but `hasAlpha` denies it. -/
theorem C42_fails_A4R4G4B4 : StoresAlpha .A4R4G4B4 ∧ hasAlpha .A4R4G4B4 = false :=
  ⟨Or.inl ⟨_, rfl, 4, by simp⟩, rfl⟩

/-- A format reported to have alpha really stores it, without exception. -/
theorem C42_hasAlpha_sound (f : Format) (h : hasAlpha f = true) : StoresAlpha f := by
  by_cases hf : f = .A4R4G4B4
  · exact hf ▸ C42_fails_A4R4G4B4.1
  · exact (C42_hasAlpha_partial f hf).1 h

example : hasAlpha .BC1_RGBA = true ∧ hasAlpha .BC1_RGB = false ∧ hasAlpha .A8B8G8R8 = true := by decide

end Cuttlefish
