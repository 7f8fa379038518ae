import Verif.Proofs.ImageRuns
import Verif.Proofs.UnitMips3d
/-
Colours from 0 to 1 stay there in a texture.
-/
namespace Cuttlefish
open Spec
variable {Lm : Libm} {FI : FreeImage Dbl}

theorem convert_unit (C : UnitConvert Lm FI) (F : LawfulFI (Arith.ieee Lm) FI) {i j : Image Dbl}
    (hi : ImgOk (Arith.ieee Lm) i) (hu : UnitImage Lm i)
    (e : i.convert (Arith.ieee Lm) FI .RGBAF true = .ok (some j)) : UnitImage Lm j := by
  by_cases hd : i.format = .RGBAF
  · unfold Image.convert at e
    rw [if_pos hd] at e
    cases copy_keep F (Res.ok.inj e)
    exact hu
  · cases ho : (if usesFreeImage i.format .RGBAF
        (true && isGrayscaleFormat .RGBAF && decide (i.colorSpace = .Linear)) = true
        then FI.convert i.format i.bmp .RGBAF else none) with
    | none =>
      obtain ⟨r, e', -, k⟩ := convert_own (weighted := true) F hi hd (by simp) ho (fun y x _ _ c _ => by
        obtain ⟨p, e⟩ := set_float (A := Arith.ieee Lm) (f := .RGBAF) (Or.inr (Or.inl rfl)) c
        exact ⟨p, by simpa [convertPx, isGrayscaleFormat] using e⟩)
      rw [e] at e'
      cases e'
      obtain ⟨k1, -, k3, k4, k5⟩ := k j rfl
      rintro d ⟨x, y, ed⟩
      obtain ⟨g1, g2, g3⟩ := getPixel_some ed
      obtain ⟨c, c1, c2⟩ := k5 (j.bmp.height - y - 1) x (by omega) (by omega)
      have hc : UnitColor c := hu c ⟨_, _, getPixel_line (by omega) (by omega) c1⟩
      obtain ⟨p, p1, p2⟩ := set_unit (Lm := Lm) (f := .RGBAF) (Or.inr (Or.inl rfl)) hc
      have c2 : setPixelNoGrayscaleImpl (Arith.ieee Lm) .RGBAF c = .ok (j.bmp.px (j.bmp.height - y - 1) x) := by
        simpa [convertPx, isGrayscaleFormat] using c2
      rw [p1] at c2
      cases c2
      rw [k1] at g3
      exact p2 d g3
    | some b =>
      have ho' := ho
      split at ho'
      · unfold Image.convert at e
        rw [if_neg hd, if_neg (by simp)] at e
        simp only [ho] at e
        cases e
        exact C _ _ _ _ hi hu ho'
      · cases ho'

/-- The methods used by a texture keep colours from 0 to 1. -/
theorem kept_unit (P : UnitPow Lm) (C : UnitConvert Lm FI) (F : LawfulFI (Arith.ieee Lm) FI) :
    KeptBy Lm FI (UnitImage Lm) (UnitFilter Lm FI) (fun _ => True) where
  convert _ _ hi hu e := convert_unit C F hi hu e
  change _ _ _ _ hi hf hu e := change_unit P hi hf hu e
  resize _ _ _ _ _ hi hc hf hw hh U hu e := resize_unit P F hi hc hf hu hw hh U e
  mip3d _ _ _ _ _ _ _ _ _ hne hlen hd hdep hok _ hu e := mipSlice3d_unit P F hne hlen hd hdep hok hu e

end Cuttlefish
