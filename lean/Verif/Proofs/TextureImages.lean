import Verif.Model.TextureImages
import Verif.Spec.MipColors
import Verif.Spec.Safe
import Verif.Proofs.ProcessAlive
import Verif.Props.C48
/-
The modelled images as the image library of textures.
-/
namespace Cuttlefish
open Spec
variable {N : Type} {A : Arith N} {FI : FreeImage N}

theorem hasShape_iff {i : Image N} {b : Bool} {w h : ℕ} :
    i.hasShape b w h = true ↔ decide (i.format = .RGBAF) = b ∧ i.bmp.width = w ∧ i.bmp.height = h := by
  simp [Image.hasShape]

theorem imageLib_lawful (A : Arith N) (FI : FreeImage N) : Lawful (imageLib A FI) := by
  refine ⟨?_, ?_, ?_, ?_, ?_⟩
  · intro g g' e
    simp only [imageLib] at e ⊢
    split at e
    · split at e
      · rename_i h
        cases e
        obtain ⟨h1, h2, h3⟩ := hasShape_iff.1 h
        exact ⟨h2, h3, h1⟩
      · cases e
    · cases e
  · intro g cs
    simp only [imageLib]
    split
    · split
      · rename_i h
        rw [Bool.and_eq_true, hasShape_iff, decide_eq_true_iff] at h
        obtain ⟨⟨h1, h2, h3⟩, h4⟩ := h
        exact ⟨h2, h3, h1, h4⟩
      · exact ⟨rfl, rfl, rfl, rfl⟩
    · exact ⟨rfl, rfl, rfl, rfl⟩
  · intro g w h filter g' e
    simp only [imageLib] at e ⊢
    split at e
    · split at e
      · rename_i h
        cases e
        obtain ⟨h1, h2, h3⟩ := hasShape_iff.1 h
        exact ⟨h2, h3, h1⟩
      · cases e
        exact ⟨rfl, rfl, rfl⟩
    · split at e
      · rename_i h
        cases e
        rw [decide_eq_true_iff] at h
        refine ⟨rfl, rfl, ?_⟩
        rw [h.1]
        rfl
      · cases e
    · cases e
      exact ⟨rfl, rfl, rfl⟩
  · intro g w h filter hf hw hh
    simp only [imageLib, decide_eq_true_iff] at hf ⊢
    split
    · split <;> rfl
    · rw [if_pos ⟨hf, hw, hh⟩]
      rfl
    · rfl
  · intro src w h d i cs filter
    simp only [imageLib]
    split
    · split
      · rename_i h
        obtain ⟨h1, h2, h3⟩ := hasShape_iff.1 h
        exact ⟨h2, h3, h1⟩
      · exact ⟨rfl, rfl, rfl⟩
    · exact ⟨rfl, rfl, rfl⟩

/-- The shape of a slice of a 3D texture. -/
theorem mipSlice3d_shape (F : LawfulFI A FI) {prev : List (Image N)} {w h depth d : ℕ} {cs : ColorSpace}
    {filter : ResizeFilter} {j : Image N} (e : mipSlice3d A FI prev w h depth cs filter d = .ok j) :
    j.format = .RGBAF ∧ j.bmp.width = w ∧ j.bmp.height = h := by
  unfold mipSlice3d at e
  split at e
  · cases e
  · rename_i dst hn
    obtain ⟨n1, -, n3, n4, -⟩ := new_ok F hn
    refine loop_keeps (P := fun k : Image N => k.format = .RGBAF ∧ k.bmp.width = w ∧ k.bmp.height = h)
      (fun y s s' _ hs e => ?_) ⟨n1, n3, n4⟩ e
    refine loop_keeps (P := fun k : Image N => k.format = .RGBAF ∧ k.bmp.width = w ∧ k.bmp.height = h)
      (fun x s s' _ hs e => ?_) hs e
    obtain ⟨c, -, e⟩ := Res.bind_eq_ok.1 e
    unfold Image.put Bitmap.write at e
    split at e
    · simp only [Res.ok_bind, Res.ok.injEq] at e
      subst e
      exact hs
    · cases e

/-- The library is the modelled class, if there is memory and FreeImage resizes what the code does not. -/
theorem imageLib_uses (L : LawfulArith A) (F : LawfulFI A FI) (M : EnoughMemory FI)
    (C : ∀ filter, CanResize FI filter) : UsesImages A FI (imageLib A FI) := by
  refine ⟨fun _ => rfl, fun _ => rfl, fun _ => rfl, fun _ => rfl, ?_, ?_, ?_, ?_⟩
  · intro i r hi e
    simp only [imageLib, e]
    cases r with
    | none => rfl
    | some j =>
      obtain ⟨h1, -, h3, h4, -⟩ := C48_result L F hi.1 e
      simp [hasShape_iff, h1, h3, h4]
  · intro i cs j hi e
    simp only [imageLib, e]
    obtain ⟨-, h2, h3, h4, h5⟩ := changeColorSpace_keep L hi.1 e
    rw [if_pos (by rw [Bool.and_eq_true, hasShape_iff, decide_eq_true_iff]; exact ⟨⟨by rw [h2], h4, h5⟩, h3⟩)]
  · intro i w h filter r hi e
    simp only [imageLib, e]
    cases r with
    | none =>
      dsimp only
      rw [if_neg]
      rw [decide_eq_true_iff]
      rintro ⟨h1, h2, h3⟩
      exact absurd rfl (resize_alive L M F (C filter) hi.1 hi.2 (Or.inr h1) h2 h3 e)
    | some j =>
      obtain ⟨-, h2, -, h4, h5, -⟩ := resize_keep L F hi.1 e
      dsimp only
      rw [if_pos (hasShape_iff.2 ⟨by rw [h2], h4, h5⟩)]
  · intro prev w h depth d cs filter j hp e
    simp only [imageLib, e]
    obtain ⟨h1, h2, h3⟩ := mipSlice3d_shape F e
    rw [if_pos (hasShape_iff.2 ⟨by rw [h1]; rfl, h2, h3⟩)]

end Cuttlefish
