import Verif.Model.Arith
import Verif.Spec.Image
import Verif.Proofs.ArithLaws
/-
A FreeImage and images for the examples beside the theorems.
-/
namespace Cuttlefish.Toy
open Spec
variable {N : Type}

/-- A black pixel. -/
def zeroPx (A : Arith N) : IFormat → Px N
  | .Invalid => .ints []
  | .RGB8 | .RGB16 => .ints [0, 0, 0]
  | .RGBA8 | .RGBA16 => .ints [0, 0, 0, 0]
  | .RGBF => .nums [A.lit 0, A.lit 0, A.lit 0]
  | .RGBAF => .nums [A.lit 0, A.lit 0, A.lit 0, A.lit 0]
  | .Float | .Double => .nums [A.lit 0]
  | .Complex => .nums [A.lit 0, A.lit 0]
  | _ => .ints [0]

/-- A FreeImage whose `Rotate` works or not, and whose `Rescale` and conversions never work. -/
def fi (A : Arith N) (rotates : Bool) : FreeImage N where
  alloc f w h := if f = .Invalid then none else some ⟨w, h, fun _ _ => zeroPx A f⟩
  clone := some
  rotate b d := if rotates then
      (if d = 90 then some ⟨b.height, b.width, fun y x => b.px (b.height - 1 - x) y⟩
      else if d = 180 then
        some ⟨b.width, b.height, fun y x => b.px (b.height - 1 - y) (b.width - 1 - x)⟩
      else some ⟨b.height, b.width, fun y x => b.px x (b.width - 1 - y)⟩)
    else none
  flipHorizontal b := (true, ⟨b.width, b.height, fun y x => b.px y (b.width - 1 - x)⟩)
  flipVertical b := (true, ⟨b.width, b.height, fun y x => b.px (b.height - 1 - y) x⟩)
  rescale _ _ _ _ := none
  convert _ _ _ := none

theorem fi_lawful (A : Arith N) (h0 : A.single (A.lit 0) = A.lit 0) (r : Bool) : LawfulFI A (fi A r) where
  alloc := by
    intro f w h b e
    simp only [fi] at e
    by_cases hf : f = .Invalid
    · simp [hf] at e
    · rw [if_neg hf] at e
      cases e
      refine ⟨rfl, rfl, ?_⟩
      intro y x _ _
      cases f <;> simp_all [zeroPx, PxOk, Upto]
  clone := by intro b b' e; cases e; rfl
  rotate90 := by
    intro b b' e
    cases r
    · simp [fi] at e
    · simp only [fi, if_true, Option.some.injEq] at e
      subst e
      refine ⟨rfl, rfl, ?_⟩
      intro y x hy hx
      dsimp only
      rw [show b.height - 1 - (b.height - 1 - y) = y by omega]
  rotate180 := by
    intro b b' e
    cases r
    · simp [fi] at e
    · simp only [fi, if_true, Option.some.injEq] at e
      rw [if_neg (by norm_num)] at e
      cases e
      refine ⟨rfl, rfl, ?_⟩
      intro y x hy hx
      dsimp only
      rw [show b.height - 1 - (b.height - 1 - y) = y by omega,
        show b.width - 1 - (b.width - 1 - x) = x by omega]
  rotate270 := by
    intro b b' e
    cases r
    · simp [fi] at e
    · simp only [fi, if_true, Option.some.injEq] at e
      rw [if_neg (by norm_num), if_neg (by norm_num)] at e
      cases e
      refine ⟨rfl, rfl, ?_⟩
      intro y x hy hx
      dsimp only
      rw [show b.width - 1 - (b.width - 1 - x) = x by omega]
  flipHorizontal := by intro b; exact ⟨rfl, rfl, fun y x _ _ => rfl⟩
  flipVertical := by intro b; exact ⟨rfl, rfl, fun y x _ _ => rfl⟩
  rescale := by intro b w h f b' e; cases e
  convert := by intro f b g b' e; cases e

theorem ieee_zero (L : Libm) : (Arith.ieee L).single ((Arith.ieee L).lit 0) = (Arith.ieee L).lit 0 := by
  simp only [Arith.ieee, ofQ_zero, Dbl.single]
  have h : F32.round 0 = .fin (rne 0) := round_fin (by rw [abs_zero]; exact zpow_nonneg (by norm_num) _)
  rw [rne_zero] at h
  exact h

theorem exact_zero : Arith.exact.single (Arith.exact.lit 0) = Arith.exact.lit 0 := rfl

theorem fi_ieee (L : Libm) (r : Bool) : LawfulFI (Arith.ieee L) (fi (Arith.ieee L) r) :=
  fi_lawful _ (ieee_zero L) r

theorem fi_exact (r : Bool) : LawfulFI Arith.exact (fi Arith.exact r) := fi_lawful _ exact_zero r

/-- A libm. -/
def libm : Libm where
  sqrt x := x
  pow x _ := x

/-- An image of 3 x 2 pixels with different colours. -/
def rgba : Image N := ⟨.RGBA8, .Linear, ⟨3, 2, fun y x => .ints [100 * y + x, 10, 20 * x, 255]⟩⟩

theorem rgba_ok (A : Arith N) : ImgOk A rgba := by
  intro y x hy hx
  simp only [rgba] at hy hx ⊢
  simp only [PxOk, Upto]
  omega

end Cuttlefish.Toy
