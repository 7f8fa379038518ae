import Verif.Spec.Image
import Verif.Proofs.Dbl
import Verif.Proofs.Basic
/-
Loops over the pixels of an image.
-/
namespace Cuttlefish
open Spec
variable {N S : Type}

theorem loop_inv {P : Nat → S → Prop} {f : Nat → S → Res S} {lo n : Nat} {s : S} (h0 : P lo s)
    (hs : ∀ i, lo ≤ i → i < lo + n → ∀ s, P i s → ∃ s', f i s = .ok s' ∧ P (i + 1) s') :
    ∃ s', loop (List.range' lo n) f s = .ok s' ∧ P (lo + n) s' := by
  induction n generalizing lo s with
  | zero => exact ⟨s, rfl, h0⟩
  | succ n ih =>
    obtain ⟨s1, e1, p1⟩ := hs lo le_rfl (by omega) s h0
    obtain ⟨s2, e2, p2⟩ := ih (lo := lo + 1) p1 (fun i h1 h2 => hs i (by omega) (by omega))
    refine ⟨s2, ?_, by rwa [show lo + (n + 1) = lo + 1 + n by omega]⟩
    rw [List.range'_succ]
    simp only [loop, e1, Res.ok_bind, e2]

/-- The invariant `I y x` holds before pixel `x` of row `y` is processed. -/
theorem loop_grid {I : Nat → Nat → S → Prop} {body : Nat → Nat → S → Res S} {h w : Nat} {s : S}
    (h0 : I 0 0 s)
    (hs : ∀ y, y < h → ∀ x, x < w → ∀ s, I y x s → ∃ s', body y x s = .ok s' ∧ I y (x + 1) s')
    (hr : ∀ y, y < h → ∀ s, I y w s → I (y + 1) 0 s) :
    ∃ s', loop (steps 0 h) (fun y s => loop (steps 0 w) (body y) s) s = .ok s' ∧ I h 0 s' := by
  have := loop_inv (P := fun y s => I y 0 s) (f := fun y s => loop (steps 0 w) (body y) s) (lo := 0)
    (n := h) (s := s) h0 (by
      intro y _ hy s hI
      obtain ⟨s', e, p⟩ := loop_inv (P := fun x s => I y x s) (f := body y) (lo := 0) (n := w) hI
        (fun x _ hx s hI => hs y (by omega) x (by omega) s hI)
      refine ⟨s', e, hr y (by omega) s' (by simpa using p)⟩)
  simpa [steps] using this

theorem Bitmap.read_ok {b : Bitmap N} {y x : Nat} (hy : y < b.height) (hx : x < b.width) :
    b.read y x = .ok (b.px y x) := if_pos ⟨hy, hx⟩

/-- A bitmap after one pixel is replaced. -/
def Bitmap.upd (b : Bitmap N) (y x : Nat) (p : Px N) : Bitmap N :=
  { b with px := fun y' x' => if y' = y ∧ x' = x then p else b.px y' x' }

theorem Bitmap.write_ok {b : Bitmap N} {y x : Nat} (hy : y < b.height) (hx : x < b.width) (p : Px N) :
    b.write y x p = .ok (b.upd y x p) := if_pos ⟨hy, hx⟩

theorem Image.put_ok {i : Image N} {y x : Nat} (hy : y < i.bmp.height) (hx : x < i.bmp.width) (p : Px N) :
    i.put y x p = .ok { i with bmp := i.bmp.upd y x p } := by
  simp [Image.put, Bitmap.write_ok hy hx]

/-- A loop that writes the pixel `p y x` to position `q y x` for every `y`, `x`, at different
positions. -/
theorem write_grid {dst : Image N} {body : Nat → Nat → Image N → Res (Image N)} {h w : Nat}
    {q : Nat → Nat → Nat × Nat} {P : Nat → Nat → Px N → Prop}
    (hb : ∀ y, y < h → ∀ x, x < w → ∀ d : Image N, d.format = dst.format → d.bmp.width = dst.bmp.width →
      d.bmp.height = dst.bmp.height → (∀ y' x', (q y x = (y', x')) → d.bmp.px y' x' = dst.bmp.px y' x') →
      ∃ p, P y x p ∧ body y x d = .ok { d with bmp := d.bmp.upd (q y x).1 (q y x).2 p })
    (hq : ∀ y, y < h → ∀ x, x < w → ∀ y', y' < h → ∀ x', x' < w → q y x = q y' x' → y = y' ∧ x = x') :
    ∃ d, loop (steps 0 h) (fun y d => loop (steps 0 w) (body y) d) dst = .ok d ∧
      d.format = dst.format ∧ d.colorSpace = dst.colorSpace ∧ d.bmp.width = dst.bmp.width ∧
      d.bmp.height = dst.bmp.height ∧
      ∀ y, y < h → ∀ x, x < w → P y x (d.bmp.px (q y x).1 (q y x).2) := by
  obtain ⟨d, e, h1, h2, h3, h4, h5, -⟩ := loop_grid (body := body) (h := h) (w := w) (s := dst)
    (I := fun y x (d : Image N) => d.format = dst.format ∧ d.colorSpace = dst.colorSpace ∧
      d.bmp.width = dst.bmp.width ∧ d.bmp.height = dst.bmp.height ∧
      (∀ y', y' < h → ∀ x', x' < w → (y' < y ∨ y' = y ∧ x' < x) →
        P y' x' (d.bmp.px (q y' x').1 (q y' x').2)) ∧
      (∀ y', y' < h → ∀ x', x' < w → ¬ (y' < y ∨ y' = y ∧ x' < x) →
        d.bmp.px (q y' x').1 (q y' x').2 = dst.bmp.px (q y' x').1 (q y' x').2))
    ⟨rfl, rfl, rfl, rfl, by intro y' _ x' _ h; omega, by intros; rfl⟩
    (by
      intro y hy x hx d ⟨i1, i2, i3, i4, i5, i6⟩
      obtain ⟨p, hp, he⟩ := hb y hy x hx d i1 i3 i4 (by
        intro y' x' hqq
        have := i6 y hy x hx (by omega)
        rwa [hqq] at this)
      refine ⟨_, he, i1, i2, i3, i4, ?_, ?_⟩
      · intro y' hy' x' hx' hlt
        by_cases heq : y' = y ∧ x' = x
        · obtain ⟨rfl, rfl⟩ := heq
          simpa [Bitmap.upd] using hp
        · have hne : ¬ ((q y' x').1 = (q y x).1 ∧ (q y' x').2 = (q y x).2) := by
            intro hh
            exact heq (hq y' hy' x' hx' y hy x hx (Prod.ext hh.1 hh.2))
          simp only [Bitmap.upd, if_neg hne]
          exact i5 y' hy' x' hx' (by omega)
      · intro y' hy' x' hx' hlt
        have hne : ¬ ((q y' x').1 = (q y x).1 ∧ (q y' x').2 = (q y x).2) := by
          intro hh
          have := hq y' hy' x' hx' y hy x hx (Prod.ext hh.1 hh.2)
          omega
        simp only [Bitmap.upd, if_neg hne]
        exact i6 y' hy' x' hx' (by omega))
    (by
      intro y hy d ⟨i1, i2, i3, i4, i5, i6⟩
      exact ⟨i1, i2, i3, i4, fun y' hy' x' hx' hlt => i5 y' hy' x' hx' (by omega),
        fun y' hy' x' hx' hlt => i6 y' hy' x' hx' (by omega)⟩)
  exact ⟨d, e, h1, h2, h3, h4, fun y hy x hx => h5 y hy x hx (by omega)⟩

end Cuttlefish
