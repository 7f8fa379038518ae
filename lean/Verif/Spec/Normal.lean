import Verif.Spec.Exact
/-
Specification of normal maps: the normal of the surface whose height is the red channel.
-/
namespace Cuttlefish.Spec
noncomputable section

/-- The position before `k` of `n`: around the border if `wrap`, else the position itself. -/
def before (wrap : Bool) (n k : Nat) : Nat := if k = 0 then (if wrap then n - 1 else 0) else k - 1

/-- The position after `k` of `n`. -/
def after (wrap : Bool) (n k : Nat) : Nat := if k + 1 = n then (if wrap then 0 else k) else k + 1

/-- The distance between both: 1 at a border that is not wrapped. -/
def apart (wrap : Bool) (n k : Nat) : ℝ := if wrap = false ∧ (k = 0 ∨ k + 1 = n) then 1 else 2

/-- The unit vector in the direction `(dx, dy, 1)`, as a colour. -/
def unit (dx dy : ℝ) : Color ℝ :=
  ⟨dx / √(dx ^ 2 + dy ^ 2 + 1), dy / √(dx ^ 2 + dy ^ 2 + 1), 1 / √(dx ^ 2 + dy ^ 2 + 1), 1⟩

/-- From [-1, 1] to [0, 1]. -/
def toUnsigned (v : ℝ) : ℝ := v / 2 + 1 / 2

/-- The colour that is stored, grey for the formats with a single channel. -/
def toGrey (f : IFormat) (c : Color ℝ) : Color ℝ :=
  match f with
  | .Gray8 | .Gray16 | .Float | .Double =>
    ⟨0.2126 * c.r + 0.7152 * c.g + 0.0722 * c.b, 0, 0, 1⟩
  | _ => c

/-- The heights (red values) around pixel `x`, `y`, counted from the top. -/
structure Around (i : Image ℝ) (wrapX wrapY : Bool) (x y : Nat) (left right up down : ℝ) : Prop where
  left : ∃ c, i.getPixel Arith.exact (before wrapX i.bmp.width x) y = .ok (some c) ∧ c.r = left
  right : ∃ c, i.getPixel Arith.exact (after wrapX i.bmp.width x) y = .ok (some c) ∧ c.r = right
  up : ∃ c, i.getPixel Arith.exact x (before wrapY i.bmp.height y) = .ok (some c) ∧ c.r = up
  down : ∃ c, i.getPixel Arith.exact x (after wrapY i.bmp.height y) = .ok (some c) ∧ c.r = down

/-- The same for an image of doubles. -/
structure AroundDoubles (L : Libm) (i : Image Dbl) (wrapX wrapY : Bool) (x y : Nat) (left right up down : ℚ) : Prop where
  left : ∃ c, i.getPixel (Arith.ieee L) (before wrapX i.bmp.width x) y = .ok (some c) ∧ c.r = .fin left
  right : ∃ c, i.getPixel (Arith.ieee L) (after wrapX i.bmp.width x) y = .ok (some c) ∧ c.r = .fin right
  up : ∃ c, i.getPixel (Arith.ieee L) x (before wrapY i.bmp.height y) = .ok (some c) ∧ c.r = .fin up
  down : ∃ c, i.getPixel (Arith.ieee L) x (after wrapY i.bmp.height y) = .ok (some c) ∧ c.r = .fin down

end
end Cuttlefish.Spec
