import Verif.Props.C32
import Verif.Proofs.ToneIeee
import Verif.Spec.ToyPow
/-
C32 for grey sRGB images, which the library converts to floats through linear values if FreeImage does not.
-/
namespace Cuttlefish
open Spec
variable {Lm : Libm}

/-- With a `pow` that is accurate to 50 bits the brightness of a grey stands for the same integer. -/
theorem grey_stands (P : AccuratePow Lm) : GreyStands Lm := by
  intro m v hm v0 v1
  have mem : m ∈ [31, 63, 255, 65535] := by
    rcases hm with rfl | rfl <;> simp
  have m0 : (0 : ℚ) < m := by exact_mod_cast (show 0 < m by omega)
  obtain ⟨q, e, q0, q1⟩ := unit_norm (Lm := Lm) mem v0 v1
  have near : |q - v / m| ≤ 1 / 2 ^ 53 := by
    rw [fromNorm_ieee Lm (by omega) (by omega) (by rw [abs_of_nonneg v0]; omega)] at e
    cases e
    have := rneD_abs (q := v / m) (e := 0) (by norm_num) (by
      rw [abs_of_nonneg (div_nonneg (by exact_mod_cast v0) m0.le)]
      refine ((div_le_one m0).2 (by exact_mod_cast v1)).trans ?_
      norm_num)
    exact this.trans (by norm_num [zpow_neg])
  rw [e]
  obtain ⟨z, ez, z0, z1, za⟩ := greyed_near (Lm := Lm) (cs := .sRGB) (fun _ => P) (c := ⟨.fin q, .fin q, .fin q, .fin 1⟩)
    (c' := ⟨q, q, q, 1⟩)
    (unit_iff.2 ⟨⟨q, rfl, q0, q1⟩, ⟨q, rfl, q0, q1⟩, ⟨q, rfl, q0, q1⟩, unit_one⟩)
    ⟨⟨q, rfl, by simp⟩, ⟨q, rfl, by simp⟩, ⟨q, rfl, by simp⟩, 1, rfl, by simp⟩
  have ez' : (Arith.ieee Lm).linearToSRGB ((Arith.ieee Lm).toGrayscale ((Arith.ieee Lm).sRGBToLinear (.fin q))
      ((Arith.ieee Lm).sRGBToLinear (.fin q)) ((Arith.ieee Lm).sRGBToLinear (.fin q))) = .fin z := ez
  rw [ez']
  obtain ⟨s, es, s0, s1, sa⟩ := single_near z0 z1
  refine ⟨s, es, s0, s1, ?_⟩
  have g : (greyed .sRGB (⟨q, q, q, 1⟩ : Color ℝ)).r = toSRGB (toLinear q) := by
    show toSRGB (luminance (toLinear q) (toLinear q) (toLinear q)) = _
    congr 1
    unfold luminance
    ring
  rw [g] at za
  have n := toSRGB_toLinear_near (q : ℝ)
  have near' : |(q : ℝ) - v / m| ≤ 1 / 2 ^ 53 := by
    have := (Rat.cast_le (K := ℝ)).2 near
    push_cast at this
    exact this
  have key : |(s : ℝ) - v / m| ≤ 1 / 2 ^ 18 := by
    rw [abs_le] at *
    norm_num at *
    constructor <;> linarith
  have : (((|s - v / m| : ℚ)) : ℝ) ≤ ((1 / 2 ^ 18 : ℚ) : ℝ) := by
    push_cast
    exact key
  exact Rat.cast_le.1 this

/-- UInt and Int, from the integer image to the adjusted image, for all images of integers, grey sRGB ones included: the
floats are exactly the integers of the source, shifted to the signed range for Int. -/
theorem C32_source_srgb (P : AccuratePow Lm) {FI : FreeImage Dbl} (F : LawfulFI (Arith.ieee Lm) FI)
    (W : ConvertsWell (Arith.ieee Lm) FI) {i : Image Dbl} (hi : ImgOk (Arith.ieee Lm) i)
    (hf : i.format ∈ sources) {type : TType} (ht : type ∈ [TType.UInt, .Int]) :
    ∃ r, adjustImageValueRange (Arith.ieee Lm) FI i type .Invalid = .ok r ∧
      (r = none → FI.alloc (floatOf i.format) i.bmp.width i.bmp.height = none) ∧
      ∀ j, r = some j → j.format = floatOf i.format ∧ j.bmp.width = i.bmp.width ∧
        j.bmp.height = i.bmp.height ∧ ∀ y, y < i.bmp.height → ∀ x, x < i.bmp.width →
          j.bmp.px y x = .nums ((integers i.format (i.bmp.px y x)).map
            (fun mv => .fin ((mv.2 + lowest type mv.1 : ℤ) : ℚ))) :=
  C32_source_partial Lm F W hi hf (.inr (.inr (.inr (grey_stands P)))) ht

/-- SNorm, in the same way: the integer `v` of `m` becomes `2 v/m - 1` to within 2^-16, inside of -1 to 1. -/
theorem C32_snorm_srgb (P : AccuratePow Lm) {FI : FreeImage Dbl} (F : LawfulFI (Arith.ieee Lm) FI)
    (W : ConvertsWell (Arith.ieee Lm) FI) {i : Image Dbl} (hi : ImgOk (Arith.ieee Lm) i) (hf : i.format ∈ sources) :
    ∃ r, adjustImageValueRange (Arith.ieee Lm) FI i .SNorm .Invalid = .ok r ∧
      (r = none → FI.alloc (floatOf i.format) i.bmp.width i.bmp.height = none) ∧
      ∀ j, r = some j → j.format = floatOf i.format ∧ j.bmp.width = i.bmp.width ∧
        j.bmp.height = i.bmp.height ∧ ∀ y, y < i.bmp.height → ∀ x, x < i.bmp.width →
          ∃ l, j.bmp.px y x = .nums l ∧ List.Forall₂ (fun (d : Dbl) mv => ∃ s : ℚ, d = .fin s ∧ -1 ≤ s ∧ s ≤ 1 ∧
            |s - (2 * (mv.2 / mv.1) - 1)| ≤ 1 / 2 ^ 16) l (integers i.format (i.bmp.px y x)) :=
  C32_snorm_source Lm F W hi hf (.inr (.inr (.inr (grey_stands P))))

/-- A grey sRGB image of 2 x 1 pixels, with a FreeImage that converts nothing. -/
example : AccuratePow Toy.accurate ∧ ∃ i j : Image Dbl, ImgOk (Arith.ieee Toy.accurate) i ∧ i.format = .Gray8 ∧
    i.colorSpace = .sRGB ∧ i.bmp.px 0 1 = .ints [101] ∧
    adjustImageValueRange (Arith.ieee Toy.accurate) (Toy.fi (Arith.ieee Toy.accurate) true) i .Int .Invalid = .ok (some j) ∧
    j.bmp.px 0 1 = .nums [.fin (-27)] := by
  have ok : ImgOk (Arith.ieee Toy.accurate) ⟨.Gray8, .sRGB, ⟨2, 1, fun _ x => .ints [100 + x]⟩⟩ := by
    intro y x _ hx
    have hx : x < 2 := hx
    show 0 ≤ (100 + (x : ℤ)) ∧ (100 + (x : ℤ)) ≤ ((255 : ℕ) : ℤ)
    omega
  obtain ⟨r, e, hn, h⟩ := C32_source_srgb (type := .Int) Toy.accurate_pow (Toy.fi_ieee Toy.accurate true)
    (by intro f b b' cs _ _ h; cases h) ok (by simp [sources]) (by simp)
  cases r with
  | none =>
    exfalso
    have := hn rfl
    simp [Toy.fi, floatOf] at this
  | some j =>
    refine ⟨Toy.accurate_pow, _, j, ok, rfl, rfl, rfl, e, ?_⟩
    obtain ⟨-, -, -, h⟩ := h j rfl
    rw [h 0 (by norm_num) 1 (by norm_num)]
    simp only [integers, List.map_cons, List.map_nil, lowest, if_true]
    norm_num

end Cuttlefish
