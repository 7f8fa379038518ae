import Verif.Spec.Tone
import Verif.Spec.ToyImage
import Verif.Proofs.ImageMap
import Verif.Proofs.Srgb
import Verif.Props.C29
/-
C47: pre-multiplied alpha and grayscale.
-/
namespace Cuttlefish
open Spec

theorem preMultiply_eq (cs : ColorSpace) (c : Color ℝ) : preMultiply Arith.exact cs c = multiplied cs c := by
  cases cs <;> simp [preMultiply, multiplied, onColor, encoded, light, exact_toLinear, exact_toSRGB] <;>
    simp [Arith.exact]

theorem grayscaleColor_eq (cs : ColorSpace) (c : Color ℝ) : grayscaleColor Arith.exact cs c = greyed cs c := by
  have h (r g b : ℝ) : Arith.exact.toGrayscale r g b = luminance r g b := by
    simp only [Arith.toGrayscale, Arith.exact, luminance]
    push_cast
    ring
  cases cs <;> simp [grayscaleColor, greyed, onColor, encoded, light, exact_toLinear, exact_toSRGB, h]

theorem fitting_alpha {f : IFormat} (h : WithAlpha f) (c : Color ℝ) : Fitting f c := by
  rcases h with rfl | rfl | rfl <;> exact ⟨by simp, by simp [intRange]⟩

/-- Pre-multiplication replaces every colour by the one whose light is multiplied by alpha, stored in the format of
the image; format, colour space and size stay. -/
theorem C47_premultiply {i : Image ℝ} (hi : ImgOk Arith.exact i) (hf : WithAlpha i.format) :
    ∃ j, i.preMultiplyAlpha Arith.exact = .ok j ∧ ImgOk Arith.exact j ∧ j.format = i.format ∧
      j.colorSpace = i.colorSpace ∧ j.bmp.width = i.bmp.width ∧ j.bmp.height = i.bmp.height ∧
      ∀ x y c, i.getPixel Arith.exact x y = .ok (some c) →
        j.getPixel Arith.exact x y = .ok (some (stored i.format (multiplied i.colorSpace c))) := by
  unfold Image.preMultiplyAlpha
  rw [if_pos (by exact hf), show preMultiply Arith.exact i.colorSpace = multiplied i.colorSpace from
    funext (preMultiply_eq _)]
  exact exact_map hi (fun x y c _ => fitting_alpha hf _)

/-- Images without an alpha channel do not change at all, in any arithmetic. -/
theorem C47_without_alpha {N : Type} (A : Arith N) {i : Image N} (hf : ¬ WithAlpha i.format) :
    i.preMultiplyAlpha A = .ok i := by
  unfold Image.preMultiplyAlpha
  rw [if_neg (by exact hf)]

/-- Alpha never changes, in any lawful arithmetic (IEEE and exact ones are), if the call has defined behaviour. -/
theorem C47_alpha {N : Type} {A : Arith N} (L : LawfulArith A) {i j : Image N} (hi : ImgOk A i)
    (h : i.preMultiplyAlpha A = .ok j ∨ i.grayscale A = .ok j) :
    ImgOk A j ∧ j.format = i.format ∧ j.bmp.width = i.bmp.width ∧ j.bmp.height = i.bmp.height ∧
      ∀ x y c, i.getPixel A x y = .ok (some c) → ∃ d, j.getPixel A x y = .ok (some d) ∧ d.a = c.a := by
  rcases h with h | h
  · unfold Image.preMultiplyAlpha at h
    split at h
    · exact mapPixels_alpha L (f := preMultiply A i.colorSpace) hi (fun c => rfl) h
    · cases h
      exact ⟨hi, rfl, rfl, rfl, fun x y c hc => ⟨c, hc, rfl⟩⟩
  · exact mapPixels_alpha L (f := grayscaleColor A i.colorSpace) hi (fun c => rfl) h

theorem light_back {cs : ColorSpace} {c : ℝ} (h : cs = .sRGB → c ≤ 0.040449936 ∨ 0.04045 < c) :
    encoded cs (light cs c) = c := by
  cases cs
  · rfl
  · exact toSRGB_toLinear (h rfl)

/-- Opaque colours stay (in sRGB except in the gap next to the threshold, see C29) and invisible ones become black. -/
theorem C47_opaque (cs : ColorSpace) (c : Color ℝ) :
    (c.a = 1 → (∀ v ∈ [c.r, c.g, c.b], ¬ Gap cs v) → multiplied cs c = c) ∧
    (c.a = 0 → multiplied cs c = ⟨0, 0, 0, 0⟩) := by
  have gap {v : ℝ} (h : ¬ Gap cs v) : encoded cs (light cs v) = v := by
    refine light_back ?_
    rintro rfl
    by_contra hh
    simp only [not_or, not_le, not_lt] at hh
    exact h hh
  refine ⟨?_, ?_⟩
  · intro h1 h2
    obtain ⟨r, g, b, a⟩ := c
    dsimp only at h1
    subst h1
    simp only [List.mem_cons, List.not_mem_nil, or_false, forall_eq_or_imp, forall_eq] at h2
    simp only [multiplied, onColor, mul_one, gap h2.1, gap h2.2.1, gap h2.2.2]
  · intro h
    have e : encoded cs 0 = 0 := by
      cases cs
      · rfl
      · exact (toSRGB_low (by norm_num)).trans (zero_mul _)
    simp only [multiplied, onColor, h, mul_zero, e]

/-- In a linear image with values in [0, 1] a pre-multiplied channel is neither above alpha nor above its old value. -/
theorem C47_bounds (c : Color ℝ) (ha : 0 ≤ c.a ∧ c.a ≤ 1) {v : ℝ} (hv : 0 ≤ v ∧ v ≤ 1) :
    0 ≤ encoded .Linear (light .Linear v * c.a) ∧ encoded .Linear (light .Linear v * c.a) ≤ c.a ∧
      encoded .Linear (light .Linear v * c.a) ≤ v := by
  simp only [encoded, light, id]
  refine ⟨mul_nonneg hv.1 ha.1, ?_, ?_⟩
  · nlinarith
  · nlinarith

theorem luminance_grey (v : ℝ) : luminance v v v = v := by
  unfold luminance
  ring

theorem greyed_grey {cs : ColorSpace} {v a : ℝ} (h : ¬ Gap cs v) : greyed cs ⟨v, v, v, a⟩ = ⟨v, v, v, a⟩ := by
  have : encoded cs (light cs v) = v := by
    refine light_back ?_
    rintro rfl
    by_contra hh
    simp only [not_or, not_le, not_lt] at hh
    exact h hh
  simp only [greyed, onColor, luminance_grey, this]

/-- Integers are never in the gap. -/
theorem gap_int (cs : ColorSpace) (v : ℤ) : ¬ Gap cs v := by
  cases cs
  all_goals
    simp only [Gap]
    rintro ⟨h1, h2⟩
    rcases lt_or_ge v 1 with h | h
    · have : (v : ℝ) ≤ 0 := by exact_mod_cast (by omega : v ≤ 0)
      linarith
    · have : (1 : ℝ) ≤ v := by exact_mod_cast h
      linarith

/-- Grayscale replaces every colour by the grey of its luminance, stored in the format of the image; this is defined
for every image. -/
theorem C47_grayscale {i : Image ℝ} (hi : ImgOk Arith.exact i) :
    ∃ j, i.grayscale Arith.exact = .ok j ∧ ImgOk Arith.exact j ∧ j.format = i.format ∧
      j.colorSpace = i.colorSpace ∧ j.bmp.width = i.bmp.width ∧ j.bmp.height = i.bmp.height ∧
      ∀ x y c, i.getPixel Arith.exact x y = .ok (some c) →
        j.getPixel Arith.exact x y = .ok (some (stored i.format (greyed i.colorSpace c))) := by
  unfold Image.grayscale
  rw [show grayscaleColor Arith.exact i.colorSpace = greyed i.colorSpace from funext (grayscaleColor_eq _)]
  refine exact_map hi ?_
  intro x y c hc
  obtain ⟨h1, h2, h3⟩ := exact_read hi hc |>.2, (exact_read hi hc).1, hc
  refine ⟨h1.1, ?_⟩
  intro lo hi' hr
  have hg : ∃ v : ℤ, c = ⟨v, v, v, 1⟩ := by
    cases hf : i.format <;> rw [hf] at hr h2 <;> simp only [intRange, reduceCtorEq] at hr
    all_goals exact ⟨whole c.r, h2.symm⟩
  obtain ⟨v, rfl⟩ := hg
  rw [greyed_grey (gap_int _ v)]
  exact h1.2 lo hi' hr

/-- The result is a grey between the darkest and the brightest channel, in light. -/
theorem C47_grey_between (cs : ColorSpace) (c : Color ℝ) {lo hi : ℝ}
    (hr : lo ≤ light cs c.r ∧ light cs c.r ≤ hi) (hg : lo ≤ light cs c.g ∧ light cs c.g ≤ hi)
    (hb : lo ≤ light cs c.b ∧ light cs c.b ≤ hi) :
    (greyed cs c).r = (greyed cs c).g ∧ (greyed cs c).g = (greyed cs c).b ∧ (greyed cs c).a = c.a ∧
    ∃ y, (greyed cs c).r = encoded cs y ∧ lo ≤ y ∧ y ≤ hi := by
  refine ⟨rfl, rfl, rfl, _, rfl, ?_, ?_⟩ <;> unfold luminance <;> linarith

/-- A grey image does not change (in sRGB except in the gap): doing it twice is the same as once. -/
theorem C47_grey_fixed {i j : Image ℝ} (hi : ImgOk Arith.exact i) (h : i.grayscale Arith.exact = .ok j) {x y : Nat}
    {v a : ℝ} (hc : i.getPixel Arith.exact x y = .ok (some ⟨v, v, v, a⟩)) (hv : ¬ Gap i.colorSpace v) :
    j.getPixel Arith.exact x y = .ok (some ⟨v, v, v, a⟩) := by
  obtain ⟨j', e, -, -, -, -, -, h6⟩ := C47_grayscale hi
  rw [h] at e
  cases e
  have := h6 x y _ hc
  rw [greyed_grey hv, (exact_read hi hc).1] at this
  exact this

/-- In IEEE arithmetic the luminance of a grey is not exactly the grey, and integer formats drop the fraction: an
image with the value 5 has the value 4 afterwards. -/
theorem C47_fails_integers (L : Libm) : ∃ i j : Image Dbl, ImgOk (Arith.ieee L) i ∧ i.format = .UInt16 ∧
    i.colorSpace = .Linear ∧ i.getPixel (Arith.ieee L) 0 0 = .ok (some ⟨.fin 5, .fin 5, .fin 5, .fin 1⟩) ∧
    i.grayscale (Arith.ieee L) = .ok j ∧
    j.getPixel (Arith.ieee L) 0 0 = .ok (some ⟨.fin 4, .fin 4, .fin 4, .fin 1⟩) := by
  refine ⟨⟨.UInt16, .Linear, ⟨1, 1, fun _ _ => .ints [5]⟩⟩, ⟨.UInt16, .Linear, ⟨1, 1, fun y' x' =>
    if y' = 0 ∧ x' = 0 then .ints [4] else .ints [5]⟩⟩, ?_, rfl, rfl, ?_, ?_, ?_⟩
  · intro y x _ _
    simp [PxOk, Upto]
  · have e5 : Dbl.ofQ ((5 : ℤ) : ℚ) = .fin 5 := by decide +kernel
    have e1 : Dbl.ofQ 1 = .fin 1 := ofQ_one
    rw [getPixel_in (by norm_num) (by norm_num)]
    simp only [getPixelImpl, Arith.ieee, e5, e1, Res.ok_bind]
  · have c : F32.cast 0 (2 ^ 16 - 1) (F32.addWith Dbl.ofQ (F32.addWith Dbl.ofQ (F32.mulWith Dbl.ofQ
        (Dbl.ofQ ((5 : ℤ) : ℚ)) (Dbl.ofQ 0.2126)) (F32.mulWith Dbl.ofQ (Dbl.ofQ ((5 : ℤ) : ℚ)) (Dbl.ofQ 0.7152)))
        (F32.mulWith Dbl.ofQ (Dbl.ofQ ((5 : ℤ) : ℚ)) (Dbl.ofQ 0.0722))) = .ok 4 := by decide +kernel
    have h : setPixelNoGrayscaleImpl (Arith.ieee L) .UInt16 (grayscaleColor (Arith.ieee L) .Linear
        ⟨Dbl.ofQ ((5 : ℤ) : ℚ), Dbl.ofQ ((5 : ℤ) : ℚ), Dbl.ofQ ((5 : ℤ) : ℚ), Dbl.ofQ 1⟩) = .ok (.ints [4]) := by
      simp only [setPixelNoGrayscaleImpl, grayscaleColor, Arith.toGrayscale, Arith.ieee, reduceCtorEq, if_false, c,
        Res.ok_bind]
    have e : getPixelImpl (Arith.ieee L) .UInt16 (.ints [5]) =
        .ok ⟨Dbl.ofQ ((5 : ℤ) : ℚ), Dbl.ofQ ((5 : ℤ) : ℚ), Dbl.ofQ ((5 : ℤ) : ℚ), Dbl.ofQ 1⟩ := rfl
    rw [show ((5 : ℤ) : ℚ) = 5 by norm_num] at h e
    simp [Image.grayscale, Image.mapPixels, steps, loop, Image.get, Image.set, Image.put, Bitmap.read, Bitmap.write,
      List.range'_succ, e, h]
  · have e4 : Dbl.ofQ 4 = .fin 4 := by decide +kernel
    have e1 : Dbl.ofQ 1 = .fin 1 := ofQ_one
    rw [getPixel_in (by norm_num) (by norm_num)]
    simp [getPixelImpl, Arith.ieee, e4, e1]

/-- An image to which the theorems apply. -/
example : ∃ i : Image ℝ, ImgOk Arith.exact i ∧ WithAlpha i.format ∧ i.colorSpace = .sRGB ∧
    i.getPixel Arith.exact 1 0 = .ok (some ⟨0.5, 0.25, 1, 0.75⟩) ∧
    multiplied .Linear (⟨0.5, 0.25, 1, 0.75⟩ : Color ℝ) = ⟨0.375, 0.1875, 0.75, 0.75⟩ := by
  refine ⟨⟨.RGBAF, .sRGB, ⟨2, 1, fun _ _ => .nums [0.5, 0.25, 1, 0.75]⟩⟩, ?_, Or.inr (Or.inr rfl), rfl, ?_, ?_⟩
  · intro y x _ _
    simp [PxOk, Arith.exact]
  · rw [getPixel_in (by norm_num) (by norm_num)]
    rfl
  · simp only [multiplied, onColor, encoded, light, id, Color.mk.injEq]
    norm_num

end Cuttlefish
