import Verif.Props.C47
import Verif.Proofs.ToneIeee
import Verif.Spec.ToyPow
/-
C47 with the rounding of doubles.

`multiplied`, `greyed` and `WithAlpha` are in `Verif/Spec/Tone.lean`, `RealColor`, `NearChannels`, `halfStep` and `Tonal`
in `Verif/Spec/Near.lean`.
-/
namespace Cuttlefish
open Spec
variable {Lm : Libm}

/-- Images of 5 to 16 bits per channel have colours from 0 to 1, so that the theorems below apply to all of them. -/
theorem C47_bits_unit {i : Image Dbl} (hi : ImgOk (Arith.ieee Lm) i) (hf : i.format ∈ sources) : UnitImage Lm i := by
  rintro c ⟨x, y, e⟩
  obtain ⟨h1, h2, h3⟩ := getPixel_some e
  exact unit_source hf (hi _ _ (by omega) h1) h3

/-- Pre-multiplication with the rounding of doubles: it is defined, and every colour is within half a step of the format
and 3e-7 of the one whose light is multiplied by alpha.

Partial: not for integer images in sRGB nor complex images. -/
theorem C47_premultiply_rounded_partial {i : Image Dbl} (hi : ImgOk (Arith.ieee Lm) i) (hf : WithAlpha i.format)
    (hu : UnitImage Lm i) (P : i.colorSpace = .sRGB → AccuratePow Lm) :
    ∃ j, i.preMultiplyAlpha (Arith.ieee Lm) = .ok j ∧ ImgOk (Arith.ieee Lm) j ∧ j.format = i.format ∧
      j.colorSpace = i.colorSpace ∧ j.bmp.width = i.bmp.width ∧ j.bmp.height = i.bmp.height ∧ UnitImage Lm j ∧
      ∀ x y c c', i.getPixel (Arith.ieee Lm) x y = .ok (some c) → RealColor c c' →
        ∃ d, j.getPixel (Arith.ieee Lm) x y = .ok (some d) ∧ d.a = c.a ∧
          NearChannels (halfStep i.format + 3 / 10 ^ 7) d (multiplied i.colorSpace c') := by
  have near (c : Color Dbl) (c' : Color ℝ) (hc : UnitColor c) (hr : RealColor c c') := (
    have h := unit_iff.1 hc
    And.intro (multiplied_near P h.1 h.2.2.2 hr.1 hr.2.2.2) (And.intro (multiplied_near P h.2.1 h.2.2.2 hr.2.1 hr.2.2.2)
      (multiplied_near P h.2.2.1 h.2.2.2 hr.2.2.1 hr.2.2.2)))
  obtain ⟨j, e, h1, h2, h3, h4, h5, h6, h7⟩ := map_near hi (g := preMultiply (Arith.ieee Lm) i.colorSpace)
    (G := multiplied i.colorSpace) (e := 2.7 / 10 ^ 7) (by rcases hf with h | h | h <;> rw [h] <;> simp [Tonal]) hu
    (fun _ => rfl) (fun _ => rfl) (by
      intro c hc
      have h := unit_iff.1 hc
      have real : RealColor c ⟨(h.1.choose : ℝ), (h.2.1.choose : ℝ), (h.2.2.1.choose : ℝ), (h.2.2.2.choose : ℝ)⟩ :=
        ⟨⟨_, h.1.choose_spec.1, by simp⟩, ⟨_, h.2.1.choose_spec.1, by simp⟩, ⟨_, h.2.2.1.choose_spec.1, by simp⟩,
          _, h.2.2.2.choose_spec.1, by simp⟩
      obtain ⟨⟨r, er, r0, r1, -⟩, ⟨g, eg, g0, g1, -⟩, b, eb, b0, b1, -⟩ := near c _ hc real
      exact unit_iff.2 ⟨⟨r, er, r0, r1⟩, ⟨g, eg, g0, g1⟩, ⟨b, eb, b0, b1⟩, h.2.2.2⟩) (by
      rintro ⟨r, g, b, a⟩ e1 e2
      dsimp only at e1 e2
      subst e1
      subst e2
      exact ⟨rfl, rfl⟩) (by
      intro c c' hc hr
      obtain ⟨⟨r, er, -, -, ra⟩, ⟨g, eg, -, -, ga⟩, b, eb, -, -, ba⟩ := near c c' hc hr
      exact ⟨⟨r, er, ra⟩, ⟨g, eg, ga⟩, b, eb, ba⟩) (by norm_num)
  refine ⟨j, ?_, h1, h2, h3, h4, h5, h6, ?_⟩
  · unfold Image.preMultiplyAlpha
    rw [if_pos (by exact hf)]
    exact e
  · intro x y c c' hc hr
    obtain ⟨d, d1, d2, d3⟩ := h7 x y c c' hc hr
    refine ⟨d, d1, d2, ?_⟩
    rw [show halfStep i.format + 3 / 10 ^ 7 = halfStep i.format + 2.7 / 10 ^ 7 + 3 / 10 ^ 8 by norm_num; ring]
    exact d3

/-- Grayscale with the rounding of doubles: it is defined, and every colour is within half a step of the format and 3e-7
of the grey with its luminance.

Partial: integer images are in `C47_integers_rounded` (false without rounding: `C47_fails_integers`), those in sRGB and
complex images are not covered. -/
theorem C47_grayscale_rounded_partial {i : Image Dbl} (hi : ImgOk (Arith.ieee Lm) i) (hf : Tonal i.format) (hu : UnitImage Lm i)
    (P : i.colorSpace = .sRGB → AccuratePow Lm) :
    ∃ j, i.grayscale (Arith.ieee Lm) = .ok j ∧ ImgOk (Arith.ieee Lm) j ∧ j.format = i.format ∧
      j.colorSpace = i.colorSpace ∧ j.bmp.width = i.bmp.width ∧ j.bmp.height = i.bmp.height ∧ UnitImage Lm j ∧
      ∀ x y c c', i.getPixel (Arith.ieee Lm) x y = .ok (some c) → RealColor c c' →
        ∃ d, j.getPixel (Arith.ieee Lm) x y = .ok (some d) ∧ d.a = c.a ∧
          NearChannels (halfStep i.format + 3 / 10 ^ 7) d (greyed i.colorSpace c') := by
  obtain ⟨j, e, h1, h2, h3, h4, h5, h6, h7⟩ := map_near hi (g := grayscaleColor (Arith.ieee Lm) i.colorSpace)
    (G := greyed i.colorSpace) (e := 2.7 / 10 ^ 7) hf hu (fun _ => rfl) (fun _ => rfl) (by
      intro c hc
      have h := unit_iff.1 hc
      have real : RealColor c ⟨(h.1.choose : ℝ), (h.2.1.choose : ℝ), (h.2.2.1.choose : ℝ), (h.2.2.2.choose : ℝ)⟩ :=
        ⟨⟨_, h.1.choose_spec.1, by simp⟩, ⟨_, h.2.1.choose_spec.1, by simp⟩, ⟨_, h.2.2.1.choose_spec.1, by simp⟩,
          _, h.2.2.2.choose_spec.1, by simp⟩
      obtain ⟨r, er, r0, r1, -⟩ := greyed_near (Lm := Lm) P hc real
      exact unit_iff.2 ⟨⟨r, er, r0, r1⟩, ⟨r, er, r0, r1⟩, ⟨r, er, r0, r1⟩, h.2.2.2⟩) (fun _ _ _ => ⟨rfl, rfl⟩) (by
      intro c c' hc hr
      obtain ⟨r, er, -, -, ra⟩ := greyed_near (Lm := Lm) P hc hr
      exact ⟨⟨r, er, ra⟩, ⟨r, er, ra⟩, r, er, ra⟩) (by norm_num)
  refine ⟨j, e, h1, h2, h3, h4, h5, h6, ?_⟩
  intro x y c c' hc hr
  obtain ⟨d, d1, d2, d3⟩ := h7 x y c c' hc hr
  refine ⟨d, d1, d2, ?_⟩
  rw [show halfStep i.format + 3 / 10 ^ 7 = halfStep i.format + 2.7 / 10 ^ 7 + 3 / 10 ^ 8 by norm_num; ring]
  exact d3

/-- With floats of any value, infinities and NaNs included, both are defined. -/
theorem C47_floats_defined {i : Image Dbl} (hi : ImgOk (Arith.ieee Lm) i) (hf : IsFloat i.format) :
    (∃ j, i.preMultiplyAlpha (Arith.ieee Lm) = .ok j) ∧ ∃ j, i.grayscale (Arith.ieee Lm) = .ok j := by
  have all (f : Color Dbl → Color Dbl) : ∃ j, i.mapPixels (Arith.ieee Lm) f = .ok j := by
    obtain ⟨j, e, -⟩ := mapPixels_spec (lawful_ieee Lm) hi (f := f) (fun _ _ _ _ _ _ => set_float hf _)
    exact ⟨j, e⟩
  refine ⟨?_, all _⟩
  unfold Image.preMultiplyAlpha
  split
  · exact all _
  · exact ⟨i, rfl⟩

/-- The luminance of a grey integer. -/
theorem gray_integer {v : ℤ} (hv : |v| ≤ 2 ^ 32) : ∃ z : ℚ,
    (Arith.ieee Lm).toGrayscale ((Arith.ieee Lm).lit v) ((Arith.ieee Lm).lit v) ((Arith.ieee Lm).lit v) = .fin z ∧
      |z - v| ≤ 1 / 2 ^ 16 := by
  have ev : (Arith.ieee Lm).lit v = .fin v := ofQ_int (hv.trans (by norm_num))
  have hq : |(v : ℚ)| ≤ 2 ^ 32 := by exact_mod_cast hv
  have round {q : ℚ} (h : |q| ≤ 2 ^ 33) : Dbl.ofQ q = .fin (rneD q) ∧ |rneD q - q| ≤ 1 / 2 ^ 21 := by
    refine ⟨ofQ_small (h.trans (by norm_num)), ?_⟩
    have := rneD_abs (q := q) (e := 32) (by norm_num) (h.trans (by norm_num))
    exact this.trans (by norm_num [zpow_neg])
  have factor {c : ℚ} (c0 : 0 ≤ c) (c1 : c ≤ 1) : ∃ m : ℚ, (Arith.ieee Lm).mul (.fin v) (.fin (rneD c)) = .fin m ∧
      |m - c * v| ≤ 2 / 2 ^ 21 := by
    obtain ⟨w0, w1⟩ := unit_round c0 c1
    have k : |rneD c - c| ≤ 1 / 2 ^ 53 := by
      have := rneD_abs (q := c) (e := 0) (by norm_num) (by rw [abs_of_nonneg c0]; norm_num; linarith)
      exact this.trans (by norm_num [zpow_neg])
    have b : |v * rneD c| ≤ 2 ^ 33 := by
      rw [abs_mul, abs_of_nonneg w0]
      calc |(v : ℚ)| * rneD c ≤ 2 ^ 32 * 1 := by gcongr
        _ ≤ 2 ^ 33 := by norm_num
    obtain ⟨e, k'⟩ := round b
    refine ⟨_, e, ?_⟩
    have k2 : |(v : ℚ) * rneD c - c * v| ≤ 1 / 2 ^ 21 := by
      rw [show (v : ℚ) * rneD c - c * v = v * (rneD c - c) by ring, abs_mul]
      calc |(v : ℚ)| * |rneD c - c| ≤ 2 ^ 32 * (1 / 2 ^ 53) := by gcongr
        _ = _ := by norm_num
    have := abs_add_le (rneD (v * rneD c) - v * rneD c) (v * rneD c - c * v)
    rw [show rneD (v * rneD c) - v * rneD c + (v * rneD c - c * v) = rneD (v * rneD c) - c * v by ring] at this
    linarith
  obtain ⟨m1, e1, a1⟩ := factor (c := 0.2126) (by norm_num) (by norm_num)
  obtain ⟨m2, e2, a2⟩ := factor (c := 0.7152) (by norm_num) (by norm_num)
  obtain ⟨m3, e3, a3⟩ := factor (c := 0.0722) (by norm_num) (by norm_num)
  have b1 : |m1 + m2| ≤ 2 ^ 33 := by
    rw [abs_le] at *
    norm_num at *
    constructor <;> linarith
  obtain ⟨e4, a4⟩ := round b1
  have b2 : |rneD (m1 + m2) + m3| ≤ 2 ^ 33 := by
    rw [abs_le] at *
    norm_num at *
    constructor <;> linarith
  obtain ⟨e5, a5⟩ := round b2
  refine ⟨rneD (rneD (m1 + m2) + m3), ?_, ?_⟩
  · unfold Arith.toGrayscale
    rw [gray_red, gray_green, gray_blue, ev, e1, e2, e3]
    show (Arith.ieee Lm).add (Dbl.ofQ (m1 + m2)) _ = _
    rw [e4]
    exact e5
  · rw [abs_le] at *
    norm_num at *
    constructor <;> linarith

/-- Truncating a number close to an integer. -/
theorem cast_close {lo hi v : ℤ} {q : ℚ} (h : |q - v| ≤ 1 / 2 ^ 16) (h0 : lo ≤ v) (h1 : v ≤ hi) (l0 : lo ≤ 0) (h2 : 0 ≤ hi) :
    ∃ t, F32.cast lo hi (.fin q) = .ok t ∧ (t = v ∨ 0 < v ∧ t = v - 1 ∨ v < 0 ∧ t = v + 1) := by
  rw [abs_le] at h
  norm_num at h
  have key : ∃ t : ℤ, (if 0 ≤ q then ⌊q⌋ else -⌊-q⌋) = t ∧ (t = v ∨ 0 < v ∧ t = v - 1 ∨ v < 0 ∧ t = v + 1) := by
    split
    · rename_i q0
      have a1 : v - 1 ≤ ⌊q⌋ := Int.le_floor.2 (by push_cast; linarith)
      have a2 : ⌊q⌋ < v + 1 := Int.floor_lt.2 (by push_cast; linarith)
      have a3 : 0 ≤ ⌊q⌋ := Int.floor_nonneg.2 q0
      exact ⟨_, rfl, by omega⟩
    · rename_i q0
      have a1 : -v - 1 ≤ ⌊-q⌋ := Int.le_floor.2 (by push_cast; linarith)
      have a2 : ⌊-q⌋ < -v + 1 := Int.floor_lt.2 (by push_cast; linarith)
      have a3 : 0 ≤ ⌊-q⌋ := Int.floor_nonneg.2 (by linarith)
      exact ⟨_, rfl, by omega⟩
  obtain ⟨t, e, k⟩ := key
  refine ⟨t, ?_, k⟩
  unfold F32.cast
  simp only [e]
  rw [if_pos (by omega)]

/-- The formats of integers and the numbers that they hold. -/
theorem integer_pixel {f : IFormat} {lo hi : ℤ} (hr : intRange f = some (lo, hi)) {p : Px Dbl}
    (hp : PxOk (Arith.ieee Lm) f p) : ∃ v, p = .ints [v] ∧ lo ≤ v ∧ v ≤ hi := by
  unfold intRange at hr
  unfold PxOk at hp
  split at hr <;> simp only [Option.some.injEq, Prod.mk.injEq, reduceCtorEq] at hr
  all_goals
    obtain ⟨rfl, rfl⟩ := hr
    split at hp <;> first
      | exact ⟨_, rfl, hp.1, hp.2⟩
      | exact ⟨_, rfl, by simp only [Upto] at hp; omega, by simp only [Upto] at hp; omega⟩
      | exact hp.elim
      | (rename_i h; cases h)

/-- Grayscale of a linear image of integers, with the rounding of doubles: it is defined, and every value stays or comes
one step closer to 0.  (It should stay: `C47_fails_integers`.) -/
theorem C47_integers_rounded {i : Image Dbl} (hi : ImgOk (Arith.ieee Lm) i) {lo hi' : ℤ}
    (hf : intRange i.format = some (lo, hi')) (hcs : i.colorSpace = .Linear) :
    ∃ j, i.grayscale (Arith.ieee Lm) = .ok j ∧ ImgOk (Arith.ieee Lm) j ∧ j.format = i.format ∧
      j.bmp.width = i.bmp.width ∧ j.bmp.height = i.bmp.height ∧
      ∀ y x, y < i.bmp.height → x < i.bmp.width → ∃ v t : ℤ, i.bmp.px y x = .ints [v] ∧ j.bmp.px y x = .ints [t] ∧
        (t = v ∨ 0 < v ∧ t = v - 1 ∨ v < 0 ∧ t = v + 1) := by
  have pixel {p : Px Dbl} (hp : PxOk (Arith.ieee Lm) i.format p) {c : Color Dbl}
      (hc : getPixelImpl (Arith.ieee Lm) i.format p = .ok c) : ∃ v t : ℤ, p = .ints [v] ∧
        setPixelNoGrayscaleImpl (Arith.ieee Lm) i.format (grayscaleColor (Arith.ieee Lm) i.colorSpace c) = .ok (.ints [t]) ∧
        (t = v ∨ 0 < v ∧ t = v - 1 ∨ v < 0 ∧ t = v + 1) := by
    obtain ⟨v, rfl, v0, v1⟩ := integer_pixel hf hp
    have hb : |v| ≤ 2 ^ 32 ∧ lo ≤ 0 ∧ 0 ≤ hi' := by
      have hf := hf
      unfold intRange at hf
      split at hf <;> simp only [Option.some.injEq, Prod.mk.injEq, reduceCtorEq] at hf
      all_goals
        obtain ⟨rfl, rfl⟩ := hf
        refine ⟨abs_le.2 ⟨by omega, by omega⟩, by omega, by omega⟩
    obtain ⟨z, ez, za⟩ := gray_integer (Lm := Lm) hb.1
    obtain ⟨t, et, ht⟩ := cast_close za v0 v1 hb.2.1 hb.2.2
    refine ⟨v, t, rfl, ?_, ht⟩
    rw [hcs]
    cases hform : i.format <;> rw [hform] at hf hc <;> simp only [intRange, Option.some.injEq, Prod.mk.injEq, reduceCtorEq] at hf
    all_goals
      obtain ⟨rfl, rfl⟩ := hf
      cases hc
      simp only [setPixelNoGrayscaleImpl, setPixelCommon, grayscaleColor, reduceCtorEq, if_false, ez]
      have et : (Arith.ieee Lm).cast _ _ (.fin z) = .ok t := et
      rw [et]
      rfl
  obtain ⟨j, e, h1, h2, h3, h4, h5, h6⟩ := mapPixels_spec (lawful_ieee Lm) hi
    (f := grayscaleColor (Arith.ieee Lm) i.colorSpace) (by
      intro y x hy hx c hc
      obtain ⟨v, t, -, e, -⟩ := pixel (hi y x hy hx) hc
      exact ⟨_, e⟩)
  refine ⟨j, e, h1, h2, h4, h5, fun y x hy hx => ?_⟩
  obtain ⟨c, c1, c2⟩ := h6 y x hy hx
  obtain ⟨v, t, k1, k2, k3⟩ := pixel (hi y x hy hx) c1
  rw [c2] at k2
  exact ⟨v, t, k1, Res.ok.inj k2, k3⟩

/-- Images that meet the hypotheses: floats in sRGB, and 8 bits per channel. -/
example : (ImgOk (Arith.ieee Toy.accurate) Toy.srgb3x2 ∧ WithAlpha Toy.srgb3x2.format ∧ Tonal Toy.srgb3x2.format ∧
      UnitImage Toy.accurate Toy.srgb3x2 ∧ Toy.srgb3x2.colorSpace = .sRGB ∧ AccuratePow Toy.accurate) ∧
    ∃ i : Image Dbl, ImgOk (Arith.ieee Toy.accurate) i ∧ i.format = .RGBA8 ∧ i.format ∈ sources ∧
      i.bmp.px 0 1 = .ints [200, 100, 50, 128] := by
  refine ⟨⟨(Toy.srgb3x2_ok _).1, Or.inr (Or.inr rfl), by simp [Tonal, Toy.srgb3x2], (Toy.srgb3x2_ok _).2.2, rfl,
    Toy.accurate_pow⟩, ⟨.RGBA8, .Linear, ⟨2, 1, fun _ _ => .ints [200, 100, 50, 128]⟩⟩, ?_, rfl, by simp [sources], rfl⟩
  intro y x _ _
  simp [PxOk, Upto]

end Cuttlefish
