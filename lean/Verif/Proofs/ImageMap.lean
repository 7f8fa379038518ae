import Verif.Proofs.Pixels
import Verif.Proofs.ImageGeom
import Verif.Proofs.Exact
/-
Loops that replace every pixel of an image.
-/
namespace Cuttlefish
open Spec
variable {N : Type} {A : Arith N}

theorem mapPixels_spec (L : LawfulArith A) {i : Image N} (hi : ImgOk A i) {f : Color N → Color N}
    (hf : ∀ y x, y < i.bmp.height → x < i.bmp.width → ∀ c, getPixelImpl A i.format (i.bmp.px y x) = .ok c →
      ∃ p, setPixelNoGrayscaleImpl A i.format (f c) = .ok p) :
    ∃ j, i.mapPixels A f = .ok j ∧ ImgOk A j ∧ j.format = i.format ∧ j.colorSpace = i.colorSpace ∧
      j.bmp.width = i.bmp.width ∧ j.bmp.height = i.bmp.height ∧
      ∀ y x, y < i.bmp.height → x < i.bmp.width → ∃ c, getPixelImpl A i.format (i.bmp.px y x) = .ok c ∧
        setPixelNoGrayscaleImpl A i.format (f c) = .ok (j.bmp.px y x) := by
  obtain ⟨j, e, h1, h2, h3, h4, h5⟩ := write_grid (dst := i) (h := i.bmp.height) (w := i.bmp.width)
    (q := fun y x => (y, x))
    (P := fun y x p => ∃ c, getPixelImpl A i.format (i.bmp.px y x) = .ok c ∧
      setPixelNoGrayscaleImpl A i.format (f c) = .ok p)
    (body := fun y x j => do
      let c ← j.get A y x
      j.set A y x (f c)) (by
      intro y hy x hx d df dw dh dp
      obtain ⟨c, ec⟩ := get_px (hi y x hy hx)
      obtain ⟨p, ep⟩ := hf y x hy hx c ec
      refine ⟨p, ⟨c, ec, ep⟩, ?_⟩
      have eg : d.get A y x = .ok c := by rw [Image.get_eq (by omega) (by omega), df, dp y x rfl, ec]
      rw [eg, Res.ok_bind]
      exact Image.set_ok (by omega) (by omega) (by rw [df]; exact ep))
    (by intro y _ x _ y' _ x' _ h; simpa using h)
  refine ⟨j, e, ?_, h1, h2, h3, h4, fun y x hy hx => h5 y hy x hx⟩
  intro y x hy hx
  obtain ⟨c, -, ep⟩ := h5 y (by omega) x (by omega)
  rw [h1]
  exact set_px L ep

/-- The same in terms of `getPixel`. -/
theorem mapPixels_get (L : LawfulArith A) {i j : Image N} {f : Color N → Color N} (hi : ImgOk A i)
    (hj : ImgOk A j) (hfmt : j.format = i.format) (hw : j.bmp.width = i.bmp.width)
    (hh : j.bmp.height = i.bmp.height)
    (h : ∀ y x, y < i.bmp.height → x < i.bmp.width → ∃ c, getPixelImpl A i.format (i.bmp.px y x) = .ok c ∧
        setPixelNoGrayscaleImpl A i.format (f c) = .ok (j.bmp.px y x))
    {x y : Nat} {c : Color N} (hc : i.getPixel A x y = .ok (some c)) :
    ∃ p d, PxOk A i.format (i.bmp.px (i.bmp.height - y - 1) x) ∧
      getPixelImpl A i.format (i.bmp.px (i.bmp.height - y - 1) x) = .ok c ∧
      setPixelNoGrayscaleImpl A i.format (f c) = .ok p ∧ getPixelImpl A i.format p = .ok d ∧
      j.getPixel A x y = .ok (some d) := by
  by_cases hin : x < i.bmp.width ∧ y < i.bmp.height
  · rw [getPixel_in hin.1 hin.2] at hc
    obtain ⟨c', e1, e2⟩ := Res.bind_eq_ok.1 hc
    cases e2
    obtain ⟨c', e3, e4⟩ := h (i.bmp.height - y - 1) x (by omega) hin.1
    rw [e1] at e3
    cases e3
    have hp := hj (i.bmp.height - y - 1) x (by omega) (by omega)
    obtain ⟨d, ed⟩ := get_px hp
    rw [hfmt] at ed
    refine ⟨_, d, hi _ _ (by omega) hin.1, e1, e4, ed, ?_⟩
    rw [getPixel_in (by omega) (by omega), hh, hfmt, ed]
    rfl
  · rw [Image.getPixel, if_pos (by omega)] at hc
    cases hc

theorem getPixel_some {i : Image N} {x y : Nat} {c : Color N} (h : i.getPixel A x y = .ok (some c)) :
    x < i.bmp.width ∧ y < i.bmp.height ∧
      getPixelImpl A i.format (i.bmp.px (i.bmp.height - y - 1) x) = .ok c := by
  by_cases hin : x < i.bmp.width ∧ y < i.bmp.height
  · rw [getPixel_in hin.1 hin.2] at h
    obtain ⟨c', e1, e2⟩ := Res.bind_eq_ok.1 h
    cases e2
    exact ⟨hin.1, hin.2, e1⟩
  · rw [Image.getPixel, if_pos (by omega)] at h
    cases h

/-- The pixel of scanline `y`, read with `getPixel`. -/
theorem getPixel_line {i : Image N} {x y : Nat} {c : Color N} (hy : y < i.bmp.height) (hx : x < i.bmp.width)
    (h : getPixelImpl A i.format (i.bmp.px y x) = .ok c) :
    i.getPixel A x (i.bmp.height - 1 - y) = .ok (some c) := by
  rw [getPixel_in hx (by omega), show i.bmp.height - (i.bmp.height - 1 - y) - 1 = y by omega, h]
  rfl

theorem exact_read {i : Image ℝ} (hi : ImgOk Arith.exact i) {x y : Nat} {c : Color ℝ}
    (h : i.getPixel Arith.exact x y = .ok (some c)) : stored i.format c = c ∧ Fitting i.format c := by
  obtain ⟨h1, h2, h3⟩ := getPixel_some h
  exact exact_fixed (hi _ _ (by omega) h1) h3

/-- Replacing every colour in exact arithmetic. -/
theorem exact_map {i : Image ℝ} (hi : ImgOk Arith.exact i) {f : Color ℝ → Color ℝ}
    (hfit : ∀ x y c, i.getPixel Arith.exact x y = .ok (some c) → Fitting i.format (f c)) :
    ∃ j, i.mapPixels Arith.exact f = .ok j ∧ ImgOk Arith.exact j ∧ j.format = i.format ∧
      j.colorSpace = i.colorSpace ∧ j.bmp.width = i.bmp.width ∧ j.bmp.height = i.bmp.height ∧
      ∀ x y c, i.getPixel Arith.exact x y = .ok (some c) →
        j.getPixel Arith.exact x y = .ok (some (stored i.format (f c))) := by
  obtain ⟨j, e, h1, h2, h3, h4, h5, h6⟩ := mapPixels_spec lawful_exact hi (f := f) (by
    intro y x hy hx c hc
    obtain ⟨p, e, -⟩ := exact_store (hfit x _ c (getPixel_line hy hx hc))
    exact ⟨p, e⟩)
  refine ⟨j, e, h1, h2, h3, h4, h5, ?_⟩
  intro x y c hc
  obtain ⟨p, d, h7, h8, h9, h10, h11⟩ := mapPixels_get lawful_exact hi h1 h2 h4 h5 h6 hc
  obtain ⟨p', e1, -, e2⟩ := exact_store (hfit x y c hc)
  rw [h9] at e1
  cases e1
  rw [h10] at e2
  cases e2
  exact h11

/-- A loop that keeps `P`, if it is defined. -/
theorem loop_keeps {S : Type} {P : S → Prop} {f : Nat → S → Res S} {is : List Nat} {s s' : S}
    (hs : ∀ i s s', i ∈ is → P s → f i s = .ok s' → P s') (h0 : P s) (h : loop is f s = .ok s') : P s' := by
  induction is generalizing s with
  | nil => cases h; exact h0
  | cons i is ih =>
    obtain ⟨s1, e1, e2⟩ := Res.bind_eq_ok.1 h
    exact ih (fun i s s' hi => hs i s s' (List.mem_cons_of_mem _ hi)) (hs i s s1 (by simp) h0 e1) e2

/-- A colour stored with the alpha that was read is read with this alpha. -/
theorem alpha_kept (L : LawfulArith A) {f : IFormat} {p p' : Px N} {c d c' : Color N} (hp : PxOk A f p)
    (hc : getPixelImpl A f p = .ok c) (ha : d.a = c.a) (hs : setPixelNoGrayscaleImpl A f d = .ok p')
    (hc' : getPixelImpl A f p' = .ok c') : c'.a = c.a := by
  have hp' := set_px L hs
  cases f
  case RGBA8 =>
    unfold PxOk at hp
    split at hp <;> simp only [reduceCtorEq] at *
    simp only [getPixelImpl, Res.ok.injEq] at hc
    subst hc
    simp only [setPixelNoGrayscaleImpl, setPixelCommon, ha,
      L.norm_int (v := _) (by simp : 255 ∈ [31, 63, 255, 65535]) hp.2.2.2.1 hp.2.2.2.2 le_rfl] at hs
    obtain ⟨r, e1, hs⟩ := Res.bind_eq_ok.1 hs
    obtain ⟨g, e2, hs⟩ := Res.bind_eq_ok.1 hs
    obtain ⟨b, e3, hs⟩ := Res.bind_eq_ok.1 hs
    cases hs
    cases hc'
    rfl
  case RGBA16 =>
    unfold PxOk at hp
    split at hp <;> simp only [reduceCtorEq] at *
    simp only [getPixelImpl, Res.ok.injEq] at hc
    subst hc
    simp only [setPixelNoGrayscaleImpl, setPixelCommon, ha,
      L.norm_int (v := _) (by simp : 65535 ∈ [31, 63, 255, 65535]) hp.2.2.2.1 hp.2.2.2.2 le_rfl] at hs
    obtain ⟨r, e1, hs⟩ := Res.bind_eq_ok.1 hs
    obtain ⟨g, e2, hs⟩ := Res.bind_eq_ok.1 hs
    obtain ⟨b, e3, hs⟩ := Res.bind_eq_ok.1 hs
    cases hs
    cases hc'
    rfl
  case RGBAF =>
    unfold PxOk at hp
    split at hp <;> simp only [reduceCtorEq] at *
    simp only [getPixelImpl, Res.ok.injEq] at hc
    subst hc
    simp only [setPixelNoGrayscaleImpl, setPixelCommon, ha, hp.2.2.2, Res.ok.injEq] at hs
    subst hs
    cases hc'
    rfl
  case Invalid =>
    unfold PxOk at hp
    split at hp <;> simp only [reduceCtorEq] at *
  all_goals
    unfold PxOk at hp hp'
    split at hp <;> simp only [reduceCtorEq] at *
    split at hp' <;> simp only [reduceCtorEq] at *
    simp only [getPixelImpl, Res.ok.injEq] at hc hc'
    try rw [← hc, ← hc']

/-- The invariant of the loops that keep alpha. -/
def AlphaKept (A : Arith N) (i j : Image N) : Prop :=
  ImgOk A j ∧ j.format = i.format ∧ j.bmp.width = i.bmp.width ∧ j.bmp.height = i.bmp.height ∧
    ∀ y x, y < i.bmp.height → x < i.bmp.width → ∀ c d, getPixelImpl A i.format (i.bmp.px y x) = .ok c →
      getPixelImpl A i.format (j.bmp.px y x) = .ok d → d.a = c.a

/-- A replacement that keeps alpha, if it is defined. -/
theorem mapPixels_alpha (L : LawfulArith A) {i j : Image N} {f : Color N → Color N} (hi : ImgOk A i)
    (hf : ∀ c, (f c).a = c.a) (h : i.mapPixels A f = .ok j) :
    ImgOk A j ∧ j.format = i.format ∧ j.bmp.width = i.bmp.width ∧ j.bmp.height = i.bmp.height ∧
      ∀ x y c, i.getPixel A x y = .ok (some c) → ∃ d, j.getPixel A x y = .ok (some d) ∧ d.a = c.a := by
  obtain ⟨h1, h2, h3, h4, h5⟩ := loop_keeps (P := AlphaKept A i) (by
    intro y s s' hy hs e
    refine loop_keeps (P := AlphaKept A i) ?_ hs e
    clear e s'
    intro x k k' hx hk e
    obtain ⟨k1, k2, k3, k4, k5⟩ := hk
    have hy' : y < k.bmp.height := by simp [steps] at hy; omega
    have hx' : x < k.bmp.width := by simp [steps] at hx; omega
    obtain ⟨c, e1, e⟩ := Res.bind_eq_ok.1 e
    rw [Image.get_eq hy' hx'] at e1
    obtain ⟨p, e2, e3⟩ := Res.bind_eq_ok.1 e
    rw [Image.put_ok hy' hx'] at e3
    cases e3
    refine ⟨?_, k2, k3, k4, ?_⟩
    · intro y' x' hy2 hx2
      simp only [Bitmap.upd]
      split
      · exact set_px L e2
      · exact k1 y' x' hy2 hx2
    · intro y' x' hy2 hx2 c0 d hc0 hd
      simp only [Bitmap.upd] at hd
      split at hd
      · rename_i heq
        obtain ⟨rfl, rfl⟩ := heq
        rw [k2] at e1 e2
        have := alpha_kept L (by rw [← k2]; exact k1 _ _ hy' hx') e1 (hf c) e2 hd
        rw [this]
        exact k5 _ _ hy2 hx2 _ _ hc0 e1
      · exact k5 y' x' hy2 hx2 c0 d hc0 hd)
    ⟨hi, rfl, rfl, rfl, by
      intro y x _ _ c d e1 e2
      rw [e1] at e2
      cases e2
      rfl⟩ h
  refine ⟨h1, h2, h3, h4, ?_⟩
  intro x y c hc
  obtain ⟨g1, g2, g3⟩ := getPixel_some hc
  obtain ⟨d, ed⟩ := get_px (h1 (i.bmp.height - y - 1) x (by omega) (by omega))
  refine ⟨d, ?_, h5 _ _ (by omega) g1 c d g3 (by rw [← h2]; exact ed)⟩
  rw [getPixel_in (by omega) (by omega), h4, ed]
  rfl

end Cuttlefish
