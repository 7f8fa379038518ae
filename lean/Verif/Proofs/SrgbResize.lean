import Verif.Proofs.SrgbIeee
import Verif.Proofs.DepthIeee
/-
Resizing sRGB images of floats with colours from 0 to 1 in IEEE arithmetic.
-/
namespace Cuttlefish
open Spec
variable {Lm : Libm} {FI : FreeImage Dbl}

theorem between_close {S : Color Dbl → Prop} {d : Color Dbl} : CloseDoubles 0 S d ↔ BetweenDoubles S d := by
  simp only [CloseDoubles, BetweenDoubles, sub_zero, add_zero]

/-- Rounding a number from 0 to 1 to single precision. -/
theorem single_near {z : ℚ} (h0 : 0 ≤ z) (h1 : z ≤ 1) :
    ∃ s : ℚ, Dbl.single (.fin z) = .fin s ∧ 0 ≤ s ∧ s ≤ 1 ∧ |(s : ℝ) - z| ≤ 3 / 10 ^ 8 := by
  obtain ⟨s, e, s0, s1⟩ := ranged_single unit_single_zero unit_single_one ⟨z, rfl, h0, h1⟩
  refine ⟨s, e, s0, s1, ?_⟩
  have e' : F32.round z = .fin s := e
  unfold F32.round at e'
  split at e'
  · cases e'
  cases e'
  have := rne_abs (q := z) (e := -1) (by norm_num) (by rw [abs_of_nonneg h0]; simpa using h1)
  have : |rne z - z| ≤ 3 / 10 ^ 8 := this.trans (by norm_num [zpow_neg])
  have : ((|rne z - z| : ℚ) : ℝ) ≤ ((3 / 10 ^ 8 : ℚ) : ℝ) := Rat.cast_le.2 this
  push_cast at this
  exact this

theorem linear_single (P : AccuratePow Lm) {q : ℚ} (q0 : 0 ≤ q) (q1 : q ≤ 1) :
    ∃ s : ℚ, Dbl.single ((Arith.ieee Lm).sRGBToLinear (.fin q)) = .fin s ∧ 0 ≤ s ∧ s ≤ 1 ∧
      |(s : ℝ) - toLinear q| ≤ 4.1 / 10 ^ 8 := by
  obtain ⟨z, e, z0, z1, za⟩ := linear_near P q0 q1
  obtain ⟨s, e', s0, s1, sa⟩ := single_near z0 z1
  refine ⟨s, by rw [e, e'], s0, s1, ?_⟩
  have := abs_add_le ((s : ℝ) - z) (z - toLinear q)
  rw [show (s : ℝ) - z + (z - toLinear q) = s - toLinear q by ring] at this
  linarith

theorem sRGB_single (P : AccuratePow Lm) {q : ℚ} (q0 : 0 ≤ q) (q1 : q ≤ 1) :
    ∃ s : ℚ, Dbl.single ((Arith.ieee Lm).linearToSRGB (.fin q)) = .fin s ∧ 0 ≤ s ∧ s ≤ 1 ∧
      |(s : ℝ) - toSRGB q| ≤ 7 / 10 ^ 8 := by
  obtain ⟨z, e, z0, z1, za⟩ := sRGB_near P q0 q1
  obtain ⟨s, e', s0, s1, sa⟩ := single_near z0 z1
  refine ⟨s, by rw [e, e'], s0, s1, ?_⟩
  have := abs_add_le ((s : ℝ) - z) (z - toSRGB q)
  rw [show (s : ℝ) - z + (z - toSRGB q) = s - toSRGB q by ring] at this
  linarith

/-- From a linear value that is not below another one, back to sRGB. -/
theorem trip_low {x l q v : ℝ} (h : l ≤ q) (hl : |l - toLinear x| ≤ 4.1 / 10 ^ 8) (hv : |v - toSRGB q| ≤ 7 / 10 ^ 8) :
    x - 1 / 10 ^ 6 ≤ v := by
  have a := (abs_le.1 (toSRGB_toLinear_near x)).1
  have b := toSRGB_move (x := toLinear x) (y := l) (e := 4.1 / 10 ^ 8) (by norm_num) (by linarith [(abs_le.1 hl).1])
  have c := toSRGB_move (x := l) (y := q) (e := 0) le_rfl (by linarith)
  have d := (abs_le.1 hv).1
  norm_num at a b c d ⊢
  linarith

theorem trip_high {x u q v : ℝ} (h : q ≤ u) (hu : |u - toLinear x| ≤ 4.1 / 10 ^ 8) (hv : |v - toSRGB q| ≤ 7 / 10 ^ 8) :
    v ≤ x + 1 / 10 ^ 6 := by
  have a := (abs_le.1 (toSRGB_toLinear_near x)).2
  have b := toSRGB_move (x := u) (y := toLinear x) (e := 4.1 / 10 ^ 8) (by norm_num) (by linarith [(abs_le.1 hu).2])
  have c := toSRGB_move (x := q) (y := u) (e := 0) le_rfl (by linarith)
  have d := (abs_le.1 hv).2
  norm_num at a b c d ⊢
  linarith

/-- One channel: values from 0 to 1 are made linear and stored; what is between the results is converted back and
stored. -/
theorem channel_trip (P : AccuratePow Lm) {x1 x2 l u q : ℚ} (h1 : 0 ≤ x1) (h1' : x1 ≤ 1) (h2 : 0 ≤ x2) (h2' : x2 ≤ 1)
    (el : Dbl.single ((Arith.ieee Lm).sRGBToLinear (.fin x1)) = .fin l)
    (eu : Dbl.single ((Arith.ieee Lm).sRGBToLinear (.fin x2)) = .fin u) (hl : l ≤ q) (hu : q ≤ u) :
    ∃ v : ℚ, Dbl.single ((Arith.ieee Lm).linearToSRGB (.fin q)) = .fin v ∧ x1 - 1 / 10 ^ 6 ≤ v ∧ v ≤ x2 + 1 / 10 ^ 6 ∧
      0 ≤ v ∧ v ≤ 1 := by
  obtain ⟨l', e1, l0, l1, la⟩ := linear_single P h1 h1'
  rw [el] at e1
  cases e1
  obtain ⟨u', e2, u0, u1, ua⟩ := linear_single P h2 h2'
  rw [eu] at e2
  cases e2
  obtain ⟨v, e3, v0, v1, va⟩ := sRGB_single P (le_trans l0 hl) (le_trans hu u1)
  refine ⟨v, e3, ?_, ?_, v0, v1⟩
  · have := trip_low (show (l : ℝ) ≤ q by exact_mod_cast hl) la va
    have : ((x1 - 1 / 10 ^ 6 : ℚ) : ℝ) ≤ v := by push_cast; exact this
    exact_mod_cast this
  · have := trip_high (show (q : ℝ) ≤ u by exact_mod_cast hu) ua va
    have : (v : ℝ) ≤ ((x2 + 1 / 10 ^ 6 : ℚ) : ℝ) := by push_cast; exact this
    exact_mod_cast this

/-- What changing every pixel of an image of floats stores. -/
theorem map_stored_at {i : Image Dbl} (hi : ImgOk (Arith.ieee Lm) i) (hf : i.format = .RGBAF ∨ i.format = .RGBF)
    {f : Dbl → Dbl} {j : Image Dbl}
    (e : i.mapPixels (Arith.ieee Lm) (fun c => ⟨f c.r, f c.g, f c.b, c.a⟩) = .ok j) {x y : ℕ} {d : Color Dbl}
    (ed : j.getPixel (Arith.ieee Lm) x y = .ok (some d)) : ∃ c, i.getPixel (Arith.ieee Lm) x y = .ok (some c) ∧
      d = ⟨(f c.r).single, (f c.g).single, (f c.b).single, c.a⟩ := by
  obtain ⟨j', e', h1, h2, h3, h4, h5, h6⟩ := mapPixels_spec (lawful_ieee Lm) hi (f := fun c => ⟨f c.r, f c.g, f c.b, c.a⟩)
    (fun y x _ _ c _ => set_float (by rcases hf with h | h <;> rw [h] <;> simp [IsFloat]) _)
  rw [e] at e'
  cases e'
  obtain ⟨k1, k2, k3⟩ := getPixel_some ed
  obtain ⟨c, c1, c2⟩ := h6 (j.bmp.height - y - 1) x (by omega) (by omega)
  refine ⟨c, ?_, ?_⟩
  · rw [getPixel_in (by omega) (by omega), ← h5, c1]
    rfl
  have hs := px_single hf (hi (j.bmp.height - y - 1) x (by omega) (by omega)) c1 Color.a (by simp [doubleChannels])
  rw [h2] at k3
  have hpx := hi (j.bmp.height - y - 1) x (by omega) (by omega)
  generalize i.bmp.px (j.bmp.height - y - 1) x = v at c1 hpx
  rcases hf with hf | hf
  · rw [hf] at c2 k3
    have c2 : Res.ok (Px.nums [(f c.r).single, (f c.g).single, (f c.b).single, c.a.single]) = .ok _ := c2
    rw [← Res.ok.inj c2, hs] at k3
    cases k3
    rfl
  · rw [hf] at c1 c2 k3 hpx
    match v, hpx with
    | .nums [r, g, b], _ =>
      have c1 : Res.ok (⟨r, g, b, (Arith.ieee Lm).lit 1⟩ : Color Dbl) = .ok c := c1
      cases c1
      have c2 : Res.ok (Px.nums [(f r).single, (f g).single, (f b).single]) = .ok _ := c2
      rw [← Res.ok.inj c2] at k3
      have k3 : Res.ok (⟨(f r).single, (f g).single, (f b).single, (Arith.ieee Lm).lit 1⟩ : Color Dbl) = .ok d := k3
      cases k3
      rfl

theorem map_stored {i : Image Dbl} (hi : ImgOk (Arith.ieee Lm) i) (hf : i.format = .RGBAF ∨ i.format = .RGBF)
    {f : Dbl → Dbl} {j : Image Dbl}
    (e : i.mapPixels (Arith.ieee Lm) (fun c => ⟨f c.r, f c.g, f c.b, c.a⟩) = .ok j) {d : Color Dbl}
    (hd : DoubleColors Lm j d) : ∃ c, DoubleColors Lm i c ∧ d = ⟨(f c.r).single, (f c.g).single, (f c.b).single, c.a⟩ := by
  obtain ⟨x, y, ed⟩ := hd
  obtain ⟨c, hc, e⟩ := map_stored_at hi hf e ed
  exact ⟨c, ⟨x, y, hc⟩, e⟩

/-- To linear colours and back. -/
theorem to_linear_stored {i j : Image Dbl} (hi : ImgOk (Arith.ieee Lm) i) (hf : i.format = .RGBAF ∨ i.format = .RGBF)
    (hcs : i.colorSpace = .sRGB) (e : i.changeColorSpace (Arith.ieee Lm) .Linear = .ok j) {d : Color Dbl}
    (hd : DoubleColors Lm j d) : ∃ c, DoubleColors Lm i c ∧
      d = ⟨((Arith.ieee Lm).sRGBToLinear c.r).single, ((Arith.ieee Lm).sRGBToLinear c.g).single,
        ((Arith.ieee Lm).sRGBToLinear c.b).single, c.a⟩ := by
  unfold Image.changeColorSpace at e
  rw [if_neg (by simp [hcs])] at e
  obtain ⟨k, e1, e2⟩ := Res.bind_eq_ok.1 e
  cases e2
  simp only [if_true] at e1
  exact map_stored hi hf e1 hd

theorem to_srgb_stored {i j : Image Dbl} (hi : ImgOk (Arith.ieee Lm) i) (hf : i.format = .RGBAF ∨ i.format = .RGBF)
    (hcs : i.colorSpace = .Linear) (e : i.changeColorSpace (Arith.ieee Lm) .sRGB = .ok j) {d : Color Dbl}
    (hd : DoubleColors Lm j d) : ∃ c, DoubleColors Lm i c ∧
      d = ⟨((Arith.ieee Lm).linearToSRGB c.r).single, ((Arith.ieee Lm).linearToSRGB c.g).single,
        ((Arith.ieee Lm).linearToSRGB c.b).single, c.a⟩ := by
  unfold Image.changeColorSpace at e
  rw [if_neg (by simp [hcs])] at e
  obtain ⟨k, e1, e2⟩ := Res.bind_eq_ok.1 e
  cases e2
  simp only [reduceCtorEq, if_false] at e1
  exact map_stored hi hf e1 hd

/-- A colour of linear values that is in the range of linear values of sRGB colours, converted back. -/
theorem color_trip (P : AccuratePow Lm) {S T : Color Dbl → Prop} (hS : ∀ c, S c → UnitColor c)
    (hT : ∀ d, T d → ∃ c, S c ∧ d = ⟨((Arith.ieee Lm).sRGBToLinear c.r).single, ((Arith.ieee Lm).sRGBToLinear c.g).single,
        ((Arith.ieee Lm).sRGBToLinear c.b).single, c.a⟩) {q : Color Dbl} (hq : BetweenDoubles T q) {d : Color Dbl}
    (hd : d = ⟨((Arith.ieee Lm).linearToSRGB q.r).single, ((Arith.ieee Lm).linearToSRGB q.g).single,
        ((Arith.ieee Lm).linearToSRGB q.b).single, q.a⟩) :
    CloseDoubles (1 / 10 ^ 6) S d ∧ UnitColor d := by
  subst hd
  have trip {ch : Color Dbl → Dbl} (hch : ch ∈ doubleChannels) (htrip : ∀ d, T d → ∃ c, S c ∧
        ch d = ((Arith.ieee Lm).sRGBToLinear (ch c)).single) : ∃ lo hi v : ℚ,
      ((Arith.ieee Lm).linearToSRGB (ch q)).single = .fin v ∧ lo - 1 / 10 ^ 6 ≤ v ∧ v ≤ hi + 1 / 10 ^ 6 ∧ (0 ≤ v ∧ v ≤ 1) ∧
      (∃ c, S c ∧ ch c = .fin lo) ∧ ∃ c, S c ∧ ch c = .fin hi := by
    obtain ⟨lo, hi, z, e, h1, h2, ⟨c, hc, ec⟩, c', hc', ec'⟩ := hq ch hch
    obtain ⟨s, hs, es⟩ := htrip c hc
    obtain ⟨s', hs', es'⟩ := htrip c' hc'
    obtain ⟨x, ex, x0, x1⟩ := hS s hs ch hch
    obtain ⟨x', ex', x0', x1'⟩ := hS s' hs' ch hch
    rw [ec, ex] at es
    rw [ec', ex'] at es'
    obtain ⟨v, ev, v1, v2, v3, v4⟩ := channel_trip P x0 x1 x0' x1' es.symm es'.symm h1 h2
    exact ⟨x, x', v, by rw [e, ev], v1, v2, ⟨v3, v4⟩, ⟨s, hs, ex⟩, s', hs', ex'⟩
  obtain ⟨r1, r2, r3, r4, r5, r6, r7, r8⟩ := trip (ch := Color.r) (by simp [doubleChannels]) (fun d hd => by
    obtain ⟨c, hc, rfl⟩ := hT d hd
    exact ⟨c, hc, rfl⟩)
  obtain ⟨g1, g2, g3, g4, g5, g6, g7, g8⟩ := trip (ch := Color.g) (by simp [doubleChannels]) (fun d hd => by
    obtain ⟨c, hc, rfl⟩ := hT d hd
    exact ⟨c, hc, rfl⟩)
  obtain ⟨b1, b2, b3, b4, b5, b6, b7, b8⟩ := trip (ch := Color.b) (by simp [doubleChannels]) (fun d hd => by
    obtain ⟨c, hc, rfl⟩ := hT d hd
    exact ⟨c, hc, rfl⟩)
  obtain ⟨lo, hi, z, e, h1, h2, ⟨c, hc, ec⟩, c', hc', ec'⟩ := hq Color.a (by simp [doubleChannels])
  obtain ⟨s, hs, rfl⟩ := hT c hc
  obtain ⟨s', hs', rfl⟩ := hT c' hc'
  obtain ⟨x, ex, x0, x1⟩ := hS s hs Color.a (by simp [doubleChannels])
  obtain ⟨x', ex', x0', x1'⟩ := hS s' hs' Color.a (by simp [doubleChannels])
  dsimp only at ec ec'
  rw [ec] at ex
  rw [ec'] at ex'
  cases ex
  cases ex'
  have pos : (0 : ℚ) ≤ 1 / 10 ^ 6 := by norm_num
  simp only [CloseDoubles, UnitColor, doubleChannels, List.forall_mem_cons, List.not_mem_nil, IsEmpty.forall_iff,
    implies_true, and_true]
  exact ⟨⟨⟨r1, r2, r3, r4, r5, r6, r8⟩, ⟨g1, g2, g3, g4, g5, g6, g8⟩, ⟨b1, b2, b3, b4, b5, b6, b8⟩,
    lo, hi, z, e, by linarith, by linarith, ⟨s, hs, ec⟩, s', hs', ec'⟩,
    ⟨r3, r4, r7.1, r7.2⟩, ⟨g3, g4, g7.1, g7.2⟩, ⟨b3, b4, b7.1, b7.2⟩, z, e, by linarith, by linarith⟩

theorem unit_finite {c : Color Dbl} (h : UnitColor c) : FiniteColor c := by
  intro ch hch
  obtain ⟨q, e, -⟩ := h ch hch
  exact ⟨q, e⟩

/-- Resizing an sRGB image of floats. -/
theorem srgb_resize_close (P : AccuratePow Lm) (F : LawfulFI (Arith.ieee Lm) FI) {i : Image Dbl} (hi : ImgOk (Arith.ieee Lm) i)
    (hc : Countable i) (hf : i.format = .RGBAF ∨ i.format = .RGBF) (hcs : i.colorSpace = .sRGB) (hu : UnitImage Lm i)
    {w h : ℕ} (hw : 0 < w) (hh : 0 < h) (hw' : w < 2 ^ 32) (hh' : h < 2 ^ 32) {filter : ResizeFilter}
    (hsmall : windowPixels i w h ≤ 2 ^ 24) (avg : AverageDoubles Lm FI i.format w h filter) :
    ∃ r, i.resize (Arith.ieee Lm) FI w h filter = .ok r ∧ ∀ j, r = some j → UnitImage Lm j ∧
      ∀ d, DoubleColors Lm j d → CloseDoubles (1 / 10 ^ 6) (DoubleColors Lm i) d := by
  have float : IsFloat i.format := by rcases hf with h | h <;> rw [h] <;> simp [IsFloat]
  unfold Image.resize
  rw [if_neg (by omega)]
  by_cases hs : w = i.bmp.width ∧ h = i.bmp.height
  · rw [if_pos hs]
    refine ⟨_, rfl, fun j hj => ?_⟩
    cases copy_keep F hj
    refine ⟨hu, fun d hd ch hch => ?_⟩
    obtain ⟨q, e, -⟩ := hu d hd ch hch
    exact ⟨q, q, q, e, by norm_num, by norm_num, ⟨d, hd, e⟩, d, hd, e⟩
  rw [if_neg hs, if_pos (by simp [hcs])]
  cases hcopy : i.copy FI with
  | none => exact ⟨none, rfl, by simp⟩
  | some i' =>
    cases copy_keep F hcopy
    obtain ⟨j, ej⟩ := changeColorSpace_float (lawful_ieee Lm) hi float .Linear
    obtain ⟨j1, j2, j3, j4, j5⟩ := changeColorSpace_keep (lawful_ieee Lm) hi ej
    have uj : UnitImage Lm j := change_unit (accurate_unit P) hi float hu ej
    have hcj : Countable j := by
      unfold Spec.Countable
      rw [j4, j5]
      exact hc
    have hwj : windowPixels j w h ≤ 2 ^ 24 := by
      unfold windowPixels
      rw [j4, j5]
      exact hsmall
    have between : ∃ r, resizeLinear (Arith.ieee Lm) FI j w h filter = .ok r ∧ ∀ k, r = some k →
        ∀ d, DoubleColors Lm k d → BetweenDoubles (DoubleColors Lm j) d := by
      rw [← j2] at avg
      rcases avg.1 with rfl | rfl
      · exact box_between F j1 hcj (by rw [j2]; exact hf) (by omega) hw' hh' avg (fun c h => unit_finite (uj c h))
      · exact linear_between F j1 hcj (by rw [j2]; exact hf) hwj hw' hh' avg (fun c h => unit_finite (uj c h))
    obtain ⟨r, er, hr⟩ := between
    simp only [ej, Res.ok_bind, er]
    cases r with
    | none => exact ⟨none, rfl, by simp⟩
    | some k =>
      obtain ⟨k1, k2, k3, -⟩ := resizeLinear_keep (lawful_ieee Lm) F j1 er
      have hfk : k.format = .RGBAF ∨ k.format = .RGBF := by rw [k2, j2]; exact hf
      obtain ⟨l, el⟩ := changeColorSpace_float (lawful_ieee Lm) k1 (by rw [k2, j2]; exact float) i.colorSpace
      have el' := el
      rw [hcs] at el'
      have trip (d : Color Dbl) (hd : DoubleColors Lm l d) :
          CloseDoubles (1 / 10 ^ 6) (DoubleColors Lm i) d ∧ UnitColor d := by
        obtain ⟨c, hc, e⟩ := to_srgb_stored k1 hfk (by rw [k3, j3]) el' hd
        exact color_trip P hu (fun d hd => to_linear_stored hi hf hcs ej hd) (hr k rfl c hc) e
      simp only [el, Res.ok_bind]
      refine ⟨_, rfl, ?_⟩
      rintro _ ⟨⟩
      exact ⟨fun d hd => (trip d hd).2, fun d hd => (trip d hd).1⟩

/-- A slice of a mipmap of a 3D texture of sRGB colours. -/
theorem mipSlice3d_close (P : AccuratePow Lm) (F : LawfulFI (Arith.ieee Lm) FI) {prev : List (Image Dbl)} (hne : prev ≠ [])
    (hlen : prev.length ≤ 2 ^ 24) {w h depth d : ℕ} (hd : d < depth) (hdep : depth < 2 ^ 32)
    (hok : ∀ i ∈ prev, ImgOk (Arith.ieee Lm) i ∧ i.format = .RGBAF ∧ w ≤ i.bmp.width ∧ h ≤ i.bmp.height)
    (hu : ∀ i ∈ prev, UnitImage Lm i) (filter : ResizeFilter) (hmem : FI.alloc .RGBAF w h ≠ none) :
    ∃ j, mipSlice3d (Arith.ieee Lm) FI prev w h depth .sRGB filter d = .ok j ∧ ImgOk (Arith.ieee Lm) j ∧ j.format = .RGBAF ∧
      j.colorSpace = .sRGB ∧ j.bmp.width = w ∧ j.bmp.height = h ∧
      ∀ x y c, j.getPixel (Arith.ieee Lm) x y = .ok (some c) →
        CloseDoubles (1 / 10 ^ 6) (SliceDoubles Lm prev y x) c ∧ UnitColor c := by
  obtain ⟨j, e, h1, h2, h3, h4, h5, h6⟩ := mipSlice3d_rounded F hne hlen hd hdep hok .sRGB (by
    intro i hi c hc
    obtain ⟨r, g, b, a⟩ := unit_iff.1 (hu i hi c hc)
    have s {v : Dbl} (h : Ranged 0 1 v) : ∃ q : ℚ, Dbl.single ((Arith.ieee Lm).sRGBToLinear v) = .fin q := by
      obtain ⟨q, e, -⟩ := ranged_single unit_single_zero unit_single_one (unit_linear (accurate_unit P) h)
      exact ⟨q, e⟩
    simp only [FiniteColor, doubleChannels, List.forall_mem_cons, List.not_mem_nil, IsEmpty.forall_iff, implies_true,
      and_true]
    obtain ⟨q, e, -⟩ := a
    exact ⟨s r, s g, s b, q, e⟩) filter hmem
  refine ⟨j, e, h1, h2, h3, h4, h5, fun x y c hc => ?_⟩
  obtain ⟨q, b, rfl⟩ := h6 x y c hc
  exact color_trip P (S := SliceDoubles Lm prev y x) (T := SliceLinear Lm .sRGB prev y x)
    (fun c ⟨i, hi, hc⟩ => hu i hi c ⟨x, y, hc⟩) (fun d ⟨c, hc, e⟩ => ⟨c, hc, e⟩) b rfl

end Cuttlefish
