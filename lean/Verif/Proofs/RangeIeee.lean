import Verif.Spec.Range
import Verif.Proofs.UnitRuns
/-
Colours in a range stay there in IEEE arithmetic, in linear images.
-/
namespace Cuttlefish
open Spec
variable {Lm : Libm} {FI : FreeImage Dbl} {lo hi : ℚ}

/-- Ranges whose bounds commute with rounding. -/
structure Bounds (lo hi : ℚ) : Prop where
  lin_lo : LinBound lo
  lin_hi : LinBound hi
  single_lo : SingleBound lo
  single_hi : SingleBound hi
  zero : lo ≤ 0
  one : 1 ≤ hi

theorem unit_bounds : Bounds 0 1 :=
  ⟨linBound_zero, by simpa using linBound_pow (e := 0) (by norm_num), unit_single_zero, unit_single_one, le_rfl, le_rfl⟩

theorem single_pow {e : ℕ} (he : e ≤ 100) : SingleBound (2 ^ e) := by
  refine ⟨⟨1, e, by norm_num, by omega, by simp⟩, ?_⟩
  rw [abs_of_pos (by positivity)]
  exact lt_of_le_of_lt (pow_le_pow_right₀ (by norm_num) he) (by norm_num)

theorem single_neg {b : ℚ} (h : SingleBound b) : SingleBound (-b) := by
  obtain ⟨⟨m, e, h1, h2, rfl⟩, h3⟩ := h
  exact ⟨⟨-m, e, by simpa using h1, h2, by push_cast; ring⟩, by rwa [abs_neg]⟩

theorem power_bounds (h : PowerRange lo hi) : Bounds lo hi := by
  have p (e : ℕ) (he : e ≤ 100) : LinBound (2 ^ e) := linBound_pow (by omega)
  obtain ⟨h0, b, hb, rfl⟩ := h
  have one : (1 : ℚ) ≤ 2 ^ b := one_le_pow₀ (by norm_num)
  rcases h0 with rfl | ⟨a, ha, rfl⟩
  · exact ⟨linBound_zero, p b (by omega), unit_single_zero, single_pow (by omega), le_rfl, one⟩
  · exact ⟨linBound_neg (p a (by omega)), p b (by omega), single_neg (single_pow (by omega)), single_pow (by omega),
      by simp, one⟩

theorem job_bounds {H : Type} (c : Cmd H) : Bounds (jobRange c).1 (jobRange c).2 := by
  have p (e : ℕ) (he : e ≤ 100) : LinBound (2 ^ e) := linBound_pow (by omega)
  have signed : Bounds (-1) 1 := by
    have l : LinBound 1 := by simpa using p 0 (by norm_num)
    exact ⟨linBound_neg l, l, single_neg unit_single_one, unit_single_one, by norm_num, le_rfl⟩
  unfold jobRange
  split
  · split
    · exact signed
    · exact unit_bounds
  · split
    · exact signed
    · exact ⟨linBound_zero, p 16 (by norm_num), unit_single_zero, single_pow (by norm_num), le_rfl, by norm_num⟩
    · exact ⟨linBound_neg (p 15 (by norm_num)), p 15 (by norm_num), single_neg (single_pow (by norm_num)),
        single_pow (by norm_num), by norm_num, by norm_num⟩
    · exact unit_bounds

/-- The same bound for all channels. -/
def allSame (b : ℚ) : Color ℚ := ⟨b, b, b, b⟩

theorem allSame_bounds {P : ℚ → Prop} {b : ℚ} (h : P b) : AllBounds P (allSame b) := ⟨h, h, h, h⟩

theorem range_iff {c : Color Dbl} : RangeColor lo hi c ↔ RangedColor (allSame lo) (allSame hi) c := by
  simp only [RangeColor, doubleChannels, List.forall_mem_cons, List.not_mem_nil, IsEmpty.forall_iff, implies_true,
    and_true, RangedColor, allSame]

theorem Bounds.zeroIn (B : Bounds lo hi) : Ranged lo hi ((Arith.ieee Lm).lit 0) := by
  rw [ieee_zero]
  exact ⟨0, rfl, B.zero, by linarith [B.one]⟩

theorem Bounds.oneIn (B : Bounds lo hi) : Ranged lo hi ((Arith.ieee Lm).lit 1) := by
  rw [ieee_one]
  exact ⟨1, rfl, by linarith [B.zero], B.one⟩

theorem ranged_wider {lo' hi' : ℚ} (h1 : lo' ≤ lo) (h2 : hi ≤ hi') {v : Dbl} (h : Ranged lo hi v) : Ranged lo' hi' v := by
  obtain ⟨q, e, a, b⟩ := h
  exact ⟨q, e, h1.trans a, b.trans h2⟩

theorem range_wider {lo' hi' : ℚ} (h1 : lo' ≤ lo) (h2 : hi ≤ hi') {i : Image Dbl} (h : RangeImage Lm lo hi i) :
    RangeImage Lm lo' hi' i := fun c hc ch hch => ranged_wider h1 h2 (h c hc ch hch)

/-- A colour of the range can be stored in an image of floats, and what is read back is in the range. -/
theorem set_range (B : Bounds lo hi) {f : IFormat} (hf : IsFloat f) {c : Color Dbl} (hc : RangeColor lo hi c) :
    ∃ p, setPixelNoGrayscaleImpl (Arith.ieee Lm) f c = .ok p ∧
      ∀ d, getPixelImpl (Arith.ieee Lm) f p = .ok d → RangeColor lo hi d := by
  rw [range_iff] at hc
  obtain ⟨r, g, b, a⟩ := hc
  simp only [allSame] at r g b a
  have s {v : Dbl} (h : Ranged lo hi v) := ranged_single B.single_lo B.single_hi h
  have one := B.oneIn (Lm := Lm)
  have zero := B.zeroIn (Lm := Lm)
  rcases hf with rfl | rfl | rfl | rfl | rfl
  · refine ⟨.nums [c.r.single, c.g.single, c.b.single], rfl, fun d e => ?_⟩
    have e : Res.ok (⟨c.r.single, c.g.single, c.b.single, (Arith.ieee Lm).lit 1⟩ : Color Dbl) = .ok d := e
    cases e
    exact range_iff.2 ⟨s r, s g, s b, one⟩
  · refine ⟨.nums [c.r.single, c.g.single, c.b.single, c.a.single], rfl, fun d e => ?_⟩
    cases e
    exact range_iff.2 ⟨s r, s g, s b, s a⟩
  · refine ⟨.nums [c.r.single], rfl, fun d e => ?_⟩
    have e : Res.ok (⟨c.r.single, c.r.single, c.r.single, (Arith.ieee Lm).lit 1⟩ : Color Dbl) = .ok d := e
    cases e
    exact range_iff.2 ⟨s r, s r, s r, one⟩
  · refine ⟨.nums [c.r], rfl, fun d e => ?_⟩
    have e : Res.ok (⟨c.r, c.r, c.r, (Arith.ieee Lm).lit 1⟩ : Color Dbl) = .ok d := e
    cases e
    exact range_iff.2 ⟨r, r, r, one⟩
  · refine ⟨.nums [c.r, c.g], rfl, fun d e => ?_⟩
    have e : Res.ok (⟨c.r, c.g, (Arith.ieee Lm).lit 0, (Arith.ieee Lm).lit 1⟩ : Color Dbl) = .ok d := e
    cases e
    refine range_iff.2 ?_
    simp only [RangedColor, allSame]
    exact ⟨r, g, zero, one⟩

theorem rangePx {i : Image Dbl} (h : RangeImage Lm lo hi i) : RangedPx Lm (allSame lo) (allSame hi) i :=
  fun _ _ c hy hx hc => range_iff.1 (h c ⟨_, _, getPixel_line hy hx hc⟩)

/-- Changing every pixel. -/
theorem map_range (B : Bounds lo hi) {i : Image Dbl} (hi' : ImgOk (Arith.ieee Lm) i) (hf : IsFloat i.format)
    (hu : RangeImage Lm lo hi i) {f : Color Dbl → Color Dbl} (hmap : ∀ c, RangeColor lo hi c → RangeColor lo hi (f c))
    {j : Image Dbl} (e : i.mapPixels (Arith.ieee Lm) f = .ok j) : RangeImage Lm lo hi j := by
  obtain ⟨j', e', h1, h2, h3, h4, h5, h6⟩ := mapPixels_spec (lawful_ieee Lm) hi' (f := f)
    (fun y x _ _ c _ => set_float hf _)
  rw [e] at e'
  cases e'
  rintro d ⟨x, y, ed⟩
  obtain ⟨k1, k2, k3⟩ := getPixel_some ed
  obtain ⟨c, c1, c2⟩ := h6 (j.bmp.height - y - 1) x (by omega) (by omega)
  have hc : RangeColor lo hi c := hu c ⟨_, _, getPixel_line (by omega) (by omega) c1⟩
  obtain ⟨p, p1, p2⟩ := set_range (Lm := Lm) B hf (hmap c hc)
  rw [p1] at c2
  cases c2
  rw [h2] at k3
  exact p2 d k3

theorem resizeLinear_range (B : Bounds lo hi) (F : LawfulFI (Arith.ieee Lm) FI) {i : Image Dbl}
    (hi' : ImgOk (Arith.ieee Lm) i) (hc : Countable i) (hf : IsFloat i.format) (hu : RangeImage Lm lo hi i) {w h : ℕ}
    (hw : w < 2 ^ 32) (hh : h < 2 ^ 32) {filter : ResizeFilter} (U : RangeFilter Lm FI lo hi filter) {j : Image Dbl}
    (e : resizeLinear (Arith.ieee Lm) FI i w h filter = .ok (some j)) : RangeImage Lm lo hi j := by
  cases hres : (if rescales i.format then FI.rescale i.bmp w h filter else none) with
  | some b =>
    unfold resizeLinear at e
    rw [hres] at e
    cases e
    split at hres
    · exact U _ _ _ _ _ _ hf hi' hu hres
    · cases hres
  | none =>
    by_cases hk : filter = .Box ∨ filter = .Linear
    · obtain ⟨r, er, hr⟩ := resizeLinear_defined (A := Arith.ieee Lm) (FI := FI) (filter := filter) (w := w) (h := h) (i := i)
        (Q := RangeColor lo hi) (R := fun p => ∀ d, getPixelImpl (Arith.ieee Lm) i.format p = .ok d → RangeColor lo hi d) F (by
          intro y x hy hx
          obtain ⟨c, e1, e2⟩ := boxPixel_ieee hi' hc hw hh hy hx
          obtain ⟨d, e3, e4⟩ := linearPixel_ieee hi' hc hw hh hy hx
          have hs := window_small hc (w := w) (h := h)
          exact ⟨⟨c, e1, range_iff.2 (e2 _ _ (allSame_bounds (B.lin_lo.box (by omega)))
            (allSame_bounds (B.lin_hi.box (by omega))) (rangePx hu))⟩, d, e3, range_iff.2 (e4 _ _ (allSame_bounds B.lin_lo)
            (allSame_bounds B.lin_hi) (rangePx hu))⟩)
        (fun c hc => set_range B hf hc)
      rw [e] at er
      cases er
      rintro d ⟨x, y, ed⟩
      obtain ⟨-, j2, -, j4, j5⟩ := resizeLinear_keep (lawful_ieee Lm) F hi' e
      obtain ⟨k1, k2, k3⟩ := getPixel_some ed
      rw [j2] at k3
      exact hr hres j rfl _ _ (by omega) (by omega) d k3
    · unfold resizeLinear at e
      rw [hres] at e
      cases filter
      case Box | Linear => simp at hk
      all_goals cases e

theorem resize_range (B : Bounds lo hi) (F : LawfulFI (Arith.ieee Lm) FI) {i : Image Dbl} (hi' : ImgOk (Arith.ieee Lm) i)
    (hc : Countable i) (hf : IsFloat i.format) (hs : i.colorSpace = .Linear) (hu : RangeImage Lm lo hi i) {w h : ℕ}
    (hw : w < 2 ^ 32) (hh : h < 2 ^ 32) {filter : ResizeFilter} (U : RangeFilter Lm FI lo hi filter) {j : Image Dbl}
    (e : i.resize (Arith.ieee Lm) FI w h filter = .ok (some j)) : RangeImage Lm lo hi j := by
  unfold Image.resize at e
  split at e
  · cases e
  split at e
  · cases copy_keep F (Res.ok.inj e)
    exact hu
  split at e
  · rename_i h
    rw [hs] at h
    simp at h
  · exact resizeLinear_range B F hi' hc hf hu hw hh U e

theorem convert_range (B : Bounds lo hi) (C : RangeConvert Lm FI lo hi) (F : LawfulFI (Arith.ieee Lm) FI) {i j : Image Dbl}
    (hi' : ImgOk (Arith.ieee Lm) i) (hu : RangeImage Lm lo hi i)
    (e : i.convert (Arith.ieee Lm) FI .RGBAF true = .ok (some j)) : RangeImage Lm lo hi j := by
  by_cases hd : i.format = .RGBAF
  · unfold Image.convert at e
    rw [if_pos hd] at e
    cases copy_keep F (Res.ok.inj e)
    exact hu
  · cases ho : (if usesFreeImage i.format .RGBAF
        (true && isGrayscaleFormat .RGBAF && decide (i.colorSpace = .Linear)) = true
        then FI.convert i.format i.bmp .RGBAF else none) with
    | none =>
      obtain ⟨r, e', -, k⟩ := convert_own (weighted := true) F hi' hd (by simp) ho (fun y x _ _ c _ => by
        obtain ⟨p, e⟩ := set_float (A := Arith.ieee Lm) (f := .RGBAF) (Or.inr (Or.inl rfl)) c
        exact ⟨p, by simpa [convertPx, isGrayscaleFormat] using e⟩)
      rw [e] at e'
      cases e'
      obtain ⟨k1, -, k3, k4, k5⟩ := k j rfl
      rintro d ⟨x, y, ed⟩
      obtain ⟨g1, g2, g3⟩ := getPixel_some ed
      obtain ⟨c, c1, c2⟩ := k5 (j.bmp.height - y - 1) x (by omega) (by omega)
      have hc : RangeColor lo hi c := hu c ⟨_, _, getPixel_line (by omega) (by omega) c1⟩
      obtain ⟨p, p1, p2⟩ := set_range (Lm := Lm) B (f := .RGBAF) (Or.inr (Or.inl rfl)) hc
      have c2 : setPixelNoGrayscaleImpl (Arith.ieee Lm) .RGBAF c = .ok (j.bmp.px (j.bmp.height - y - 1) x) := by
        simpa [convertPx, isGrayscaleFormat] using c2
      rw [p1] at c2
      cases c2
      rw [k1] at g3
      exact p2 d g3
    | some b =>
      have ho' := ho
      split at ho'
      · unfold Image.convert at e
        rw [if_neg hd, if_neg (by simp)] at e
        simp only [ho] at e
        cases e
        exact C _ _ _ _ hi' hu ho'
      · cases ho'

/-- A slice of a mipmap of linear images in a range. -/
theorem mipSlice3d_range (B : Bounds lo hi) (F : LawfulFI (Arith.ieee Lm) FI)
    {prev : List (Image Dbl)} (hne : prev ≠ []) (hlen : prev.length < 2 ^ 31) {w h depth d : ℕ}
    (hd : d < depth) (hdep : depth < 2 ^ 32)
    (hok : ∀ i ∈ prev, ImgOk (Arith.ieee Lm) i ∧ i.bmp.width = w ∧ i.bmp.height = h)
    (hu : ∀ i ∈ prev, RangeImage Lm lo hi i) {filter : ResizeFilter} {j : Image Dbl}
    (e : mipSlice3d (Arith.ieee Lm) FI prev w h depth .Linear filter d = .ok j) :
    RangeImage Lm lo hi j ∧ j.colorSpace = .Linear := by
  unfold mipSlice3d at e
  cases hn : Image.new FI .RGBAF w h .Linear with
  | none => rw [hn] at e; cases e
  | some dst =>
    rw [hn] at e
    obtain ⟨n1, n2, n3, n4, -⟩ := new_ok F hn
    have s {v : Dbl} (h : Ranged lo hi v) : Ranged lo hi ((Arith.ieee Lm).single v) :=
      ranged_single B.single_lo B.single_hi h
    obtain ⟨j', e', h1, h2, h3, h4, h5⟩ := write_grid (dst := dst) (h := h) (w := w)
      (q := fun y x => (h - y - 1, x)) (P := fun _ _ p => ∀ c, getPixelImpl (Arith.ieee Lm) .RGBAF p = .ok c → RangeColor lo hi c)
      (body := fun y x dst => do
        let c ← pixel3d (Arith.ieee Lm) prev depth .Linear filter d y x
        dst.put (dst.bmp.height - y - 1) x (.nums [c.r, c.g, c.b, c.a])) (by
        intro y hy x hx D df dw dh dp
        obtain ⟨c, ec, rc⟩ := pixel3d_ranged (Lm := Lm) hne hlen hd hdep (y := y) (x := x) .Linear filter
          (allSame_bounds B.lin_lo) (allSame_bounds B.lin_hi) (by
          intro k hk
          obtain ⟨k1, k2, k3⟩ := hok prev[k] (List.getElem_mem hk)
          obtain ⟨c, ec, ec'⟩ := Image.get_ok k1 (show prev[k].bmp.height - y - 1 < prev[k].bmp.height by omega)
            (show x < prev[k].bmp.width by omega)
          refine ⟨linearSource (Arith.ieee Lm) .Linear c, ?_, ?_⟩
          · unfold sliceSource
            rw [List.getElem?_eq_getElem hk]
            simp only [Image.scan, if_pos (show y < prev[k].bmp.height by omega), ec, Res.ok_bind]
          · exact range_iff.1 (hu prev[k] (List.getElem_mem hk) c ⟨_, _, getPixel_line (by omega) (by omega) ec'⟩))
        refine ⟨_, ?_, by
          rw [ec, Res.ok_bind, dh, n4]
          exact Image.put_ok (i := D) (y := h - y - 1) (x := x) (by omega) (by omega) _⟩
        intro c' ec'
        have ec' : Res.ok (⟨_, _, _, _⟩ : Color Dbl) = .ok c' := ec'
        cases ec'
        exact range_iff.2 ⟨s rc.1, s rc.2.1, s rc.2.2.1, s rc.2.2.2⟩)
      (by
        intro y hy x hx y' hy' x' hx' h
        simp only [Prod.mk.injEq] at h
        omega)
    have e'' : Res.ok j' = .ok j := e'.symm.trans e
    cases e''
    refine ⟨?_, h2.trans n2⟩
    rintro c ⟨x, y, ec⟩
    obtain ⟨k1, k2, k3⟩ := getPixel_some ec
    rw [h1, n1] at k3
    have := h5 y (by omega) x (by omega)
    dsimp only at this
    refine this c ?_
    rwa [show j.bmp.height - y - 1 = h - y - 1 by omega] at k3

/-- The methods used by a linear texture keep colours in a range. -/
theorem kept_range (B : Bounds lo hi) (C : RangeConvert Lm FI lo hi) (F : LawfulFI (Arith.ieee Lm) FI) :
    KeptBy Lm FI (fun i => RangeImage Lm lo hi i ∧ i.colorSpace = .Linear) (RangeFilter Lm FI lo hi) (· = .Linear) where
  convert _ _ hi hu e := ⟨convert_range B C F hi hu.1 e, (C48_result (lawful_ieee Lm) F hi e).2.1.trans hu.2⟩
  change i cs j hs hi hf hu e := by
    unfold Image.changeColorSpace at e
    rw [hs, if_pos hu.2.symm] at e
    cases e
    exact hu
  resize _ _ _ _ _ hi hc hf hw hh U hu e :=
    ⟨resize_range B F hi hc hf hu.2 hu.1 hw hh U e, (resize_keep (lawful_ieee Lm) F hi e).2.2.1.trans hu.2⟩
  mip3d _ _ _ _ _ _ _ _ hs hne hlen hd hdep hok _ hu e := by
    rw [hs] at e
    exact mipSlice3d_range B F hne hlen hd hdep hok (fun i hi => (hu i hi).1) e

end Cuttlefish
