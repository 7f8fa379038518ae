import Verif.Spec.Unit
import Verif.Proofs.BoxIeee
/-
Colours from 0 to 1 stay there in IEEE arithmetic: changes of the colour space and resizing.
-/
namespace Cuttlefish
open Spec
variable {Lm : Libm} {FI : FreeImage Dbl}

/-- The bounds. -/
def zeros : Color ℚ := ⟨0, 0, 0, 0⟩
def ones : Color ℚ := ⟨1, 1, 1, 1⟩

theorem unit_iff {c : Color Dbl} : UnitColor c ↔ RangedColor zeros ones c := by
  simp only [UnitColor, doubleChannels, List.forall_mem_cons, List.not_mem_nil, IsEmpty.forall_iff, implies_true,
    and_true, RangedColor, zeros, ones]

theorem zeros_lin : AllBounds LinBound zeros := ⟨linBound_zero, linBound_zero, linBound_zero, linBound_zero⟩

theorem ones_lin : AllBounds LinBound ones := by
  have : LinBound 1 := by simpa using linBound_pow (e := 0) (by norm_num)
  exact ⟨this, this, this, this⟩

theorem unit_single_zero : SingleBound 0 := ⟨⟨0, 0, by norm_num, by norm_num, by norm_num⟩, by norm_num⟩

theorem unit_single_one : SingleBound 1 := ⟨⟨1, 0, by norm_num, by norm_num, by norm_num⟩, by norm_num⟩

theorem unit_round {q : ℚ} (h0 : 0 ≤ q) (h1 : q ≤ 1) : 0 ≤ rneD q ∧ rneD q ≤ 1 :=
  ⟨rneD_ge_of linBound_zero.rep h0, rneD_le_of repD_one h1⟩

theorem unit_zero : Ranged 0 1 (.fin 0) := ⟨0, rfl, le_rfl, by norm_num⟩

theorem unit_one : Ranged 0 1 (.fin 1) := ⟨1, rfl, by norm_num, le_rfl⟩

/-- The constants of the sRGB curve. -/
theorem lit_cut : (Arith.ieee Lm).lit 0.04045 = .fin (2914729678834185 / 2 ^ 56) := by
  show Dbl.ofQ 0.04045 = _
  decide +kernel

theorem lit_slope : (Arith.ieee Lm).lit 12.92 = .fin (7273313398203351 / 2 ^ 49) := by
  show Dbl.ofQ 12.92 = _
  decide +kernel

theorem lit_offset : (Arith.ieee Lm).lit 0.055 = .fin (7926335344172073 / 2 ^ 57) := by
  show Dbl.ofQ 0.055 = _
  decide +kernel

theorem lit_scale : (Arith.ieee Lm).lit 1.055 = .fin (4751297606875873 / 2 ^ 52) := by
  show Dbl.ofQ 1.055 = _
  decide +kernel

theorem lit_power : (Arith.ieee Lm).lit 2.4 = .fin (5404319552844595 / 2 ^ 51) := by
  show Dbl.ofQ 2.4 = _
  decide +kernel

theorem lit_cut' : (Arith.ieee Lm).lit 0.0031308 = .fin (7219133293246233 / 2 ^ 61) := by
  show Dbl.ofQ 0.0031308 = _
  decide +kernel

theorem lit_root : (Arith.ieee Lm).div ((Arith.ieee Lm).lit 1) ((Arith.ieee Lm).lit 2.4) =
    .fin (7505999378950827 / 2 ^ 54) := by
  show F32.divWith Dbl.ofQ (Dbl.ofQ 1) (Dbl.ofQ 2.4) = _
  decide +kernel

theorem upto_sum : rneD (1 + 7926335344172073 / 2 ^ 57) = 4751297606875873 / 2 ^ 52 := by decide +kernel

theorem rep_scale : RepD (4751297606875873 / 2 ^ 52) :=
  ⟨4751297606875873, -52, by norm_num, by norm_num, by norm_num [zpow_neg]⟩

theorem rep_offset : RepD (7926335344172073 / 2 ^ 57) :=
  ⟨7926335344172073, -57, by norm_num, by norm_num, by norm_num [zpow_neg]⟩

theorem ieee_le (a b : ℚ) : ((Arith.ieee Lm).lt (.fin a) (.fin b) || (Arith.ieee Lm).eq (.fin a) (.fin b)) = true ↔ a ≤ b := by
  show (decide (a < b) || decide (a = b)) = true ↔ a ≤ b
  rw [Bool.or_eq_true, decide_eq_true_eq, decide_eq_true_eq, le_iff_lt_or_eq]

theorem unit_linear (P : UnitPow Lm) {v : Dbl} (h : Ranged 0 1 v) : Ranged 0 1 ((Arith.ieee Lm).sRGBToLinear v) := by
  obtain ⟨q, rfl, q0, q1⟩ := h
  unfold Arith.sRGBToLinear
  rw [lit_cut, lit_slope, lit_offset, lit_scale, lit_power]
  split
  · have b0 : 0 ≤ q / (7273313398203351 / 2 ^ 49) := by positivity
    have b1 : q / (7273313398203351 / 2 ^ 49) ≤ 1 := by
      rw [div_le_one (by norm_num)]
      exact q1.trans (by norm_num)
    obtain ⟨r0, r1⟩ := unit_round b0 b1
    exact ⟨_, ieee_div (by norm_num) (by rw [abs_of_nonneg b0]; linarith), r0, r1⟩
  · have a0 : 0 ≤ q + 7926335344172073 / 2 ^ 57 := by positivity
    have a1 : q + 7926335344172073 / 2 ^ 57 ≤ 2 := by
      have : (7926335344172073 / 2 ^ 57 : ℚ) ≤ 1 := by norm_num
      linarith
    have s0 := rneD_ge_of linBound_zero.rep a0
    have s1 : rneD (q + 7926335344172073 / 2 ^ 57) ≤ 4751297606875873 / 2 ^ 52 := by
      rw [← upto_sum]
      exact rneD_mono (by linarith)
    rw [ieee_add (by rw [abs_of_nonneg a0]; linarith)]
    have b0 : 0 ≤ rneD (q + 7926335344172073 / 2 ^ 57) / (4751297606875873 / 2 ^ 52) := by positivity
    have b1 : rneD (q + 7926335344172073 / 2 ^ 57) / (4751297606875873 / 2 ^ 52) ≤ 1 := by
      rw [div_le_one (by norm_num)]
      exact s1
    rw [ieee_div (by norm_num) (by rw [abs_of_nonneg b0]; linarith)]
    obtain ⟨r0, r1⟩ := unit_round b0 b1
    obtain ⟨z, e, z0, z1, -⟩ := P _ (5404319552844595 / 2 ^ 51) r0 r1 (by norm_num)
    exact ⟨z, e, z0, z1⟩

theorem unit_sRGB (P : UnitPow Lm) {v : Dbl} (h : Ranged 0 1 v) : Ranged 0 1 ((Arith.ieee Lm).linearToSRGB v) := by
  obtain ⟨q, rfl, q0, q1⟩ := h
  unfold Arith.linearToSRGB
  rw [lit_cut', lit_slope, lit_offset, lit_scale, lit_root]
  split
  · rename_i hq
    rw [ieee_le] at hq
    have b0 : 0 ≤ q * (7273313398203351 / 2 ^ 49) := by positivity
    have b1 : q * (7273313398203351 / 2 ^ 49) ≤ 1 := by
      calc q * (7273313398203351 / 2 ^ 49) ≤ 7219133293246233 / 2 ^ 61 * (7273313398203351 / 2 ^ 49) := by gcongr
        _ ≤ 1 := by norm_num
    obtain ⟨r0, r1⟩ := unit_round b0 b1
    exact ⟨_, ieee_mul (by rw [abs_of_nonneg b0]; linarith), r0, r1⟩
  · rename_i hq
    rw [ieee_le, not_le] at hq
    obtain ⟨z, e, z0, z1, za⟩ := P q (7505999378950827 / 2 ^ 54) q0 q1 (by norm_num)
    show Ranged 0 1 ((Arith.ieee Lm).sub ((Arith.ieee Lm).mul (.fin _) (Lm.pow (.fin q) (.fin _))) (.fin _))
    rw [e]
    -- the power is above the offset
    have zlow : (54 / 1000 : ℚ) ≤ z := by
      have c1 : ((q : ℝ)) ^ (1 / 2 : ℝ) ≤ (q : ℝ) ^ (((7505999378950827 / 2 ^ 54 : ℚ)) : ℝ) := by
        refine Real.rpow_le_rpow_of_exponent_ge ?_ ?_ ?_
        · have : (0 : ℚ) < q := lt_trans (by norm_num) hq
          exact_mod_cast this
        · exact_mod_cast q1
        · norm_num
      have c2 : (55 / 1000 : ℝ) ≤ (q : ℝ) ^ (1 / 2 : ℝ) := by
        rw [← Real.sqrt_eq_rpow]
        refine Real.le_sqrt_of_sq_le ?_
        have : (3 / 1000 + 1 / 10000 : ℚ) ≤ q := le_trans (by norm_num) hq.le
        have : ((3 / 1000 + 1 / 10000 : ℚ) : ℝ) ≤ q := by exact_mod_cast this
        push_cast at this
        linarith
      have c3 := (abs_le.1 za).1
      have : ((54 / 1000 : ℚ) : ℝ) ≤ z := by push_cast; linarith
      exact_mod_cast this
    have m0 : 7926335344172073 / 2 ^ 57 ≤ 4751297606875873 / 2 ^ 52 * z := by
      calc (7926335344172073 / 2 ^ 57 : ℚ) ≤ 4751297606875873 / 2 ^ 52 * (54 / 1000) := by norm_num
        _ ≤ _ := by gcongr
    have m1 : 4751297606875873 / 2 ^ 52 * z ≤ 4751297606875873 / 2 ^ 52 := by
      calc (4751297606875873 / 2 ^ 52 * z : ℚ) ≤ 4751297606875873 / 2 ^ 52 * 1 := by gcongr
        _ = _ := by ring
    have big : (4751297606875873 / 2 ^ 52 : ℚ) ≤ 2 := by norm_num
    have m2 := rneD_ge_of rep_offset m0
    have m3 := rneD_le_of rep_scale m1
    rw [ieee_mul (by rw [abs_of_nonneg (by positivity)]; linarith)]
    have b0 : 0 ≤ rneD (4751297606875873 / 2 ^ 52 * z) - 7926335344172073 / 2 ^ 57 := by linarith
    have b1 : rneD (4751297606875873 / 2 ^ 52 * z) - 7926335344172073 / 2 ^ 57 ≤ 1 := by
      have : (4751297606875873 / 2 ^ 52 - 7926335344172073 / 2 ^ 57 : ℚ) ≤ 1 := by norm_num
      linarith
    obtain ⟨r0, r1⟩ := unit_round b0 b1
    exact ⟨_, ieee_sub (by rw [abs_of_nonneg b0]; linarith), r0, r1⟩

/-- A colour from 0 to 1 can be stored in an image of floats, and what is read back is from 0 to 1. -/
theorem set_unit {f : IFormat} (hf : IsFloat f) {c : Color Dbl} (hc : UnitColor c) :
    ∃ p, setPixelNoGrayscaleImpl (Arith.ieee Lm) f c = .ok p ∧
      ∀ d, getPixelImpl (Arith.ieee Lm) f p = .ok d → UnitColor d := by
  rw [unit_iff] at hc
  obtain ⟨r, g, b, a⟩ := hc
  have s {v : Dbl} (h : Ranged 0 1 v) := ranged_single unit_single_zero unit_single_one h
  have one : Ranged 0 1 ((Arith.ieee Lm).lit 1) := by rw [ieee_one]; exact unit_one
  have zero : Ranged 0 1 ((Arith.ieee Lm).lit 0) := by rw [ieee_zero]; exact unit_zero
  rcases hf with rfl | rfl | rfl | rfl | rfl
  · refine ⟨.nums [c.r.single, c.g.single, c.b.single], rfl, fun d e => ?_⟩
    have e : Res.ok (⟨c.r.single, c.g.single, c.b.single, (Arith.ieee Lm).lit 1⟩ : Color Dbl) = .ok d := e
    cases e
    exact unit_iff.2 ⟨s r, s g, s b, one⟩
  · refine ⟨.nums [c.r.single, c.g.single, c.b.single, c.a.single], rfl, fun d e => ?_⟩
    cases e
    exact unit_iff.2 ⟨s r, s g, s b, s a⟩
  · refine ⟨.nums [c.r.single], rfl, fun d e => ?_⟩
    have e : Res.ok (⟨c.r.single, c.r.single, c.r.single, (Arith.ieee Lm).lit 1⟩ : Color Dbl) = .ok d := e
    cases e
    exact unit_iff.2 ⟨s r, s r, s r, one⟩
  · refine ⟨.nums [c.r], rfl, fun d e => ?_⟩
    have e : Res.ok (⟨c.r, c.r, c.r, (Arith.ieee Lm).lit 1⟩ : Color Dbl) = .ok d := e
    cases e
    exact unit_iff.2 ⟨r, r, r, one⟩
  · refine ⟨.nums [c.r, c.g], rfl, fun d e => ?_⟩
    have e : Res.ok (⟨c.r, c.g, (Arith.ieee Lm).lit 0, (Arith.ieee Lm).lit 1⟩ : Color Dbl) = .ok d := e
    cases e
    refine unit_iff.2 ?_
    simp only [RangedColor, zeros, ones] at r g ⊢
    exact ⟨r, g, zero, one⟩

theorem unitPx {i : Image Dbl} (h : UnitImage Lm i) : RangedPx Lm zeros ones i :=
  fun _ _ c hy hx hc => unit_iff.1 (h c ⟨_, _, getPixel_line hy hx hc⟩)

/-- Changing every pixel. -/
theorem map_unit {i : Image Dbl} (hi : ImgOk (Arith.ieee Lm) i) (hf : IsFloat i.format) (hu : UnitImage Lm i)
    {f : Color Dbl → Color Dbl} (hmap : ∀ c, UnitColor c → UnitColor (f c)) {j : Image Dbl}
    (e : i.mapPixels (Arith.ieee Lm) f = .ok j) : UnitImage Lm j := by
  obtain ⟨j', e', h1, h2, h3, h4, h5, h6⟩ := mapPixels_spec (lawful_ieee Lm) hi (f := f)
    (fun y x _ _ c _ => set_float hf _)
  rw [e] at e'
  cases e'
  rintro d ⟨x, y, ed⟩
  obtain ⟨k1, k2, k3⟩ := getPixel_some ed
  obtain ⟨c, c1, c2⟩ := h6 (j.bmp.height - y - 1) x (by omega) (by omega)
  have hc : UnitColor c := hu c ⟨_, _, getPixel_line (by omega) (by omega) c1⟩
  obtain ⟨p, p1, p2⟩ := set_unit (Lm := Lm) hf (hmap c hc)
  rw [p1] at c2
  cases c2
  rw [h2] at k3
  exact p2 d k3

theorem change_unit (P : UnitPow Lm) {i : Image Dbl} (hi : ImgOk (Arith.ieee Lm) i) (hf : IsFloat i.format)
    (hu : UnitImage Lm i) {cs : ColorSpace} {j : Image Dbl} (e : i.changeColorSpace (Arith.ieee Lm) cs = .ok j) :
    UnitImage Lm j := by
  unfold Image.changeColorSpace at e
  split at e
  · cases e
    exact hu
  · obtain ⟨k, e1, e2⟩ := Res.bind_eq_ok.1 e
    cases e2
    have hk : UnitImage Lm k := map_unit hi hf hu (fun c hc => ?_) e1
    · exact hk
    rw [unit_iff] at hc ⊢
    obtain ⟨r, g, b, a⟩ := hc
    split
    · exact ⟨unit_linear P r, unit_linear P g, unit_linear P b, a⟩
    · exact ⟨unit_sRGB P r, unit_sRGB P g, unit_sRGB P b, a⟩

theorem resizeLinear_unit (F : LawfulFI (Arith.ieee Lm) FI) {i : Image Dbl} (hi : ImgOk (Arith.ieee Lm) i)
    (hc : Countable i) (hf : IsFloat i.format) (hu : UnitImage Lm i) {w h : ℕ} (hw : w < 2 ^ 32) (hh : h < 2 ^ 32)
    {filter : ResizeFilter} (U : UnitFilter Lm FI filter) {j : Image Dbl}
    (e : resizeLinear (Arith.ieee Lm) FI i w h filter = .ok (some j)) : UnitImage Lm j := by
  cases hres : (if rescales i.format then FI.rescale i.bmp w h filter else none) with
  | some b =>
    unfold resizeLinear at e
    rw [hres] at e
    cases e
    split at hres
    · exact U _ _ _ _ _ _ hf hi hu hres
    · cases hres
  | none =>
    by_cases hk : filter = .Box ∨ filter = .Linear
    · obtain ⟨r, er, hr⟩ := resizeLinear_defined (A := Arith.ieee Lm) (FI := FI) (filter := filter) (w := w) (h := h) (i := i)
        (Q := UnitColor) (R := fun p => ∀ d, getPixelImpl (Arith.ieee Lm) i.format p = .ok d → UnitColor d) F (by
          intro y x hy hx
          obtain ⟨c, e1, e2⟩ := boxPixel_ieee hi hc hw hh hy hx
          obtain ⟨d, e3, e4⟩ := linearPixel_ieee hi hc hw hh hy hx
          have hs := window_small hc (w := w) (h := h)
          exact ⟨⟨c, e1, unit_iff.2 (e2 _ _ (zeros_lin.imp fun b h => h.box (by omega))
            (ones_lin.imp fun b h => h.box (by omega)) (unitPx hu))⟩, d, e3, unit_iff.2 (e4 _ _ zeros_lin ones_lin (unitPx hu))⟩)
        (fun c hc => set_unit hf hc)
      rw [e] at er
      cases er
      rintro d ⟨x, y, ed⟩
      obtain ⟨-, j2, -, j4, j5⟩ := resizeLinear_keep (lawful_ieee Lm) F hi e
      obtain ⟨k1, k2, k3⟩ := getPixel_some ed
      rw [j2] at k3
      exact hr hres j rfl _ _ (by omega) (by omega) d k3
    · unfold resizeLinear at e
      rw [hres] at e
      cases filter
      case Box | Linear => simp at hk
      all_goals cases e

theorem resize_unit (P : UnitPow Lm) (F : LawfulFI (Arith.ieee Lm) FI) {i : Image Dbl} (hi : ImgOk (Arith.ieee Lm) i)
    (hc : Countable i) (hf : IsFloat i.format) (hu : UnitImage Lm i) {w h : ℕ} (hw : w < 2 ^ 32) (hh : h < 2 ^ 32)
    {filter : ResizeFilter} (U : UnitFilter Lm FI filter) {j : Image Dbl}
    (e : i.resize (Arith.ieee Lm) FI w h filter = .ok (some j)) : UnitImage Lm j := by
  unfold Image.resize at e
  split at e
  · cases e
  split at e
  · cases copy_keep F (Res.ok.inj e)
    exact hu
  split at e
  · cases hk : i.copy FI with
    | none => rw [hk] at e; cases e
    | some k =>
      cases copy_keep F hk
      rw [hk] at e
      dsimp only at e
      obtain ⟨l, e1, e2⟩ := Res.bind_eq_ok.1 e
      obtain ⟨j1, j2, j3, j4, j5⟩ := changeColorSpace_keep (lawful_ieee Lm) hi e1
      obtain ⟨r, e3, e4⟩ := Res.bind_eq_ok.1 e2
      cases r with
      | none => cases e4
      | some m =>
        dsimp only at e4
        obtain ⟨n, e5, e6⟩ := Res.bind_eq_ok.1 e4
        cases e6
        have hl : UnitImage Lm l := change_unit P hi hf hu e1
        have hm := resizeLinear_unit F j1 (by unfold Spec.Countable; rw [j4, j5]; exact hc) (by rw [j2]; exact hf) hl hw hh U e3
        obtain ⟨l1, l2, -⟩ := resizeLinear_keep (lawful_ieee Lm) F j1 e3
        exact change_unit P l1 (by rw [l2, j2]; exact hf) hm e5
  · exact resizeLinear_unit F hi hc hf hu hw hh U e

end Cuttlefish
