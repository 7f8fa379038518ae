import Verif.Model.Mips3d
import Verif.Proofs.UnitIeee
import Verif.Proofs.Mips3dSafe
/-
Colours from 0 to 1 stay there when a 3D texture is reduced along its depth.
-/
namespace Cuttlefish
open Spec
variable {Lm : Libm} {FI : FreeImage Dbl}

/-- The weight of a slice. -/
theorem slice_weight {n k : ℕ} {c s : ℚ} (hn : n < 2 ^ 31) (c0 : 0 < c) (c1 : c < n) (s0 : 0 < s) (s1 : s ≤ 1) (hk : k < n) :
    ∃ w, RepD w ∧ (Arith.ieee Lm).max ((Arith.ieee Lm).sub ((Arith.ieee Lm).lit 1)
      (distanceTo (Arith.ieee Lm) k (.fin c) (.fin s))) ((Arith.ieee Lm).lit 0) = .fin w ∧
      0 ≤ w ∧ w ≤ 1 ∧ (w ≠ 0 → (2 : ℚ)⁻¹ ^ 54 ≤ w) ∧ (k = ⌊c⌋.toNat → w ≠ 0) := by
  obtain ⟨d, d1, e, d2, d3, d4⟩ := ieee_distance (Lm := Lm) hn hk c0 c1 s0 s1
  obtain ⟨w, h1, h2, h3, h4, h5, h6⟩ := ieee_weight (Lm := Lm) d1 d2 d3
  exact ⟨w, h1, by rw [e, h2], h3, h4, h5, fun hk => h6 (d4 hk)⟩

/-- A pixel of an output slice is the stored form of a quotient of a sum, or of a weighted sum, of slices. -/
theorem pixel3d_steps {prev : List (Image Dbl)} (hne : prev ≠ []) (hlen : prev.length < 2 ^ 31) {depth d y x : ℕ}
    (hd : d < depth) (hdep : depth < 2 ^ 32) (cs : ColorSpace) (filter : ResizeFilter) (R : Color Dbl → Prop)
    (src : ∀ k < prev.length, ∃ c, sliceSource (Arith.ieee Lm) prev cs y x k = .ok c ∧ R c)
    (S : ℕ → Color Dbl → Prop) (start1 : S 0 (zeroColor (Arith.ieee Lm)))
    (step1 : ∀ n s c, n < prev.length → S n s → R c → S (n + 1) (addColor (Arith.ieee Lm) s c))
    (B : ℕ → ℚ → Color Dbl → Prop) (start2 : ∀ n, B n 0 (zeroColor (Arith.ieee Lm)))
    (more : ∀ n t s, B n t s → 0 ≤ t → B (n + 1) t s)
    (step2 : ∀ (n : ℕ) (t : ℚ) s v c, n < prev.length → 0 ≤ t → t ≤ n → (2 : ℚ)⁻¹ ^ 108 ≤ v → v ≤ 1 → RepD v →
      B n t s → R c → B (n + 1) (rneD (t + v)) (addScaled (Arith.ieee Lm) s c (.fin v))) :
    ∃ c, pixel3d (Arith.ieee Lm) prev depth cs filter d y x = .ok (storedResult (Arith.ieee Lm) cs c) ∧
      ((∃ (s : Color Dbl) (n : ℕ), c = divColor (Arith.ieee Lm) s (.fin n) ∧ 0 < n ∧ n ≤ prev.length ∧ S n s) ∨
        ∃ (s : Color Dbl) (t : ℚ) (n : ℕ), c = divColor (Arith.ieee Lm) s (.fin t) ∧ 0 < t ∧ t ≤ n ∧ n ≤ prev.length ∧
          B n t s) := by
  have hn : 0 < prev.length := List.length_pos_iff.2 hne
  obtain ⟨c, o, s, hc, c0, c1, -, o0, o1, -, s0, s1, e1, e2, e3⟩ := ieee_axis (Lm := Lm) hn hlen hd hdep
  obtain ⟨start, stop, ew, w1, w2, w3⟩ := ieee_window (Lm := Lm) hlen hc c0 c1 (by linarith) o1
  have rep0 : RepD 0 := by simpa using repD_small (n := 0) (by norm_num)
  generalize hax : axis (Arith.ieee Lm) prev.length depth = ax at e1 e2 e3
  obtain ⟨inv, off, scale⟩ := ax
  simp only at e1 e2 e3
  subst e2 e3
  unfold pixel3d
  split
  · unfold boxPixel3d
    have near : ¬ (Arith.ieee Lm).lt ((Arith.ieee Lm).lit 0.5)
        (distanceTo (Arith.ieee Lm) ⌊c⌋.toNat (.fin c) (.fin s)) = true := by
      obtain ⟨d, -, e, -, -, hd⟩ := ieee_distance (Lm := Lm) hlen (i := ⌊c⌋.toNat) (by omega) c0 c1 s0 s1
      rw [e, ieee_half]
      show ¬ decide ((1 / 2 : ℚ) < d) = true
      simpa using hd rfl
    obtain ⟨⟨col, tot⟩, e, p1, p2, p3⟩ := loop_inv (lo := start) (n := stop - start)
      (s := (zeroColor (Arith.ieee Lm), 0))
      (P := fun i (s' : Color Dbl × ℕ) => s'.2 ≤ i ∧ S s'.2 s'.1 ∧
        (⌊c⌋.toNat < i → 0 < s'.2))
      (f := fun i (s' : Color Dbl × ℕ) =>
        if (Arith.ieee Lm).lt ((Arith.ieee Lm).lit 0.5) (distanceTo (Arith.ieee Lm) i (.fin c) (.fin s)) then .ok s'
        else do
          let c ← sliceSource (Arith.ieee Lm) prev cs y x i
          .ok (addColor (Arith.ieee Lm) s'.1 c, u32 (s'.2 + 1)))
      ⟨Nat.zero_le _, start1, fun h => by omega⟩ (by
        intro i hi1 hi2 s' ⟨h1, h2, h3⟩
        by_cases hfar : (Arith.ieee Lm).lt ((Arith.ieee Lm).lit 0.5) (distanceTo (Arith.ieee Lm) i (.fin c) (.fin s)) = true
        · refine ⟨s', if_pos hfar, by omega, h2, fun h => ?_⟩
          by_cases hi : i = ⌊c⌋.toNat
          · rw [hi] at hfar
            exact absurd hfar near
          · exact h3 (by omega)
        · obtain ⟨c', ec, rc⟩ := src i (by omega)
          have hu : u32 (s'.2 + 1) = s'.2 + 1 := Nat.mod_eq_of_lt (by unfold pow32; omega)
          refine ⟨(addColor (Arith.ieee Lm) s'.1 c', s'.2 + 1), ?_, by simp only; omega, ?_, fun _ => by simp only; omega⟩
          · rw [if_neg hfar, ec, Res.ok_bind, hu]
          · exact step1 _ _ _ (by omega) h2 rc)
    simp only at p1 p2 p3
    have elit : (Arith.ieee Lm).lit (tot : ℚ) = .fin tot := ieee_nat (by omega)
    refine ⟨divColor (Arith.ieee Lm) col ((Arith.ieee Lm).lit tot), ?_, .inl ?_⟩
    · have e' : loop (steps start stop) _ (zeroColor (Arith.ieee Lm), 0) = _ := e
      simp only [hax, e1, ew, Res.ok_bind, e']
    · exact ⟨col, tot, by rw [elit], p3 (by omega), by omega, p2⟩
  · unfold linearPixel3d
    have isz (q : ℚ) : ((Arith.ieee Lm).eq (.fin q) ((Arith.ieee Lm).lit 0) = true) ↔ q = 0 := by
      rw [ieee_zero]
      show decide (q = 0) = true ↔ q = 0
      simp
    obtain ⟨⟨col, tot⟩, e, t, et, t0, t1, p2, p3⟩ := loop_inv (lo := start) (n := stop - start)
      (s := (zeroColor (Arith.ieee Lm), (Arith.ieee Lm).lit 0))
      (P := fun i (s' : Color Dbl × Dbl) => ∃ t : ℚ, s'.2 = .fin t ∧ 0 ≤ t ∧ t ≤ i ∧
        B i t s'.1 ∧ (⌊c⌋.toNat < i → 0 < t))
      (f := fun i (s' : Color Dbl × Dbl) =>
        if (Arith.ieee Lm).eq ((Arith.ieee Lm).max ((Arith.ieee Lm).sub ((Arith.ieee Lm).lit 1)
          (distanceTo (Arith.ieee Lm) i (.fin c) (.fin s))) ((Arith.ieee Lm).lit 0)) ((Arith.ieee Lm).lit 0) then .ok s'
        else do
          let c' ← sliceSource (Arith.ieee Lm) prev cs y x i
          .ok (addScaled (Arith.ieee Lm) s'.1 c' ((Arith.ieee Lm).max ((Arith.ieee Lm).sub ((Arith.ieee Lm).lit 1)
            (distanceTo (Arith.ieee Lm) i (.fin c) (.fin s))) ((Arith.ieee Lm).lit 0)),
            (Arith.ieee Lm).add s'.2 ((Arith.ieee Lm).max ((Arith.ieee Lm).sub ((Arith.ieee Lm).lit 1)
              (distanceTo (Arith.ieee Lm) i (.fin c) (.fin s))) ((Arith.ieee Lm).lit 0))))
      ⟨0, by dsimp only; exact ieee_zero, le_rfl, by positivity, start2 _, fun h => by omega⟩ (by
        intro i hi1 hi2 s' ⟨t, h1, h2, h3, h4, h5⟩
        obtain ⟨w, w1, w2, w3, w4, w5, w6⟩ := slice_weight (Lm := Lm) hlen c0 c1 s0 s1 (k := i) (by omega)
        rw [w2]
        by_cases hw : w = 0
        · refine ⟨s', if_pos ((isz w).2 hw), t, h1, h2, h3.trans (by push_cast; linarith), more _ _ _ h4 h2, fun h => ?_⟩
          by_cases hi : i = ⌊c⌋.toNat
          · exact absurd hw (w6 hi)
          · exact h5 (by omega)
        · obtain ⟨c', ec, rc⟩ := src i (by omega)
          have low := w5 hw
          have i32 : (i : ℚ) ≤ 2 ^ 32 := by exact_mod_cast (by omega : i ≤ 2 ^ 32)
          have rep54 : RepD ((2 : ℚ)⁻¹ ^ 54) := ⟨1, -54, by norm_num, by norm_num, by rw [zpow_neg, inv_pow]; norm_num⟩
          have ea : (Arith.ieee Lm).add (.fin t) (.fin w) = .fin (rneD (t + w)) :=
            ieee_add (by rw [abs_of_nonneg (by linarith)]; linarith)
          have repn : RepD ((i + 1 : ℕ) : ℚ) := by
            exact_mod_cast repD_small (n := ((i + 1 : ℕ) : ℤ)) (by rw [abs_of_nonneg (by positivity)]; norm_cast; omega)
          refine ⟨_, by rw [if_neg (by rw [isz]; exact hw), ec, Res.ok_bind], rneD (t + w), ?_, ?_, ?_, ?_, fun _ => ?_⟩
          · rw [h1, ea]
          · exact rneD_ge_of rep0 (by linarith)
          · exact rneD_le_of repn (by push_cast; linarith)
          · exact step2 i t s'.1 w c' (by omega) h2 h3 (le_trans (by norm_num) low) w4 w1 h4 rc
          · exact lt_of_lt_of_le (by positivity) (rneD_ge_of rep54 (q := t + w) (by linarith)))
    simp only at et p2 p3
    refine ⟨divColor (Arith.ieee Lm) col tot, ?_, .inr ?_⟩
    · have e' : loop (steps start stop) _ (zeroColor (Arith.ieee Lm), (Arith.ieee Lm).lit 0) = _ := e
      simp only [hax, e1, ew, Res.ok_bind, e']
    · exact ⟨col, t, _, by rw [et], p3 (by omega), t1, by omega, p2⟩

/-- A pixel of an output slice is the stored form of a colour in the range of the slices. -/
theorem pixel3d_ranged {prev : List (Image Dbl)} (hne : prev ≠ []) (hlen : prev.length < 2 ^ 31) {depth d y x : ℕ}
    (hd : d < depth) (hdep : depth < 2 ^ 32) (cs : ColorSpace) (filter : ResizeFilter) {lo hi : Color ℚ}
    (hlo : AllBounds LinBound lo) (hhi : AllBounds LinBound hi)
    (src : ∀ k < prev.length, ∃ c, sliceSource (Arith.ieee Lm) prev cs y x k = .ok c ∧ RangedColor lo hi c) :
    ∃ c, pixel3d (Arith.ieee Lm) prev depth cs filter d y x = .ok (storedResult (Arith.ieee Lm) cs c) ∧
      RangedColor lo hi c := by
  have lo' := hlo.imp (Q := fun b => |b| ≤ 2 ^ 900 ∧ RepD b) fun b h => ⟨h.1, h.rep⟩
  have hi' := hhi.imp (Q := fun b => |b| ≤ 2 ^ 900 ∧ RepD b) fun b h => ⟨h.1, h.rep⟩
  obtain ⟨c, e, k⟩ := pixel3d_steps hne hlen hd hdep cs filter (RangedColor lo hi) src
    (fun n s => RangedColor (timesColor lo n) (timesColor hi n) s) (by simpa using ranged_zero lo hi)
    (fun n s c hn hs hc => rangedColor_add (m := prev.length) (hlo.imp fun b h => h.box (by omega))
      (hhi.imp fun b h => h.box (by omega)) hn (by omega) hs hc)
    (fun _ t s => RangedColor (timesColor lo t) (timesColor hi t) s) (fun _ => ranged_zero lo hi) (fun _ _ _ h _ => h)
    (fun n t s v c hn t0 tn v0 v1 rv hs hc => rangedColor_addScaled hlo hhi (by omega) t0 tn (tiny_weight.trans v0) v1 rv hs hc)
  refine ⟨c, e, ?_⟩
  rcases k with ⟨s, n, rfl, n0, -, hs⟩ | ⟨s, t, n, rfl, t0, -, -, hs⟩
  · exact rangedColor_div lo' hi' (by exact_mod_cast n0) hs
  · exact rangedColor_div lo' hi' t0 hs

theorem unit_single {v : Dbl} (h : Ranged 0 1 v) : Ranged 0 1 ((Arith.ieee Lm).single v) :=
  ranged_single unit_single_zero unit_single_one h

theorem source_unit (P : UnitPow Lm) {c : Color Dbl} (h : UnitColor c) (cs : ColorSpace) :
    UnitColor (linearSource (Arith.ieee Lm) cs c) := by
  unfold linearSource
  split
  · rw [unit_iff] at h ⊢
    exact ⟨unit_single (Lm := Lm) (unit_linear P h.1), unit_single (Lm := Lm) (unit_linear P h.2.1), unit_single (Lm := Lm) (unit_linear P h.2.2.1), h.2.2.2⟩
  · exact h

theorem result_unit (P : UnitPow Lm) {c : Color Dbl} (h : UnitColor c) (cs : ColorSpace) :
    UnitColor (storedResult (Arith.ieee Lm) cs c) := by
  rw [unit_iff] at h ⊢
  have r := unit_single (Lm := Lm) h.1
  have g := unit_single (Lm := Lm) h.2.1
  have b := unit_single (Lm := Lm) h.2.2.1
  have a := unit_single (Lm := Lm) h.2.2.2
  unfold storedResult
  split
  · exact ⟨unit_single (Lm := Lm) (unit_sRGB P r), unit_single (Lm := Lm) (unit_sRGB P g), unit_single (Lm := Lm) (unit_sRGB P b), a⟩
  · exact ⟨r, g, b, a⟩

/-- A slice of a mipmap of images with colours from 0 to 1. -/
theorem mipSlice3d_unit (P : UnitPow Lm) (F : LawfulFI (Arith.ieee Lm) FI)
    {prev : List (Image Dbl)} (hne : prev ≠ []) (hlen : prev.length < 2 ^ 31) {w h depth d : ℕ}
    (hd : d < depth) (hdep : depth < 2 ^ 32)
    (hok : ∀ i ∈ prev, ImgOk (Arith.ieee Lm) i ∧ i.bmp.width = w ∧ i.bmp.height = h) (hu : ∀ i ∈ prev, UnitImage Lm i)
    {cs : ColorSpace} {filter : ResizeFilter} {j : Image Dbl}
    (e : mipSlice3d (Arith.ieee Lm) FI prev w h depth cs filter d = .ok j) : UnitImage Lm j := by
  unfold mipSlice3d at e
  cases hn : Image.new FI .RGBAF w h cs with
  | none => rw [hn] at e; cases e
  | some dst =>
    rw [hn] at e
    obtain ⟨n1, n2, n3, n4, -⟩ := new_ok F hn
    obtain ⟨j', e', h1, h2, h3, h4, h5⟩ := write_grid (dst := dst) (h := h) (w := w)
      (q := fun y x => (h - y - 1, x)) (P := fun _ _ p => ∀ c, getPixelImpl (Arith.ieee Lm) .RGBAF p = .ok c → UnitColor c)
      (body := fun y x dst => do
        let c ← pixel3d (Arith.ieee Lm) prev depth cs filter d y x
        dst.put (dst.bmp.height - y - 1) x (.nums [c.r, c.g, c.b, c.a])) (by
        intro y hy x hx D df dw dh dp
        obtain ⟨c, ec, rc⟩ := pixel3d_ranged (Lm := Lm) hne hlen hd hdep (y := y) (x := x) cs filter zeros_lin ones_lin (by
          intro k hk
          obtain ⟨k1, k2, k3⟩ := hok prev[k] (List.getElem_mem hk)
          obtain ⟨c, ec, ec'⟩ := Image.get_ok k1 (show prev[k].bmp.height - y - 1 < prev[k].bmp.height by omega)
            (show x < prev[k].bmp.width by omega)
          refine ⟨linearSource (Arith.ieee Lm) cs c, ?_, ?_⟩
          · unfold sliceSource
            rw [List.getElem?_eq_getElem hk]
            simp only [Image.scan, if_pos (show y < prev[k].bmp.height by omega), ec, Res.ok_bind]
          · exact unit_iff.1 (source_unit P (hu prev[k] (List.getElem_mem hk) c
              ⟨_, _, getPixel_line (by omega) (by omega) ec'⟩) cs))
        refine ⟨_, ?_, by
          rw [ec, Res.ok_bind, dh, n4]
          exact Image.put_ok (i := D) (y := h - y - 1) (x := x) (by omega) (by omega) _⟩
        intro c' ec'
        have ec' : Res.ok (⟨_, _, _, _⟩ : Color Dbl) = .ok c' := ec'
        cases ec'
        exact result_unit P (unit_iff.2 rc) cs)
      (by
        intro y hy x hx y' hy' x' hx' h
        simp only [Prod.mk.injEq] at h
        omega)
    have e'' : Res.ok j' = .ok j := e'.symm.trans e
    cases e''
    rintro c ⟨x, y, ec⟩
    obtain ⟨k1, k2, k3⟩ := getPixel_some ec
    rw [h1, n1] at k3
    have := h5 y (by omega) x (by omega)
    dsimp only at this
    refine this c ?_
    rwa [show j.bmp.height - y - 1 = h - y - 1 by omega] at k3

end Cuttlefish
