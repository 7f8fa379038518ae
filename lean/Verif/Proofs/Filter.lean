import Verif.Proofs.ImageMap
/-
The box and linear filters in exact arithmetic.
-/
namespace Cuttlefish
open Spec

theorem exact_max (a b : ℝ) : Arith.exact.max a b = max a b := by
  simp only [Arith.max, Arith.exact, decide_eq_true_eq]
  split
  · rw [max_eq_right (by linarith)]
  · rw [max_eq_left (by linarith)]

theorem exact_abs (a : ℝ) : Arith.exact.abs a = |a| := by
  simp only [Arith.abs, Arith.exact, decide_eq_true_eq, Rat.cast_zero, zero_sub]
  split
  · rw [abs_of_neg ‹_›]
  · rw [abs_of_nonneg (by linarith)]

theorem exact_axis (n k : Nat) :
    axis Arith.exact n k = ((n : ℝ) / k, max ((n : ℝ) / k) 1, 1 / max ((n : ℝ) / k) 1) := by
  simp only [axis, exact_max]
  simp only [Arith.exact, Rat.cast_natCast, Rat.cast_one]

theorem exact_center (k : Nat) (s : ℝ) : centerOf Arith.exact k s = ((k : ℝ) + 1 / 2) * s := by
  simp only [centerOf, Arith.exact, Rat.cast_natCast]
  norm_num

theorem exact_distance (i : Nat) (c s : ℝ) :
    distanceTo Arith.exact i c s = |(i : ℝ) + 1 / 2 - c| * s := by
  simp only [distanceTo, exact_abs]
  simp only [Arith.exact, Rat.cast_natCast]
  norm_num

theorem exact_window (c o : ℝ) (n : Nat) : window Arith.exact c o n = (do
    let lo ← Arith.exact.cast (-2 ^ 31) (2 ^ 31 - 1) (c - o + 1 / 2)
    let hi ← Arith.exact.cast 0 (2 ^ 32 - 1) (c + o + 1 / 2)
    .ok (lo.toNat, Nat.min hi.toNat n)) := by
  have : ((0.5 : ℚ) : ℝ) = 1 / 2 := by norm_num
  simp only [window, Arith.exact, this]

/-- The middle of an output pixel is inside of the source. -/
theorem center_inside {n k x : Nat} (hn : 0 < n) (hx : x < k) :
    0 < ((x : ℝ) + 1 / 2) * ((n : ℝ) / k) ∧ ((x : ℝ) + 1 / 2) * ((n : ℝ) / k) < n ∧
      ((x : ℝ) + 1 / 2) * ((n : ℝ) / k) + (n : ℝ) / k / 2 ≤ n := by
  have hk : (0 : ℝ) < k := by exact_mod_cast (by omega : 0 < k)
  have hn' : (0 : ℝ) < n := by exact_mod_cast hn
  have hx' : (x : ℝ) + 1 ≤ k := by exact_mod_cast hx
  have e : (n : ℝ) / k * k = n := div_mul_cancel₀ _ hk.ne'
  have hq : 0 < (n : ℝ) / k := by positivity
  have h3 : ((x : ℝ) + 1) * ((n : ℝ) / k) ≤ n := by
    calc ((x : ℝ) + 1) * ((n : ℝ) / k) ≤ k * ((n : ℝ) / k) := by gcongr
      _ = n := by rw [mul_comm, e]
  refine ⟨by positivity, ?_, ?_⟩ <;> nlinarith

/-- The window contains the source pixel that contains the middle, and only source pixels. -/
theorem window_ok {n : Nat} {c o : ℝ} (hn : n < 2 ^ 31) (h0 : 0 < c) (h1 : c < n) (ho : 1 / 2 ≤ o)
    (ho' : c + o ≤ 3 / 2 * n + 1) (hc : -n ≤ c - o) :
    ∃ lo hi, window Arith.exact c o n = .ok (lo, hi) ∧ lo ≤ ⌊c⌋.toNat ∧ ⌊c⌋.toNat < hi ∧ hi ≤ n := by
  have hn' : (n : ℝ) ≤ 2 ^ 31 - 1 := by exact_mod_cast (show (n : ℤ) ≤ 2 ^ 31 - 1 by omega)
  have f0 : 0 ≤ ⌊c⌋ := Int.floor_nonneg.2 h0.le
  have f1 : ⌊c⌋ < n := by rw [Int.floor_lt]; exact_mod_cast h1
  have a1 : whole (c - o + 1 / 2) ≤ ⌊c⌋ := by
    calc whole (c - o + 1 / 2) ≤ whole c := whole_mono (by linarith)
      _ = ⌊c⌋ := if_pos h0.le
  have a2 : -2 ^ 31 ≤ whole (c - o + 1 / 2) := by
    calc -2 ^ 31 ≤ -(n : ℤ) := by omega
      _ = whole ((-(n : ℤ) : ℤ) : ℝ) := (whole_int _).symm
      _ ≤ whole (c - o + 1 / 2) := whole_mono (by push_cast; linarith)
  have b1 : ⌊c⌋ + 1 ≤ whole (c + o + 1 / 2) := by
    calc ⌊c⌋ + 1 = whole ((⌊c⌋ + 1 : ℤ) : ℝ) := (whole_int _).symm
      _ ≤ whole (c + o + 1 / 2) := whole_mono (by push_cast; linarith [Int.floor_le c])
  have b2 : whole (c + o + 1 / 2) ≤ 2 ^ 32 - 1 := by
    calc whole (c + o + 1 / 2) ≤ whole ((2 ^ 32 - 1 : ℤ) : ℝ) := whole_mono (by push_cast; linarith)
      _ = 2 ^ 32 - 1 := whole_int _
  refine ⟨(whole (c - o + 1 / 2)).toNat, Nat.min (whole (c + o + 1 / 2)).toNat n, ?_, by omega, ?_, Nat.min_le_right _ _⟩
  · rw [exact_window, cast_whole, cast_whole, if_pos ⟨a2, by omega⟩, if_pos ⟨by omega, b2⟩]
    rfl
  · rw [Nat.lt_min]
    omega

/-- `s` is a sum of colours between `lo` and `hi` with weights that sum to `t`. -/
def SumOf (lo hi : Color ℝ) (t : ℝ) (s : Color ℝ) : Prop :=
  (t * lo.r ≤ s.r ∧ s.r ≤ t * hi.r) ∧ (t * lo.g ≤ s.g ∧ s.g ≤ t * hi.g) ∧
    (t * lo.b ≤ s.b ∧ s.b ≤ t * hi.b) ∧ (t * lo.a ≤ s.a ∧ s.a ≤ t * hi.a)

theorem sumOf_zero (lo hi : Color ℝ) : SumOf lo hi 0 (zeroColor Arith.exact) := by
  simp [SumOf, zeroColor, Arith.exact]

theorem SumOf.add {lo hi s c : Color ℝ} {t w : ℝ} (h : SumOf lo hi t s) (hw : 0 ≤ w) (h1 : Below lo c)
    (h2 : Below c hi) : SumOf lo hi (t + w) (addScaled Arith.exact s c w) := by
  obtain ⟨l1, l2, l3, l4⟩ := h1
  obtain ⟨u1, u2, u3, u4⟩ := h2
  obtain ⟨⟨a1, a2⟩, ⟨b1, b2⟩, ⟨c1, c2⟩, d1, d2⟩ := h
  have key {a x b S : ℝ} (e1 : a ≤ x) (e2 : x ≤ b) (e3 : t * a ≤ S) (e4 : S ≤ t * b) :
      (t + w) * a ≤ S + x * w ∧ S + x * w ≤ (t + w) * b := by
    have := mul_le_mul_of_nonneg_right e1 hw
    have := mul_le_mul_of_nonneg_right e2 hw
    constructor <;> nlinarith
  exact ⟨key l1 u1 a1 a2, key l2 u2 b1 b2, key l3 u3 c1 c2, key l4 u4 d1 d2⟩

theorem SumOf.add_one {lo hi s c : Color ℝ} {t : ℝ} (h : SumOf lo hi t s) (h1 : Below lo c)
    (h2 : Below c hi) : SumOf lo hi (t + 1) (addColor Arith.exact s c) := by
  have := h.add zero_le_one h1 h2
  simpa [addScaled, addColor, Arith.exact] using this

theorem SumOf.div {lo hi s : Color ℝ} {t : ℝ} (h : SumOf lo hi t s) (ht : 0 < t) :
    Below lo (divColor Arith.exact s t) ∧ Below (divColor Arith.exact s t) hi := by
  obtain ⟨⟨a1, a2⟩, ⟨b1, b2⟩, ⟨c1, c2⟩, d1, d2⟩ := h
  have key {a S : ℝ} (e : t * a ≤ S) : a ≤ S / t := by rw [le_div_iff₀ ht]; linarith
  have key' {a S : ℝ} (e : S ≤ t * a) : S / t ≤ a := by rw [div_le_iff₀ ht]; linarith
  exact ⟨⟨key a1, key b1, key c1, key d1⟩, key' a2, key' b2, key' c2, key' d2⟩

/-- The double loop over a window, some rows of which are skipped: `K n` holds after at most `n` pixels,
and `Pos` as soon as the pixel in the middle is passed. -/
theorem window_grid {S : Type} {top bottom left right i0 j0 : Nat} {skip : Nat → Prop} [DecidablePred skip]
    {cell : Nat → Nat → S → Res S} {K : Nat → S → Prop} {Pos : S → Prop} {s0 : S}
    (hi0 : top ≤ i0 ∧ i0 < bottom) (hj0 : left ≤ j0 ∧ j0 < right) (hskip : ¬ skip i0) (h0 : K 0 s0)
    (hmono : ∀ n m s, n ≤ m → K n s → K m s)
    (hcell : ∀ i j, top ≤ i → i < bottom → left ≤ j → j < right → ¬ skip i → ∀ n s,
      n < (bottom - top) * (right - left) → K n s →
      ∃ s', cell i j s = .ok s' ∧ K (n + 1) s' ∧ (Pos s ∨ (i = i0 ∧ j = j0) → Pos s')) :
    ∃ s', loop (steps top bottom) (fun i s => if skip i then .ok s else loop (steps left right) (cell i) s) s0 =
      .ok s' ∧ K ((bottom - top) * (right - left)) s' ∧ Pos s' := by
  obtain ⟨s', e, p1, p2⟩ := loop_inv (lo := top) (n := bottom - top) (s := s0)
    (f := fun i s => if skip i then .ok s else loop (steps left right) (cell i) s)
    (P := fun i s => K ((i - top) * (right - left)) s ∧ (i0 < i → Pos s)) ⟨by simpa using h0, by omega⟩ (by
      intro i h1 h2 s ⟨q1, q2⟩
      have hle : (i - top) * (right - left) + (right - left) = (i + 1 - top) * (right - left) := by
        rw [show i + 1 - top = (i - top) + 1 by omega]
        ring
      have htot : (i + 1 - top) * (right - left) ≤ (bottom - top) * (right - left) :=
        Nat.mul_le_mul_right _ (by omega)
      by_cases hs : skip i
      · refine ⟨s, if_pos hs, hmono _ _ _ (by omega) q1, fun h => q2 ?_⟩
        have : i ≠ i0 := by rintro rfl; exact hskip hs
        omega
      · obtain ⟨s', e, p1, p2⟩ := loop_inv (lo := left) (n := right - left) (s := s) (f := cell i)
          (P := fun j s => K ((i - top) * (right - left) + (j - left)) s ∧ (i0 < i ∨ i = i0 ∧ j0 < j → Pos s))
          ⟨by simpa using q1, fun h => q2 (by omega)⟩ (by
            intro j g1 g2 s ⟨r1, r2⟩
            obtain ⟨s', e, k, pos⟩ := hcell i j h1 (by omega) g1 (by omega) hs _ s (by omega) r1
            refine ⟨s', e, ?_, fun h => pos ?_⟩
            · rwa [show (i - top) * (right - left) + (j + 1 - left) =
                (i - top) * (right - left) + (j - left) + 1 by omega]
            · by_cases h' : i0 < i ∨ i = i0 ∧ j0 < j
              · exact Or.inl (r2 h')
              · exact Or.inr (by omega))
        refine ⟨s', by simpa only [if_neg hs, steps] using e, ?_, fun h => p2 (by omega)⟩
        rwa [show left + (right - left) - left = right - left by omega, hle] at p1)
  refine ⟨s', e, ?_, p2 (by omega)⟩
  rwa [show top + (bottom - top) - top = bottom - top by omega] at p1

/-- All pixels of the image are between two colours. -/
def Bounded (i : Image ℝ) (lo hi : Color ℝ) : Prop :=
  ∀ y x c, y < i.bmp.height → x < i.bmp.width → getPixelImpl Arith.exact i.format (i.bmp.px y x) = .ok c →
    Below lo c ∧ Below c hi

theorem axis_facts {n k x : Nat} (hn : 0 < n) (hx : x < k) {o : ℝ}
    (ho : o = max ((n : ℝ) / k) 1 ∨ o = max ((n : ℝ) / k) 1 / 2) :
    1 / 2 ≤ o ∧ ((x : ℝ) + 1 / 2) * ((n : ℝ) / k) + o ≤ 3 / 2 * n + 1 ∧
      -(n : ℝ) ≤ ((x : ℝ) + 1 / 2) * ((n : ℝ) / k) - o := by
  obtain ⟨h1, h2, h3⟩ := center_inside hn hx
  have hn' : (1 : ℝ) ≤ n := by exact_mod_cast hn
  have hk : (1 : ℝ) ≤ k := by exact_mod_cast (by omega : 1 ≤ k)
  have hq : (n : ℝ) / k ≤ n := div_le_self (by linarith) hk
  have hm : 1 ≤ max ((n : ℝ) / k) 1 := le_max_right _ _
  have ho2 : 1 / 2 ≤ o := by rcases ho with rfl | rfl <;> linarith
  have ho3 : o ≤ max ((n : ℝ) / k) 1 := by rcases ho with rfl | rfl <;> linarith
  refine ⟨ho2, ?_, ?_⟩
  · rcases max_choice ((n : ℝ) / k) 1 with h | h <;> rw [h] at ho3
    · linarith
    · linarith
  · rcases max_choice ((n : ℝ) / k) 1 with h | h <;> rw [h] at ho3 <;> linarith

/-- The source pixel around the middle is near it. -/
theorem middle_near {n k : Nat} {c : ℝ} (h0 : 0 < c) :
    |((⌊c⌋.toNat : ℕ) : ℝ) + 1 / 2 - c| * (1 / max ((n : ℝ) / k) 1) ≤ 1 / 2 := by
  have f0 : 0 ≤ ⌊c⌋ := Int.floor_nonneg.2 h0.le
  have e : ((⌊c⌋.toNat : ℕ) : ℝ) = (⌊c⌋ : ℝ) := by
    have : ((⌊c⌋.toNat : ℕ) : ℤ) = ⌊c⌋ := Int.toNat_of_nonneg f0
    exact_mod_cast congrArg (Int.cast (R := ℝ)) this
  have h1 : |((⌊c⌋.toNat : ℕ) : ℝ) + 1 / 2 - c| ≤ 1 / 2 := by
    rw [e, abs_le]
    constructor <;> linarith [Int.floor_le c, Int.lt_floor_add_one c]
  have hm : (1 : ℝ) ≤ max ((n : ℝ) / k) 1 := le_max_right _ _
  have h2 : 1 / max ((n : ℝ) / k) 1 ≤ 1 := by rw [div_le_one (by linarith)]; exact hm
  calc _ ≤ 1 / 2 * (1 : ℝ) := by
        apply mul_le_mul h1 h2 (by positivity) (by norm_num)
    _ = 1 / 2 := by norm_num

theorem boxPixel_between {i : Image ℝ} (hi : ImgOk Arith.exact i) {lo hi' : Color ℝ} (hb : Bounded i lo hi')
    (hw : 0 < i.bmp.width) (hh : 0 < i.bmp.height) (hw' : i.bmp.width < 2 ^ 31) (hh' : i.bmp.height < 2 ^ 31)
    (hwh : i.bmp.width * i.bmp.height < 2 ^ 32) {w h y x : Nat} (hy : y < h) (hx : x < w) :
    ∃ c, boxPixel Arith.exact i w h y x = .ok c ∧ Below lo c ∧ Below c hi' := by
  obtain ⟨cy0, cy1, -⟩ := center_inside hh hy
  obtain ⟨cx0, cx1, -⟩ := center_inside hw hx
  obtain ⟨ay1, ay2, ay3⟩ := axis_facts hh hy (Or.inr rfl)
  obtain ⟨ax1, ax2, ax3⟩ := axis_facts hw hx (Or.inr rfl)
  obtain ⟨top, bottom, wy, t1, t2, t3⟩ := window_ok hh' cy0 cy1 ay1 ay2 ay3
  obtain ⟨left, right, wx, l1, l2, l3⟩ := window_ok hw' cx0 cx1 ax1 ax2 ax3
  have ny := middle_near (n := i.bmp.height) (k := h) cy0
  have nx := middle_near (n := i.bmp.width) (k := w) cx0
  have hsize : (bottom - top) * (right - left) < 2 ^ 32 := by
    calc (bottom - top) * (right - left) ≤ i.bmp.height * i.bmp.width := Nat.mul_le_mul (by omega) (by omega)
      _ < 2 ^ 32 := by rwa [Nat.mul_comm]
  obtain ⟨⟨s, t⟩, e, ⟨k1, k2⟩, pos⟩ := window_grid (top := top) (bottom := bottom) (left := left) (right := right)
    (s0 := (zeroColor Arith.exact, 0))
    (skip := fun k => 1 / 2 < |(k : ℝ) + 1 / 2 - ((y : ℝ) + 1 / 2) * ((i.bmp.height : ℝ) / h)| *
      (1 / max ((i.bmp.height : ℝ) / h) 1))
    (cell := fun k j (s : Color ℝ × Nat) => if 1 / 2 < |(j : ℝ) + 1 / 2 - ((x : ℝ) + 1 / 2) *
        ((i.bmp.width : ℝ) / w)| * (1 / max ((i.bmp.width : ℝ) / w) 1) then .ok s else do
      let c ← i.get Arith.exact k j
      .ok (addColor Arith.exact s.1 c, u32 (s.2 + 1)))
    (K := fun n s => s.2 ≤ n ∧ SumOf lo hi' s.2 s.1) (Pos := fun s => 0 < s.2)
    ⟨t1, t2⟩ ⟨l1, l2⟩ (not_lt.2 ny) ⟨le_rfl, by simpa using sumOf_zero lo hi'⟩
    (fun n m s h ⟨h1, h2⟩ => ⟨h1.trans h, h2⟩) (by
      intro k j hk1 hk2 hj1 hj2 hs n s hn ⟨k1, k2⟩
      by_cases hsj : 1 / 2 < |(j : ℝ) + 1 / 2 - ((x : ℝ) + 1 / 2) * ((i.bmp.width : ℝ) / w)| *
        (1 / max ((i.bmp.width : ℝ) / w) 1)
      · refine ⟨s, if_pos hsj, ⟨by omega, k2⟩, ?_⟩
        rintro (h | ⟨-, h⟩)
        · exact h
        · rw [h] at hsj
          linarith
      · obtain ⟨c, e1, e2⟩ := Image.get_ok hi (show k < i.bmp.height by omega) (show j < i.bmp.width by omega)
        obtain ⟨b1, b2⟩ := hb k j c (by omega) (by omega) e2
        have hu : u32 (s.2 + 1) = s.2 + 1 := Nat.mod_eq_of_lt (by unfold pow32; omega)
        refine ⟨(addColor Arith.exact s.1 c, s.2 + 1), ?_, ⟨by simpa using k1, ?_⟩, fun _ => by simp⟩
        · rw [if_neg hsj, e1, Res.ok_bind, hu]
        · have := k2.add_one b1 b2
          simpa using this)
  have ht : (0 : ℝ) < t := by exact_mod_cast pos
  obtain ⟨d1, d2⟩ := k2.div ht
  refine ⟨_, ?_, d1, d2⟩
  unfold boxPixel
  have half (o : ℝ) : Arith.exact.mul o (Arith.exact.lit 0.5) = o / 2 := by
    have : ((0.5 : ℚ) : ℝ) = 1 / 2 := by norm_num
    simp only [Arith.exact, this]
    ring
  have lthalf (o : ℝ) : (Arith.exact.lt (Arith.exact.lit 0.5) o = true) = (1 / 2 < o) := by
    have : ((0.5 : ℚ) : ℝ) = 1 / 2 := by norm_num
    simp only [Arith.exact, this, decide_eq_true_eq]
  simp only [exact_axis, half, exact_center, wy, wx, Res.ok_bind, exact_distance, lthalf, e]
  simp only [exact_lit, Rat.cast_natCast]

theorem linearPixel_between {i : Image ℝ} (hi : ImgOk Arith.exact i) {lo hi' : Color ℝ} (hb : Bounded i lo hi')
    (hw : 0 < i.bmp.width) (hh : 0 < i.bmp.height) (hw' : i.bmp.width < 2 ^ 31) (hh' : i.bmp.height < 2 ^ 31)
    {w h y x : Nat} (hy : y < h) (hx : x < w) :
    ∃ c, linearPixel Arith.exact i w h y x = .ok c ∧ Below lo c ∧ Below c hi' := by
  obtain ⟨cy0, cy1, -⟩ := center_inside hh hy
  obtain ⟨cx0, cx1, -⟩ := center_inside hw hx
  obtain ⟨ay1, ay2, ay3⟩ := axis_facts hh hy (Or.inl rfl)
  obtain ⟨ax1, ax2, ax3⟩ := axis_facts hw hx (Or.inl rfl)
  obtain ⟨top, bottom, wy, t1, t2, t3⟩ := window_ok hh' cy0 cy1 ay1 ay2 ay3
  obtain ⟨left, right, wx, l1, l2, l3⟩ := window_ok hw' cx0 cx1 ax1 ax2 ax3
  have ny := middle_near (n := i.bmp.height) (k := h) cy0
  have nx := middle_near (n := i.bmp.width) (k := w) cx0
  obtain ⟨⟨s, t⟩, e, ⟨k1, k2⟩, pos⟩ := window_grid (top := top) (bottom := bottom) (left := left) (right := right)
    (s0 := (zeroColor Arith.exact, (0 : ℝ)))
    (skip := fun k => max (1 - |(k : ℝ) + 1 / 2 - ((y : ℝ) + 1 / 2) * ((i.bmp.height : ℝ) / h)| *
      (1 / max ((i.bmp.height : ℝ) / h) 1)) 0 = 0)
    (cell := fun k j (s : Color ℝ × ℝ) => if max (1 - |(j : ℝ) + 1 / 2 - ((x : ℝ) + 1 / 2) *
        ((i.bmp.width : ℝ) / w)| * (1 / max ((i.bmp.width : ℝ) / w) 1)) 0 = 0 then .ok s else do
      let c ← i.get Arith.exact k j
      .ok (addScaled Arith.exact s.1 c (max (1 - |(j : ℝ) + 1 / 2 - ((x : ℝ) + 1 / 2) *
        ((i.bmp.width : ℝ) / w)| * (1 / max ((i.bmp.width : ℝ) / w) 1)) 0 *
          max (1 - |(k : ℝ) + 1 / 2 - ((y : ℝ) + 1 / 2) * ((i.bmp.height : ℝ) / h)| *
      (1 / max ((i.bmp.height : ℝ) / h) 1)) 0), s.2 + max (1 - |(j : ℝ) + 1 / 2 - ((x : ℝ) + 1 / 2) *
        ((i.bmp.width : ℝ) / w)| * (1 / max ((i.bmp.width : ℝ) / w) 1)) 0 *
          max (1 - |(k : ℝ) + 1 / 2 - ((y : ℝ) + 1 / 2) * ((i.bmp.height : ℝ) / h)| *
      (1 / max ((i.bmp.height : ℝ) / h) 1)) 0))
    (K := fun _ s => 0 ≤ s.2 ∧ SumOf lo hi' s.2 s.1) (Pos := fun s => 0 < s.2)
    ⟨t1, t2⟩ ⟨l1, l2⟩ (by
      intro hz
      rw [max_eq_right_iff] at hz
      linarith) ⟨le_rfl, sumOf_zero lo hi'⟩
    (fun n m s _ h => h) (by
      intro k j hk1 hk2 hj1 hj2 hs n s hn ⟨k1, k2⟩
      generalize hsy : max (1 - |(k : ℝ) + 1 / 2 - ((y : ℝ) + 1 / 2) * ((i.bmp.height : ℝ) / h)| *
        (1 / max ((i.bmp.height : ℝ) / h) 1)) 0 = sy at *
      have hsy0 : 0 < sy := lt_of_le_of_ne (hsy ▸ le_max_right _ _) (Ne.symm hs)
      by_cases hsj : max (1 - |(j : ℝ) + 1 / 2 - ((x : ℝ) + 1 / 2) * ((i.bmp.width : ℝ) / w)| *
        (1 / max ((i.bmp.width : ℝ) / w) 1)) 0 = 0
      · refine ⟨s, if_pos hsj, ⟨k1, k2⟩, ?_⟩
        rintro (h | ⟨-, h⟩)
        · exact h
        · have := le_max_left (1 - |(j : ℝ) + 1 / 2 - ((x : ℝ) + 1 / 2) * ((i.bmp.width : ℝ) / w)| *
            (1 / max ((i.bmp.width : ℝ) / w) 1)) 0
          rw [hsj, h] at this
          linarith
      · rw [if_neg hsj]
        generalize hsx : max (1 - |(j : ℝ) + 1 / 2 - ((x : ℝ) + 1 / 2) * ((i.bmp.width : ℝ) / w)| *
          (1 / max ((i.bmp.width : ℝ) / w) 1)) 0 = sx at *
        have hsx0 : 0 < sx := lt_of_le_of_ne (hsx ▸ le_max_right _ _) (Ne.symm hsj)
        obtain ⟨c, e1, e2⟩ := Image.get_ok hi (show k < i.bmp.height by omega) (show j < i.bmp.width by omega)
        obtain ⟨b1, b2⟩ := hb k j c (by omega) (by omega) e2
        have hp : 0 < sx * sy := mul_pos hsx0 hsy0
        refine ⟨_, by rw [e1, Res.ok_bind], ⟨?_, k2.add hp.le b1 b2⟩, fun _ => ?_⟩
        · exact (add_pos_of_nonneg_of_pos k1 hp).le
        · exact add_pos_of_nonneg_of_pos k1 hp)
  obtain ⟨d1, d2⟩ := k2.div pos
  refine ⟨_, ?_, d1, d2⟩
  unfold linearPixel
  have one (o : ℝ) : Arith.exact.max (Arith.exact.sub (Arith.exact.lit 1) o) (Arith.exact.lit 0) = max (1 - o) 0 := by
    rw [exact_max]
    simp only [Arith.exact, Rat.cast_one, Rat.cast_zero]
  have eqz (o : ℝ) : (Arith.exact.eq o (Arith.exact.lit 0) = true) = (o = 0) := by
    simp only [Arith.exact, decide_eq_true_eq, Rat.cast_zero]
  have mul (a b : ℝ) : Arith.exact.mul a b = a * b := rfl
  have add (a b : ℝ) : Arith.exact.add a b = a + b := rfl
  have zero : Arith.exact.lit 0 = (0 : ℝ) := by simp [exact_lit]
  simp only [exact_axis, exact_center, wy, wx, Res.ok_bind, exact_distance, one, eqz, mul, add]
  rw [zero]
  simp only [e, Res.ok_bind]

end Cuttlefish
