import Verif.Proofs.BoxIeee
/-
The linear filter in IEEE arithmetic, on images of single precision: the errors of the sums in double precision are
smaller than half of the distance of neighbouring numbers of single precision.
-/
namespace Cuttlefish
open Spec
variable {Lm : Libm}

/-- Neighbouring numbers of single precision are not too close. -/
theorem rep_gap {a h : ℚ} (ha : Rep a) (hh : Rep h) (hlt : h < a) : |h| / 2 ^ 25 ≤ a - h := by
  obtain ⟨m1, e1, b1, -, rfl⟩ := ha
  obtain ⟨m2, e2, b2, -, rfl⟩ := hh
  have key {m k : ℤ} {e f : ℤ} (hle : f ≤ e) : ∃ j : ℤ, (m : ℚ) * 2 ^ e - k * 2 ^ f = j * 2 ^ f ∧
      (k : ℚ) * 2 ^ f - m * 2 ^ e = ((-j : ℤ) : ℚ) * 2 ^ f := by
    obtain ⟨d, rfl⟩ : ∃ d : ℕ, e = f + d := ⟨(e - f).toNat, by omega⟩
    refine ⟨m * 2 ^ d - k, ?_, ?_⟩ <;>
    · rw [zpow_add₀ (by norm_num), zpow_natCast]
      push_cast
      ring
  have big {m : ℤ} {e : ℤ} (hm : |m| ≤ 2 ^ 24) : |(m : ℚ) * 2 ^ e| ≤ 2 ^ 24 * 2 ^ e := by
    rw [abs_mul, abs_of_pos (show (0 : ℚ) < 2 ^ e by positivity)]
    have : |(m : ℚ)| ≤ 2 ^ 24 := by exact_mod_cast hm
    gcongr
  have one {j : ℤ} {f : ℤ} (h : (0 : ℚ) < j * 2 ^ f) : (2 : ℚ) ^ f ≤ j * 2 ^ f := by
    have p : (0 : ℚ) < 2 ^ f := by positivity
    have : (0 : ℚ) < j := by
      by_contra hn
      have := mul_nonpos_of_nonpos_of_nonneg (not_lt.1 hn) p.le
      linarith
    have j1 : (1 : ℚ) ≤ j := by
      have : 0 < j := by exact_mod_cast this
      exact_mod_cast this
    nlinarith
  rcases le_total e2 e1 with hle | hle
  · obtain ⟨j, h1, -⟩ := key (m := m1) (k := m2) hle
    have g := one (j := j) (f := e2) (by rw [← h1]; linarith)
    have := big (e := e2) b2
    have p : (0 : ℚ) < 2 ^ e2 := by positivity
    rw [h1, div_le_iff₀ (by norm_num)]
    nlinarith
  · obtain ⟨j, -, h1⟩ := key (m := m2) (k := m1) hle
    have g := one (j := -j) (f := e1) (by rw [← h1]; linarith)
    have := big (e := e1) b1
    have p : (0 : ℚ) < 2 ^ e1 := by positivity
    have tri : |(m2 : ℚ) * 2 ^ e2| ≤ |(m1 : ℚ) * 2 ^ e1| + ((m1 : ℚ) * 2 ^ e1 - m2 * 2 ^ e2) := by
      have := abs_add_le ((m1 : ℚ) * 2 ^ e1) (-((m1 : ℚ) * 2 ^ e1 - m2 * 2 ^ e2))
      rw [abs_neg, abs_of_pos (show (0 : ℚ) < (m1 : ℚ) * 2 ^ e1 - m2 * 2 ^ e2 by linarith)] at this
      rwa [show (m1 : ℚ) * 2 ^ e1 + -((m1 : ℚ) * 2 ^ e1 - m2 * 2 ^ e2) = m2 * 2 ^ e2 by ring] at this
    rw [← h1] at g
    rw [div_le_iff₀ (by norm_num)]
    linarith

/-- A number that is only a little above a number of single precision is rounded to at most that. -/
theorem rne_le_near {h v : ℚ} (hh : Rep h) (h0 : h ≠ 0) (hv : v - h < |h| / 2 ^ 26) : rne v ≤ h := by
  by_contra hcon
  rw [not_le] at hcon
  by_cases hle : v ≤ h
  · have := rne_mono hle
    rw [rne_exact hh] at this
    linarith
  rw [not_le] at hle
  have g := rep_gap (rne_rep v) hh hcon
  have n := rne_nearest v h hh
  rw [abs_sub_comm h v, abs_of_pos (by linarith : 0 < v - h)] at n
  have := le_abs_self (rne v - v)
  linarith

theorem single_tiny {h : ℚ} (hh : Rep h) (h0 : h ≠ 0) : (2 : ℚ) ^ (-149 : ℤ) ≤ |h| := by
  obtain ⟨m, e, -, he, rfl⟩ := hh
  have m0 : m ≠ 0 := by rintro rfl; simp at h0
  have m1 : (1 : ℚ) ≤ |(m : ℚ)| := by exact_mod_cast Int.one_le_abs m0
  rw [abs_mul, abs_of_pos (show (0 : ℚ) < 2 ^ e by positivity)]
  have : (2 : ℚ) ^ (-149 : ℤ) ≤ 2 ^ e := zpow_le_zpow_right₀ (by norm_num) (by omega)
  have p : (0 : ℚ) < 2 ^ e := by positivity
  nlinarith

theorem tiny_double : (2 : ℚ) ^ (-1022 : ℤ) ≤ 2⁻¹ ^ 150 * 2⁻¹ ^ 150 := by
  rw [← pow_add]
  rw [show (-1022 : ℤ) = -((1022 : ℕ) : ℤ) by norm_num, zpow_neg, zpow_natCast, ← inv_pow]
  exact pow_le_pow_of_le_one (by norm_num) (by norm_num) (by norm_num)

/-- The relative error after some steps. -/
def sumError (n : ℕ) : ℚ := (n + 1) / 2 ^ 51

/-- One step of a weighted sum, from above. -/
theorem step_upper {h q r t w : ℚ} {n : ℕ} (hh : Rep h) (hn : n ≤ 2 ^ 24) (ht : 0 ≤ t) (hw : (2 : ℚ)⁻¹ ^ 108 ≤ w)
    (hr : r ≤ h) (hq : q ≤ h * t + sumError n * |h| * t) :
    rneD (q + rneD (r * w)) ≤ h * rneD (t + w) + sumError (n + 1) * |h| * rneD (t + w) := by
  have w0 : 0 < w := lt_of_lt_of_le (by positivity) hw
  have rep0 : RepD 0 := by simpa using repD_small (n := 0) (by norm_num)
  by_cases h0 : h = 0
  · subst h0
    simp only [abs_zero, zero_mul, mul_zero, add_zero] at hq ⊢
    have : rneD (r * w) ≤ 0 := rneD_le_of rep0 (by nlinarith)
    exact rneD_le_of rep0 (by linarith)
  have a0 := single_tiny hh h0
  have t108 : (0 : ℚ) < 2⁻¹ ^ 108 := by positivity
  set a := |h| with ha
  have apos : 0 < a := abs_pos.2 h0
  have hle : h ≤ a := le_abs_self h
  have hge : -a ≤ h := neg_abs_le h
  set d := sumError n with hd
  have nn : (n : ℚ) ≤ 2 ^ 24 := by exact_mod_cast hn
  have d0 : 4 / 2 ^ 53 ≤ d := by
    rw [hd, sumError, div_le_div_iff₀ (by norm_num) (by norm_num)]
    have : (0 : ℚ) ≤ n := by positivity
    linarith
  have d1 : d ≤ 1 / 4 := by
    rw [hd, sumError, div_le_div_iff₀ (by norm_num) (by norm_num)]
    linarith
  have d' : sumError (n + 1) = d + 4 / 2 ^ 53 := by
    rw [hd, sumError, sumError]
    push_cast
    ring
  have tinyprod : (2 : ℚ) ^ (-1022 : ℤ) ≤ 2 ^ (-149 : ℤ) * 2⁻¹ ^ 108 * (3 / 4) := tiny_double.trans (by norm_num)
  set T := t + w with hT
  have T0 : 2⁻¹ ^ 108 ≤ T := by linarith
  have Tpos : 0 < T := by linarith
  -- the product
  have p1 : rneD (r * w) ≤ h * w + a * w / 2 ^ 53 := by
    have m := rneD_mono (mul_le_mul_of_nonneg_right hr w0.le)
    have e := rneD_rel (q := h * w) (by
      rw [abs_mul, abs_of_pos w0, ← ha]
      have := mul_le_mul a0 hw t108.le apos.le
      linarith)
    rw [abs_mul, abs_of_pos w0, ← ha, abs_le] at e
    linarith [e.2]
  -- the sum
  have p2 : q + rneD (r * w) ≤ (h + d * a) * T := by
    have : a * w / 2 ^ 53 ≤ d * a * w := by
      have := mul_le_mul_of_nonneg_right d0 (mul_pos apos w0).le
      have := mul_pos apos w0
      linarith
    rw [hT]
    linarith
  have xabs : a * (1 - d) ≤ |h + d * a| ∧ |h + d * a| ≤ a * (1 + d) := by
    have dd : |d * a| = d * a := abs_of_nonneg (mul_nonneg (by linarith) apos.le)
    have u := abs_add_le h (d * a)
    have l := abs_sub_abs_le_abs_sub h (-(d * a))
    rw [abs_neg, sub_neg_eq_add] at l
    rw [dd, ← ha] at u l
    constructor <;> linarith
  have e1 := rneD_rel (q := (h + d * a) * T) (by
    rw [abs_mul, abs_of_pos Tpos]
    have k1 : a * (3 / 4) ≤ |h + d * a| := by
      have := mul_le_mul_of_nonneg_left (show (3 : ℚ) / 4 ≤ 1 - d by linarith) apos.le
      linarith [xabs.1]
    have k2 : (2 : ℚ) ^ (-149 : ℤ) * (3 / 4) ≤ |h + d * a| :=
      (mul_le_mul_of_nonneg_right a0 (by norm_num)).trans k1
    have := mul_le_mul k2 T0 t108.le (abs_nonneg _)
    linarith)
  have e2 := rneD_rel (q := T) (by
    rw [abs_of_pos Tpos]
    refine (tiny_double.trans ?_).trans T0
    norm_num)
  rw [abs_of_pos Tpos, abs_le] at e2
  rw [abs_mul, abs_of_pos Tpos, abs_le] at e1
  have m := (rneD_mono p2).trans (by linarith [e1.2] :
    rneD ((h + d * a) * T) ≤ (h + d * a) * T + |h + d * a| * T / 2 ^ 53)
  refine m.trans ?_
  rw [d']
  have f1 : |h + d * a| * T ≤ a * (1 + d) * T := mul_le_mul_of_nonneg_right xabs.2 Tpos.le
  set T' := rneD T with hT'
  have f2 : h * T - a * (T / 2 ^ 53) ≤ h * T' := by
    have : |h * (T' - T)| ≤ a * (T / 2 ^ 53) := by
      rw [abs_mul, ← ha]
      exact mul_le_mul_of_nonneg_left (abs_le.2 e2) apos.le
    have := (abs_le.1 this).1
    linarith
  have f3 : (d + 4 / 2 ^ 53) * a * (T - T / 2 ^ 53) ≤ (d + 4 / 2 ^ 53) * a * T' := by
    apply mul_le_mul_of_nonneg_left (by linarith [e2.1])
    exact mul_nonneg (by linarith) apos.le
  have f4 : (d * 2) * (a * T) ≤ 1 / 2 * (a * T) := by
    apply mul_le_mul_of_nonneg_right (by linarith) (mul_pos apos Tpos).le
  have aT : 0 < a * T := mul_pos apos Tpos
  nlinarith

/-- The last step: a quotient, rounded to double and then to single precision. -/
theorem quotient_upper {h q t : ℚ} {n : ℕ} (hh : Rep h) (hn : n ≤ 2 ^ 24) (ht : 0 < t)
    (hq : q ≤ h * t + sumError n * |h| * t) : rne (rneD (q / t)) ≤ h := by
  by_cases h0 : h = 0
  · subst h0
    simp only [abs_zero, zero_mul, mul_zero, add_zero] at hq
    have rep0 : RepD 0 := by simpa using repD_small (n := 0) (by norm_num)
    have := rne_mono (rneD_le_of rep0 (show q / t ≤ 0 from div_nonpos_of_nonpos_of_nonneg hq ht.le))
    rwa [rne_zero] at this
  have a0 := single_tiny hh h0
  have nn : (n : ℚ) ≤ 2 ^ 24 := by exact_mod_cast hn
  set a := |h| with ha
  have apos : 0 < a := abs_pos.2 h0
  set d := sumError n with hd
  have d0 : 0 ≤ d := by rw [hd, sumError]; positivity
  have d1 : d ≤ (2 ^ 24 + 1) / 2 ^ 51 := by rw [hd, sumError]; gcongr
  have k : q / t ≤ h + d * a := by
    rw [div_le_iff₀ ht]
    linarith
  have dd : |d * a| = d * a := abs_of_nonneg (mul_nonneg d0 apos.le)
  have u := abs_add_le h (d * a)
  have l := abs_sub_abs_le_abs_sub h (-(d * a))
  rw [abs_neg, sub_neg_eq_add] at l
  rw [dd, ← ha] at u l
  have da : d * a ≤ (2 ^ 24 + 1) / 2 ^ 51 * a := mul_le_mul_of_nonneg_right d1 apos.le
  have e1 := rneD_rel (q := h + d * a) (by
    have : (2 : ℚ) ^ (-1022 : ℤ) ≤ 2 ^ (-149 : ℤ) * (1 / 2) := tiny_double.trans (by norm_num)
    have g : (2 ^ 24 + 1) / 2 ^ 51 * a ≤ a * (1 / 2) := by
      rw [mul_comm a]
      exact mul_le_mul_of_nonneg_right (by norm_num) apos.le
    exact this.trans ((mul_le_mul_of_nonneg_right a0 (by norm_num)).trans (by linarith)))
  rw [abs_le] at e1
  refine rne_le_near hh h0 ?_
  rw [← ha]
  have m := rneD_mono k
  have : |h + d * a| ≤ (1 + (2 ^ 24 + 1) / 2 ^ 51) * a := by linarith
  norm_num at this da ⊢
  linarith [e1.2]

/-- A weighted sum in a range, up to the errors of some steps. -/
def NearSum (lo hi : ℚ) (n : ℕ) (t : ℚ) (s : Dbl) : Prop :=
  ∃ q : ℚ, s = .fin q ∧ q ≤ hi * t + sumError n * |hi| * t ∧ -q ≤ -lo * t + sumError n * |lo| * t

/-- A weighted sum of colours in a range, up to the errors of some steps. -/
def NearColor (lo hi : Color ℚ) (n : ℕ) (t : ℚ) (s : Color Dbl) : Prop :=
  NearSum lo.r hi.r n t s.r ∧ NearSum lo.g hi.g n t s.g ∧ NearSum lo.b hi.b n t s.b ∧ NearSum lo.a hi.a n t s.a

theorem rep_neg {q : ℚ} (h : Rep q) : Rep (-q) := by
  obtain ⟨m, e, h1, h2, rfl⟩ := h
  exact ⟨-m, e, by rwa [abs_neg], h2, by push_cast; ring⟩

theorem sumError_le {n : ℕ} (hn : n ≤ 2 ^ 24) : 0 ≤ sumError n ∧ sumError n ≤ 1 := by
  have nn : (n : ℚ) ≤ 2 ^ 24 := by exact_mod_cast hn
  refine ⟨by unfold sumError; positivity, ?_⟩
  rw [sumError, div_le_one (by norm_num)]
  linarith

theorem NearSum.start (lo hi : ℚ) : NearSum lo hi 0 0 ((Arith.ieee Lm).lit 0) :=
  ⟨0, ieee_zero (Lm := Lm), by simp, by simp⟩

theorem near_start (lo hi : Color ℚ) : NearColor lo hi 0 0 (zeroColor (Arith.ieee Lm)) := by
  simp only [NearColor, zeroColor]
  exact ⟨NearSum.start lo.r hi.r, NearSum.start lo.g hi.g, NearSum.start lo.b hi.b, NearSum.start lo.a hi.a⟩

theorem NearSum.more {lo hi : ℚ} {n m : ℕ} {t : ℚ} {s : Dbl} (t0 : 0 ≤ t) (hle : n ≤ m) (h : NearSum lo hi n t s) :
    NearSum lo hi m t s := by
  obtain ⟨q, e, h1, h2⟩ := h
  have d : sumError n ≤ sumError m := by
    have : (n : ℚ) ≤ m := by exact_mod_cast hle
    unfold sumError
    gcongr
  refine ⟨q, e, h1.trans ?_, h2.trans ?_⟩ <;> gcongr

/-- A sum is far from overflow. -/
theorem near_small {lo hi t q : ℚ} {n : ℕ} (hlo : |lo| ≤ 2 ^ 128) (hhi : |hi| ≤ 2 ^ 128) (hn : n ≤ 2 ^ 24) (t0 : 0 ≤ t)
    (tn : t ≤ 2 ^ 25) (h1 : q ≤ hi * t + sumError n * |hi| * t) (h2 : -q ≤ -lo * t + sumError n * |lo| * t) :
    |q| ≤ 2 ^ 154 := by
  obtain ⟨d0, d1⟩ := sumError_le hn
  have key {h : ℚ} (hh : |h| ≤ 2 ^ 128) : h * t + sumError n * |h| * t ≤ 2 ^ 154 := by
    have a1 : h * t ≤ 2 ^ 128 * 2 ^ 25 :=
      mul_le_mul ((le_abs_self h).trans hh) tn t0 (by norm_num)
    have a2 : sumError n * |h| * t ≤ 1 * 2 ^ 128 * 2 ^ 25 := by gcongr
    norm_num at a1 a2 ⊢
    linarith
  have k1 := key hhi
  have k2 := key (h := -lo) (by rwa [abs_neg])
  rw [abs_neg] at k2
  rw [abs_le]
  constructor <;> linarith

theorem small_double {q : ℚ} (h : |q| ≤ 2 ^ 200) : |q| ≤ (2 : ℚ) ^ (1023 : ℤ) := by
  refine h.trans ?_
  rw [show (1023 : ℤ) = ((1023 : ℕ) : ℤ) by norm_num, zpow_natCast]
  exact pow_le_pow_right₀ (by norm_num) (by norm_num)

theorem NearSum.step {lo hi t v : ℚ} {n : ℕ} {s c : Dbl} (hlo : SingleBound lo) (hhi : SingleBound hi) (hn : n < 2 ^ 24)
    (t0 : 0 ≤ t) (tn : t ≤ n) (v0 : (2 : ℚ)⁻¹ ^ 108 ≤ v) (v1 : v ≤ 1) (hs : NearSum lo hi n t s) (hc : Ranged lo hi c) :
    NearSum lo hi (n + 1) (rneD (t + v)) ((Arith.ieee Lm).add s ((Arith.ieee Lm).mul c (.fin v))) := by
  obtain ⟨q, rfl, q1, q2⟩ := hs
  obtain ⟨r, rfl, r1, r2⟩ := hc
  have nn : (n : ℚ) ≤ 2 ^ 24 := by exact_mod_cast hn.le
  have vpos : 0 < v := lt_of_lt_of_le (by positivity) v0
  have rabs : |r| ≤ 2 ^ 128 := by
    have a1 := abs_lt.1 hlo.2
    have a2 := abs_lt.1 hhi.2
    rw [abs_le]
    constructor <;> linarith
  have rv : |r * v| ≤ 2 ^ 128 := by
    rw [abs_mul, abs_of_pos vpos]
    calc |r| * v ≤ 2 ^ 128 * 1 := by gcongr
      _ = 2 ^ 128 := by norm_num
  have rep128 : RepD ((2 : ℚ) ^ 128) := ⟨1, 128, by norm_num, by norm_num, by norm_num⟩
  have em : (Arith.ieee Lm).mul (.fin r) (.fin v) = .fin (rneD (r * v)) :=
    ofQ_fin (small_double (rv.trans (by norm_num)))
  have hp := rneD_abs_le rep128 rv
  have hq := near_small hlo.2.le hhi.2.le hn.le t0 (tn.trans (nn.trans (by norm_num))) q1 q2
  have ea : (Arith.ieee Lm).add (.fin q) (.fin (rneD (r * v))) = .fin (rneD (q + rneD (r * v))) := by
    refine ofQ_fin (small_double ((abs_add_le _ _).trans ?_))
    refine (add_le_add hq hp).trans ?_
    norm_num
  rw [em, ea]
  refine ⟨_, rfl, step_upper hhi.1 hn.le t0 v0 r2 q1, ?_⟩
  have := step_upper (h := -lo) (q := -q) (r := -r) (rep_neg hlo.1) hn.le t0 v0 (neg_le_neg r1) (by rwa [abs_neg])
  rw [abs_neg, neg_mul r, rneD_neg, ← neg_add, rneD_neg] at this
  exact this

theorem NearSum.quotient {lo hi t : ℚ} {n : ℕ} {s : Dbl} (hlo : SingleBound lo) (hhi : SingleBound hi) (hn : n ≤ 2 ^ 24)
    (t0 : 0 < t) (tn : t ≤ n) (hs : NearSum lo hi n t s) :
    Ranged lo hi (((Arith.ieee Lm).div s (.fin t)).single) := by
  obtain ⟨q, rfl, q1, q2⟩ := hs
  have u := quotient_upper hhi.1 hn t0 q1
  have l := quotient_upper (h := -lo) (q := -q) (rep_neg hlo.1) hn t0 (by rwa [abs_neg])
  have rneg (q : ℚ) : rne (-q) = -rne q := by
    have eu : ulp (-q) = ulp q := by unfold ulp; rw [abs_neg]
    unfold rne
    by_cases h : q = 0
    · simp [h]
    · rw [if_neg (neg_ne_zero.2 h), if_neg h, eu, neg_div, roundEven_neg]
      push_cast
      ring
  rw [neg_div, rneD_neg, rneg] at l
  have ed : (Arith.ieee Lm).div (.fin q) (.fin t) = .fin (rneD (q / t)) := by
    show F32.divWith Dbl.ofQ (.fin q) (.fin t) = _
    rw [F32.divWith, if_neg t0.ne']
    refine ofQ_fin (small_double ?_)
    obtain ⟨d0, d1⟩ := sumError_le hn
    have key {h p : ℚ} (hh : |h| < 2 ^ 128) (hp : p ≤ h * t + sumError n * |h| * t) : p / t ≤ 2 ^ 200 := by
      rw [div_le_iff₀ t0]
      have a1 : h ≤ 2 ^ 128 := (le_abs_self h).trans hh.le
      have a2 : sumError n * |h| ≤ 1 * 2 ^ 128 := by gcongr
      have a3 : (h + sumError n * |h|) * t ≤ 2 ^ 200 * t := by
        apply mul_le_mul_of_nonneg_right _ t0.le
        norm_num at a1 a2 ⊢
        linarith
      linarith
    have k1 := key hhi.2 q1
    have k2 := key (h := -lo) (p := -q) (by rw [abs_neg]; exact hlo.2) (by rwa [abs_neg])
    rw [neg_div] at k2
    rw [abs_le]
    constructor <;> linarith
  rw [ed]
  refine ⟨rne (rneD (q / t)), ?_, by linarith, u⟩
  show F32.round _ = _
  rw [F32.round, if_neg]
  rw [not_le, abs_lt]
  have a1 := abs_lt.1 hlo.2
  have a2 := abs_lt.1 hhi.2
  exact ⟨by linarith, by linarith⟩

/-- The linear filter of a linear image of floats. -/
theorem linear_between {FI : FreeImage Dbl} (F : LawfulFI (Arith.ieee Lm) FI) {i : Image Dbl} (hi : ImgOk (Arith.ieee Lm) i)
    (hc : Countable i) (hf : i.format = .RGBAF ∨ i.format = .RGBF) {w h : ℕ} (hsmall : windowPixels i w h ≤ 2 ^ 24)
    (hw : w < 2 ^ 32) (hh : h < 2 ^ 32) (avg : AverageDoubles Lm FI i.format w h .Linear)
    (hfin : ∀ c, DoubleColors Lm i c → FiniteColor c) :
    ∃ r, resizeLinear (Arith.ieee Lm) FI i w h .Linear = .ok r ∧ ∀ j, r = some j →
      ∀ d, DoubleColors Lm j d → BetweenDoubles (DoubleColors Lm i) d :=
  filter_between F hi hc hf avg hfin (fun lo hi' hlo hhi src y x hy hx => by
    rw [if_neg (by simp)]
    obtain ⟨s, t, n, e, t0, tn, hn, t0', k1, k2, k3, k4⟩ := linearPixel_steps hi hc hw hh hy hx
      (fun n t s => 0 ≤ t ∧ NearColor lo hi' n t s)
      ⟨le_rfl, near_start lo hi'⟩
      (fun n m t s hle ⟨t0, h1, h2, h3, h4⟩ => ⟨t0, h1.more t0 hle, h2.more t0 hle, h3.more t0 hle, h4.more t0 hle⟩) (by
        rintro n t s v hn t0 tn v0 v1 rv y x c hy hx e ⟨-, h1, h2, h3, h4⟩
        obtain ⟨c1, c2, c3, c4⟩ := src y x c hy hx e
        have rep0 : RepD 0 := by simpa using repD_small (n := 0) (by norm_num)
        have v00 : 0 ≤ v := le_trans (by positivity) v0
        exact ⟨rneD_ge_of rep0 (by linarith),
          h1.step hlo.1 hhi.1 (by omega) t0 tn v0 v1 c1, h2.step hlo.2.1 hhi.2.1 (by omega) t0 tn v0 v1 c2,
          h3.step hlo.2.2.1 hhi.2.2.1 (by omega) t0 tn v0 v1 c3, h4.step hlo.2.2.2 hhi.2.2.2 (by omega) t0 tn v0 v1 c4⟩)
    exact ⟨_, e, k1.quotient (Lm := Lm) hlo.1 hhi.1 (by omega) t0 tn, k2.quotient (Lm := Lm) hlo.2.1 hhi.2.1 (by omega) t0 tn,
      k3.quotient (Lm := Lm) hlo.2.2.1 hhi.2.2.1 (by omega) t0 tn, k4.quotient (Lm := Lm) hlo.2.2.2 hhi.2.2.2 (by omega) t0 tn⟩)

end Cuttlefish
