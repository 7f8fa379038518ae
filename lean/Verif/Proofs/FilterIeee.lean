import Verif.Proofs.WindowSize
import Verif.Proofs.ImagePx
import Verif.Proofs.ImageGeom
import Verif.Spec.Resize
/-
The box and linear filters in IEEE arithmetic: they are defined, and averages of numbers up to a power of two are
numbers up to that power of two.
-/
namespace Cuttlefish
open Spec
variable {Lm : Libm}

theorem binade_eq {q : ℚ} {b : ℤ} (h1 : (2 : ℚ) ^ b ≤ q) (h2 : q < (2 : ℚ) ^ (b + 1)) : binade q = b := by
  have hq : 0 < q := lt_of_lt_of_le (by positivity) h1
  obtain ⟨a1, a2⟩ := binade_spec hq
  have k1 : b < binade q + 1 := by
    rw [← zpow_lt_zpow_iff_right₀ (a := (2 : ℚ)) (by norm_num)]
    linarith
  have k2 : binade q < b + 1 := by
    rw [← zpow_lt_zpow_iff_right₀ (a := (2 : ℚ)) (by norm_num)]
    linarith
  omega

/-- Multiplying by a power of two commutes with rounding. -/
theorem rneD_scale {q : ℚ} (e : ℕ) (hq : (2 : ℚ) ^ (-1022 : ℤ) ≤ |q|) : rneD (2 ^ e * q) = 2 ^ e * rneD q := by
  have hpos : 0 < |q| := lt_of_lt_of_le (by positivity) hq
  have q0 : q ≠ 0 := abs_pos.1 hpos
  obtain ⟨b1, b2⟩ := binade_spec hpos
  have hge : -1022 ≤ binade |q| := by
    by_contra hcon
    have : (2 : ℚ) ^ (binade |q| + 1) ≤ 2 ^ (-1022 : ℤ) := by
      apply zpow_le_zpow_right₀ (by norm_num); omega
    linarith
  have p : (0 : ℚ) < 2 ^ e := by positivity
  have ab : |2 ^ e * q| = 2 ^ e * |q| := by rw [abs_mul, abs_of_pos p]
  have eb : binade |2 ^ e * q| = e + binade |q| := by
    rw [ab]
    refine binade_eq ?_ ?_
    · rw [zpow_add₀ (by norm_num), zpow_natCast]
      gcongr
    · rw [add_assoc, zpow_add₀ (by norm_num), zpow_natCast]
      gcongr
  have eu : ulpD (2 ^ e * q) = 2 ^ e * ulpD q := by
    rw [ulpD_eq, ulpD_eq, eb, max_eq_left (by omega), max_eq_left hge, add_sub_assoc, zpow_add₀ (by norm_num),
      zpow_natCast]
  unfold rneD
  rw [if_neg (mul_ne_zero p.ne' q0), if_neg q0, eu, mul_div_mul_left _ _ p.ne']
  ring

theorem roundEven_neg (q : ℚ) : roundEven (-q) = -roundEven q := by
  have a1 := Int.floor_le q
  have a2 := Int.lt_floor_add_one q
  by_cases h : (⌊q⌋ : ℚ) = q
  · rw [← h, roundEven_int]
    have := roundEven_int (-⌊q⌋)
    push_cast at this
    exact this
  · have e : ⌊-q⌋ = -⌊q⌋ - 1 := by
      rw [Int.floor_eq_iff]
      push_cast
      have : (⌊q⌋ : ℚ) < q := lt_of_le_of_ne a1 h
      constructor <;> linarith
    simp only [roundEven, e]
    push_cast
    split_ifs <;> first | omega | (exfalso; linarith)

theorem rneD_neg (q : ℚ) : rneD (-q) = -rneD q := by
  have eu : ulpD (-q) = ulpD q := by unfold ulpD; rw [abs_neg]
  unfold rneD
  by_cases h : q = 0
  · simp [h]
  · rw [if_neg (neg_ne_zero.2 h), if_neg h, eu, neg_div, roundEven_neg]
    push_cast
    ring

theorem repD_scale {q : ℚ} (e : ℕ) (h : RepD q) : RepD (2 ^ e * q) := by
  obtain ⟨m, k, h1, h2, rfl⟩ := h
  exact ⟨m, k + e, h1, by omega, by rw [zpow_add₀ (by norm_num), zpow_natCast]; ring⟩

theorem rneD_abs_le {q s : ℚ} (hs : RepD s) (h : |q| ≤ s) : |rneD q| ≤ s := by
  rw [abs_le] at h ⊢
  exact ⟨rneD_ge_of (repD_neg hs) h.1, rneD_le_of hs h.2⟩

theorem pow_le_1023 {e : ℕ} (he : e ≤ 900) {n : ℕ} (hn : n ≤ 2 ^ 53) {q : ℚ} (h : |q| ≤ 2 ^ e * n) :
    |q| ≤ (2 : ℚ) ^ (1023 : ℤ) := by
  refine h.trans ?_
  have h1 : (n : ℚ) ≤ 2 ^ 53 := by exact_mod_cast hn
  calc (2 : ℚ) ^ e * n ≤ 2 ^ e * 2 ^ 53 := by gcongr
    _ = 2 ^ (e + 53) := by rw [pow_add]
    _ ≤ 2 ^ 1023 := pow_le_pow_right₀ (by norm_num) (by omega)
    _ = (2 : ℚ) ^ (1023 : ℤ) := (zpow_natCast (2 : ℚ) 1023).symm

/-- A bound whose first multiples are doubles. -/
def BoxBound (m : ℕ) (b : ℚ) : Prop := |b| ≤ 2 ^ 900 ∧ RepD b ∧ ∀ n ≤ m, RepD (b * (n : ℚ))

/-- A bound that commutes with rounding: zero, a power of two or the opposite of one. -/
def LinBound (b : ℚ) : Prop :=
  |b| ≤ 2 ^ 900 ∧ (∀ q, RepD q → RepD (b * q)) ∧ ∀ q, (2 : ℚ) ^ (-1022 : ℤ) ≤ q → rneD (b * q) = b * rneD q

theorem linBound_zero : LinBound 0 := by
  refine ⟨by simp, fun q _ => ?_, fun q _ => ?_⟩
  · rw [zero_mul]
    simpa using repD_small (n := 0) (by norm_num)
  · simp [rneD_zero]

theorem linBound_pow {e : ℕ} (he : e ≤ 900) : LinBound (2 ^ e) := by
  refine ⟨?_, fun q h => repD_scale e h, fun q h => rneD_scale e ?_⟩
  · rw [abs_of_pos (by positivity)]
    exact pow_le_pow_right₀ (by norm_num) he
  · exact h.trans (le_abs_self q)

theorem linBound_neg {b : ℚ} (h : LinBound b) : LinBound (-b) := by
  obtain ⟨h1, h2, h3⟩ := h
  refine ⟨by rwa [abs_neg], fun q hq => ?_, fun q hq => ?_⟩
  · rw [neg_mul]
    exact repD_neg (h2 q hq)
  · rw [neg_mul, rneD_neg, h3 q hq, neg_mul]

theorem LinBound.rep {b : ℚ} (h : LinBound b) : RepD b := by simpa using h.2.1 1 repD_one

theorem LinBound.box {b : ℚ} (h : LinBound b) {m : ℕ} (hm : m ≤ 2 ^ 53) : BoxBound m b :=
  ⟨h.1, h.rep, fun n hn => h.2.1 _ (by
    exact_mod_cast repD_int (n := (n : ℤ)) (by rw [abs_of_nonneg (by positivity)]; norm_cast; omega))⟩

theorem between_1023 {lo hi t q : ℚ} {n : ℕ} (hlo : |lo| ≤ 2 ^ 900) (hhi : |hi| ≤ 2 ^ 900) (hn : n ≤ 2 ^ 53) (t0 : 0 ≤ t)
    (ht : t ≤ n) (h1 : lo * t ≤ q) (h2 : q ≤ hi * t) : |q| ≤ (2 : ℚ) ^ (1023 : ℤ) := by
  refine pow_le_1023 (e := 900) le_rfl hn ?_
  have key (b : ℚ) (hb : |b| ≤ 2 ^ 900) : |b * t| ≤ 2 ^ 900 * n := by
    rw [abs_mul, abs_of_nonneg t0]
    gcongr
  have k1 := (abs_le.1 (key lo hlo)).1
  have k2 := (abs_le.1 (key hi hhi)).2
  exact abs_le.2 ⟨by linarith, by linarith⟩

theorem ranged_add {lo hi : ℚ} {m n : ℕ} {s c : Dbl} (hlo : BoxBound m lo) (hhi : BoxBound m hi) (hn : n < m)
    (hm : m < 2 ^ 33) (hs : Ranged (lo * n) (hi * n) s) (hc : Ranged lo hi c) :
    Ranged (lo * (n + 1 : ℕ)) (hi * (n + 1 : ℕ)) ((Arith.ieee Lm).add s c) := by
  obtain ⟨q, rfl, q1, q2⟩ := hs
  obtain ⟨r, rfl, r1, r2⟩ := hc
  have h1 : lo * (n + 1 : ℕ) ≤ q + r := by push_cast; linarith
  have h2 : q + r ≤ hi * (n + 1 : ℕ) := by push_cast; linarith
  refine ⟨rneD (q + r), ofQ_fin (between_1023 (n := n + 1) hlo.1 hhi.1 (by omega) (by positivity) le_rfl h1 h2), ?_, ?_⟩
  · exact rneD_ge_of (hlo.2.2 _ (by omega)) h1
  · exact rneD_le_of (hhi.2.2 _ (by omega)) h2

theorem ranged_div {lo hi t : ℚ} {s : Dbl} (hlo : |lo| ≤ 2 ^ 900 ∧ RepD lo) (hhi : |hi| ≤ 2 ^ 900 ∧ RepD hi) (ht : 0 < t)
    (hs : Ranged (lo * t) (hi * t) s) : Ranged lo hi ((Arith.ieee Lm).div s (.fin t)) := by
  obtain ⟨q, rfl, q1, q2⟩ := hs
  have h1 : lo ≤ q / t := by rwa [le_div_iff₀ ht]
  have h2 : q / t ≤ hi := by rwa [div_le_iff₀ ht]
  refine ⟨rneD (q / t), ?_, rneD_ge_of hlo.2 h1, rneD_le_of hhi.2 h2⟩
  show F32.divWith Dbl.ofQ (.fin q) (.fin t) = _
  rw [F32.divWith, if_neg ht.ne']
  exact ofQ_fin (between_1023 (t := 1) (n := 1) hlo.1 hhi.1 (by norm_num) (by norm_num) (by norm_num) (by simpa using h1)
    (by simpa using h2))

/-- One more weighted number. -/
theorem ranged_addScaled {lo hi : ℚ} {n : ℕ} {t w : ℚ} {s c : Dbl} (hlo : LinBound lo) (hhi : LinBound hi)
    (hn : n < 2 ^ 32) (ht : 0 ≤ t) (htn : t ≤ n) (hw : (2 : ℚ) ^ (-1022 : ℤ) ≤ w) (hw1 : w ≤ 1) (rw' : RepD w)
    (hs : Ranged (lo * t) (hi * t) s) (hc : Ranged lo hi c) :
    Ranged (lo * rneD (t + w)) (hi * rneD (t + w)) ((Arith.ieee Lm).add s ((Arith.ieee Lm).mul c (.fin w))) := by
  obtain ⟨q, rfl, q1, q2⟩ := hs
  obtain ⟨r, rfl, r1, r2⟩ := hc
  have w0 : 0 < w := lt_of_lt_of_le (by positivity) hw
  have m1 : lo * w ≤ r * w := by gcongr
  have m2 : r * w ≤ hi * w := by gcongr
  have em : (Arith.ieee Lm).mul (.fin r) (.fin w) = .fin (rneD (r * w)) :=
    ofQ_fin (between_1023 (n := 1) hlo.1 hhi.1 (by norm_num) w0.le (by simpa using hw1) m1 m2)
  have m3 := rneD_ge_of (hlo.2.1 _ rw') m1
  have m4 := rneD_le_of (hhi.2.1 _ rw') m2
  have h1 : lo * (t + w) ≤ q + rneD (r * w) := by linarith
  have h2 : q + rneD (r * w) ≤ hi * (t + w) := by linarith
  rw [em]
  refine ⟨rneD (q + rneD (r * w)), ofQ_fin (between_1023 (n := n + 1) hlo.1 hhi.1 (by omega) (by linarith)
    (by push_cast; linarith) h1 h2), ?_, ?_⟩
  · rw [← hlo.2.2 (t + w) (by linarith)]
    exact rneD_mono h1
  · rw [← hhi.2.2 (t + w) (by linarith)]
    exact rneD_mono h2

theorem ieee_axes {n k x : ℕ} (hn0 : 0 < n) (hn : n < 2 ^ 31) (hx : x < k) (hk : k < 2 ^ 32) :
    ∃ (v : Dbl) (c o s : ℚ), axis (Arith.ieee Lm) n k = (v, .fin o, .fin s) ∧ centerOf (Arith.ieee Lm) x v = .fin c ∧
      RepD c ∧ 0 < c ∧ c < n ∧ RepD o ∧ 1 ≤ o ∧ o ≤ n ∧ RepD s ∧ 0 < s ∧ s ≤ 1 := by
  obtain ⟨c, o, s, h1, h2, h3, h4, h5, h6, h7, h8, h9, e1, e2, e3⟩ := ieee_axis (Lm := Lm) hn0 hn hx hk
  exact ⟨(axis (Arith.ieee Lm) n k).1, c, o, s, Prod.ext rfl (Prod.ext e2 e3), e1, h1, h2, h3, h4, h5, h6, h7, h8, h9⟩

/-- Half of the offset. -/
theorem ieee_halve {o : ℚ} {n : ℕ} (hn : n < 2 ^ 31) (h1 : 1 ≤ o) (h2 : o ≤ n) :
    ∃ p, (Arith.ieee Lm).mul (.fin o) ((Arith.ieee Lm).lit 0.5) = .fin p ∧ 1 / 2 ≤ p ∧ p ≤ n ∧
      ∀ m : ℕ, m ≤ 2 ^ 31 → o ≤ m → p ≤ m := by
  have n2 : (n : ℚ) ≤ 2 ^ 31 := by exact_mod_cast (by omega : n ≤ 2 ^ 31)
  have key (m : ℕ) (hm : m ≤ 2 ^ 31) (hom : o ≤ m) : rneD (o * (1 / 2)) ≤ m := by
    refine rneD_le_of ?_ (by linarith)
    exact_mod_cast repD_small (n := (m : ℤ)) (by rw [abs_of_nonneg (by positivity)]; omega)
  refine ⟨rneD (o * (1 / 2)), ?_, rneD_ge_of repD_halves (by linarith), key n (by omega) h2, key⟩
  rw [ieee_half, ieee_mul (by rw [abs_le]; constructor <;> linarith)]

/-- All pixels that are read have colours in a range. -/
def RangedPx (Lm : Libm) (lo hi : Color ℚ) (i : Image Dbl) : Prop :=
  ∀ y x c, y < i.bmp.height → x < i.bmp.width → getPixelImpl (Arith.ieee Lm) i.format (i.bmp.px y x) = .ok c →
    RangedColor lo hi c

/-- A multiple of a colour. -/
def timesColor (c : Color ℚ) (t : ℚ) : Color ℚ := ⟨c.r * t, c.g * t, c.b * t, c.a * t⟩

/-- All channels are bounds. -/
def AllBounds (P : ℚ → Prop) (c : Color ℚ) : Prop := P c.r ∧ P c.g ∧ P c.b ∧ P c.a

theorem ranged_zero (lo hi : Color ℚ) : RangedColor (timesColor lo 0) (timesColor hi 0) (zeroColor (Arith.ieee Lm)) := by
  have (a b : ℚ) : Ranged (a * 0) (b * 0) ((Arith.ieee Lm).lit 0) := ⟨0, ieee_zero (Lm := Lm), by simp, by simp⟩
  simp only [RangedColor, zeroColor, timesColor]
  exact ⟨this lo.r hi.r, this lo.g hi.g, this lo.b hi.b, this lo.a hi.a⟩

theorem rangedColor_add {lo hi : Color ℚ} {m n : ℕ} {s c : Color Dbl} (hlo : AllBounds (BoxBound m) lo)
    (hhi : AllBounds (BoxBound m) hi) (hn : n < m) (hm : m < 2 ^ 33)
    (h : RangedColor (timesColor lo n) (timesColor hi n) s) (hc : RangedColor lo hi c) :
    RangedColor (timesColor lo (n + 1 : ℕ)) (timesColor hi (n + 1 : ℕ)) (addColor (Arith.ieee Lm) s c) :=
  ⟨ranged_add (Lm := Lm) hlo.1 hhi.1 hn hm h.1 hc.1, ranged_add (Lm := Lm) hlo.2.1 hhi.2.1 hn hm h.2.1 hc.2.1,
    ranged_add (Lm := Lm) hlo.2.2.1 hhi.2.2.1 hn hm h.2.2.1 hc.2.2.1, ranged_add (Lm := Lm) hlo.2.2.2 hhi.2.2.2 hn hm h.2.2.2 hc.2.2.2⟩

theorem rangedColor_addScaled {lo hi : Color ℚ} {n : ℕ} {t w : ℚ} {s c : Color Dbl} (hlo : AllBounds LinBound lo)
    (hhi : AllBounds LinBound hi) (hn : n < 2 ^ 32) (ht : 0 ≤ t) (htn : t ≤ n) (hw : (2 : ℚ) ^ (-1022 : ℤ) ≤ w)
    (hw1 : w ≤ 1) (rw' : RepD w) (h : RangedColor (timesColor lo t) (timesColor hi t) s) (hc : RangedColor lo hi c) :
    RangedColor (timesColor lo (rneD (t + w))) (timesColor hi (rneD (t + w)))
      (Cuttlefish.addScaled (Arith.ieee Lm) s c (.fin w)) :=
  ⟨ranged_addScaled (Lm := Lm) hlo.1 hhi.1 hn ht htn hw hw1 rw' h.1 hc.1,
    ranged_addScaled (Lm := Lm) hlo.2.1 hhi.2.1 hn ht htn hw hw1 rw' h.2.1 hc.2.1,
    ranged_addScaled (Lm := Lm) hlo.2.2.1 hhi.2.2.1 hn ht htn hw hw1 rw' h.2.2.1 hc.2.2.1,
    ranged_addScaled (Lm := Lm) hlo.2.2.2 hhi.2.2.2 hn ht htn hw hw1 rw' h.2.2.2 hc.2.2.2⟩

theorem rangedColor_div {lo hi : Color ℚ} {t : ℚ} {s : Color Dbl} (hlo : AllBounds (fun b => |b| ≤ 2 ^ 900 ∧ RepD b) lo)
    (hhi : AllBounds (fun b => |b| ≤ 2 ^ 900 ∧ RepD b) hi) (ht : 0 < t)
    (h : RangedColor (timesColor lo t) (timesColor hi t) s) :
    RangedColor lo hi (divColor (Arith.ieee Lm) s (.fin t)) :=
  ⟨ranged_div (Lm := Lm) hlo.1 hhi.1 ht h.1, ranged_div (Lm := Lm) hlo.2.1 hhi.2.1 ht h.2.1, ranged_div (Lm := Lm) hlo.2.2.1 hhi.2.2.1 ht h.2.2.1,
    ranged_div (Lm := Lm) hlo.2.2.2 hhi.2.2.2 ht h.2.2.2⟩

theorem AllBounds.imp {P Q : ℚ → Prop} {c : Color ℚ} (h : AllBounds P c) (k : ∀ b, P b → Q b) : AllBounds Q c :=
  ⟨k _ h.1, k _ h.2.1, k _ h.2.2.1, k _ h.2.2.2⟩

/-- The bounds of a limited colour. -/
def limits (e : ℕ) : Color ℚ := ⟨2 ^ e, 2 ^ e, 2 ^ e, 2 ^ e⟩

theorem limited_iff {e : ℕ} {c : Color Dbl} : Limited e c ↔ RangedColor (timesColor (limits e) (-1)) (limits e) c := by
  have key (v : Dbl) : Within e v ↔ Ranged (2 ^ e * (-1)) (2 ^ e) v := by
    simp only [Within, Ranged, abs_le, mul_neg, mul_one]
  simp only [Limited, RangedColor, key, timesColor, limits]

theorem limits_lin {e : ℕ} (he : e ≤ 900) :
    AllBounds LinBound (timesColor (limits e) (-1)) ∧ AllBounds LinBound (limits e) := by
  have h := linBound_pow he
  have hn : LinBound (2 ^ e * (-1)) := by
    rw [mul_neg, mul_one]
    exact linBound_neg h
  exact ⟨⟨hn, hn, hn, hn⟩, h, h, h, h⟩

theorem window_small {i : Image Dbl} (hcount : Countable i) {w h : ℕ} : windowPixels i w h < 2 ^ 32 :=
  lt_of_le_of_lt (min_le_left _ _) hcount.2.2.2.2

theorem window_pixels {i : Image Dbl} (hcount : Countable i) {w h : ℕ} (hw0 : 0 < w) (hh0 : 0 < h) (hw : w < 2 ^ 32)
    (hh : h < 2 ^ 32) {cy oy cx ox py px : ℚ} (y2 : 0 < cy) (y3 : cy < i.bmp.height) (x2 : 0 < cx) (x3 : cx < i.bmp.width)
    (eoy : (axis (Arith.ieee Lm) i.bmp.height h).2.1 = .fin oy) (eox : (axis (Arith.ieee Lm) i.bmp.width w).2.1 = .fin ox)
    (py0 : 1 / 2 ≤ py) (py1 : py ≤ i.bmp.height) (px0 : 1 / 2 ≤ px) (px1 : px ≤ i.bmp.width)
    (hpy : ∀ m : ℕ, m ≤ 2 ^ 31 → oy ≤ m → py ≤ m) (hpx : ∀ m : ℕ, m ≤ 2 ^ 31 → ox ≤ m → px ≤ m)
    {top bottom left right : ℕ} (wy : window (Arith.ieee Lm) (.fin cy) (.fin py) i.bmp.height = .ok (top, bottom))
    (wx : window (Arith.ieee Lm) (.fin cx) (.fin px) i.bmp.width = .ok (left, right))
    (hb : bottom ≤ i.bmp.height) (hr : right ≤ i.bmp.width) :
    (bottom - top) * (right - left) ≤ windowPixels i w h := by
  obtain ⟨w0, h0, w1, h1, wh⟩ := hcount
  have dy : i.bmp.height / h ≤ i.bmp.height := Nat.div_le_self _ _
  have dx : i.bmp.width / w ≤ i.bmp.width := Nat.div_le_self _ _
  have b1 := ieee_window_size h1 y2 y3 py0 py1 (hpy _ (by omega) (ieee_offset h1 hh0 hh eoy)) wy
  have b2 := ieee_window_size w1 x2 x3 px0 px1 (hpx _ (by omega) (ieee_offset w1 hw0 hw eox)) wx
  refine le_min ?_ (Nat.mul_le_mul b1 b2)
  rw [Nat.mul_comm i.bmp.width]
  exact Nat.mul_le_mul (by omega) (by omega)

theorem boxPixel_ieee {i : Image Dbl} (hi : ImgOk (Arith.ieee Lm) i) (hcount : Countable i) {w h y x : ℕ}
    (hw : w < 2 ^ 32) (hh : h < 2 ^ 32) (hy : y < h) (hx : x < w) :
    ∃ c, boxPixel (Arith.ieee Lm) i w h y x = .ok c ∧ ∀ lo hi, AllBounds (BoxBound (windowPixels i w h)) lo →
      AllBounds (BoxBound (windowPixels i w h)) hi → RangedPx Lm lo hi i → RangedColor lo hi c := by
  obtain ⟨w0, h0, w1, h1, wh⟩ := hcount
  obtain ⟨vy, cy, oy, sy, ey, ecy, y1, y2, y3, y4, y5, y6, y7, y8, y9⟩ := ieee_axes (Lm := Lm) h0 h1 hy hh
  obtain ⟨vx, cx, ox, sx, ex, ecx, x1, x2, x3, x4, x5, x6, x7, x8, x9⟩ := ieee_axes (Lm := Lm) w0 w1 hx hw
  obtain ⟨py, epy, py1, py2, py3⟩ := ieee_halve (Lm := Lm) h1 y5 y6
  obtain ⟨px, epx, px1, px2, px3⟩ := ieee_halve (Lm := Lm) w1 x5 x6
  obtain ⟨top, bottom, wy, t1, t2, t3⟩ := ieee_window (Lm := Lm) h1 y1 y2 y3 py1 py2
  obtain ⟨left, right, wx, l1, l2, l3⟩ := ieee_window (Lm := Lm) w1 x1 x2 x3 px1 px2
  have near {n : ℕ} {c s : ℚ} (hn : n < 2 ^ 31) (c0 : 0 < c) (c1 : c < n) (s0 : 0 < s) (s1 : s ≤ 1)
      (hm : ⌊c⌋.toNat < n) :
      ¬ (Arith.ieee Lm).lt ((Arith.ieee Lm).lit 0.5) (distanceTo (Arith.ieee Lm) ⌊c⌋.toNat (.fin c) (.fin s)) = true := by
    obtain ⟨d, -, e, -, -, hd⟩ := ieee_distance (Lm := Lm) hn hm c0 c1 s0 s1
    rw [e, ieee_half]
    show ¬ decide ((1 / 2 : ℚ) < d) = true
    simpa using hd rfl
  have ny := near h1 y2 y3 y8 y9 (by omega)
  have nx := near w1 x2 x3 x8 x9 (by omega)
  have hle : (bottom - top) * (right - left) ≤ windowPixels i w h :=
    window_pixels (Lm := Lm) ⟨w0, h0, w1, h1, wh⟩ (by omega) (by omega) hw hh y2 y3 x2 x3 (by rw [ey]) (by rw [ex])
      py1 py2 px1 px2 py3 px3 wy wx t3 l3
  have hwin : windowPixels i w h < 2 ^ 32 := lt_of_le_of_lt (min_le_left _ _) wh
  obtain ⟨⟨s, t⟩, e, ⟨k1, k2⟩, pos⟩ := window_grid (top := top) (bottom := bottom) (left := left) (right := right)
    (s0 := (zeroColor (Arith.ieee Lm), 0))
    (skip := fun k => (Arith.ieee Lm).lt ((Arith.ieee Lm).lit 0.5) (distanceTo (Arith.ieee Lm) k (.fin cy) (.fin sy)) = true)
    (cell := fun k j (s : Color Dbl × Nat) => if (Arith.ieee Lm).lt ((Arith.ieee Lm).lit 0.5)
        (distanceTo (Arith.ieee Lm) j (.fin cx) (.fin sx)) = true then .ok s else do
      let c ← i.get (Arith.ieee Lm) k j
      .ok (addColor (Arith.ieee Lm) s.1 c, u32 (s.2 + 1)))
    (K := fun n s => s.2 ≤ n ∧ ∀ lo hi, AllBounds (BoxBound (windowPixels i w h)) lo →
      AllBounds (BoxBound (windowPixels i w h)) hi → RangedPx Lm lo hi i →
      RangedColor (timesColor lo s.2) (timesColor hi s.2) s.1) (Pos := fun s => 0 < s.2)
    ⟨t1, t2⟩ ⟨l1, l2⟩ ny ⟨le_rfl, fun lo hi _ _ _ => by simpa using ranged_zero lo hi⟩
    (fun n m s h ⟨h1, h2⟩ => ⟨h1.trans h, h2⟩) (by
      intro k j hk1 hk2 hj1 hj2 hs n s hn ⟨k1, k2⟩
      by_cases hsj : (Arith.ieee Lm).lt ((Arith.ieee Lm).lit 0.5)
        (distanceTo (Arith.ieee Lm) j (.fin cx) (.fin sx)) = true
      · refine ⟨s, if_pos hsj, ⟨by omega, k2⟩, ?_⟩
        rintro (h | ⟨-, h⟩)
        · exact h
        · rw [h] at hsj
          exact absurd hsj nx
      · obtain ⟨c, e1, e2⟩ := Image.get_ok hi (show k < i.bmp.height by omega) (show j < i.bmp.width by omega)
        have hu : u32 (s.2 + 1) = s.2 + 1 := Nat.mod_eq_of_lt (by unfold pow32; omega)
        refine ⟨(addColor (Arith.ieee Lm) s.1 c, s.2 + 1), ?_, ⟨by simpa using k1, ?_⟩, fun _ => by simp⟩
        · rw [if_neg hsj, e1, Res.ok_bind, hu]
        · intro lo hi hlo hhi hl
          exact rangedColor_add hlo hhi (by omega) (by omega) (k2 lo hi hlo hhi hl) (hl k j c (by omega) (by omega) e2))
  have ht : (0 : ℚ) < t := by exact_mod_cast pos
  have elit : (Arith.ieee Lm).lit (t : ℚ) = .fin t := ieee_nat (by dsimp only at k1; omega)
  refine ⟨divColor (Arith.ieee Lm) s ((Arith.ieee Lm).lit t), ?_, fun lo hi hlo hhi hl => ?_⟩
  · unfold boxPixel
    simp only [ey, ex, ecy, ecx, epy, epx, wy, wx, Res.ok_bind, e]
  · rw [elit]
    exact rangedColor_div (hlo.imp fun b h => ⟨h.1, h.2.1⟩) (hhi.imp fun b h => ⟨h.1, h.2.1⟩) ht (k2 lo hi hlo hhi hl)

/-- The weight of a source pixel. -/
theorem ieee_weight {d : ℚ} (hd : RepD d) (d0 : 0 ≤ d) (d1 : d ≤ 2 ^ 31) :
    ∃ w, RepD w ∧ (Arith.ieee Lm).max ((Arith.ieee Lm).sub ((Arith.ieee Lm).lit 1) (.fin d)) ((Arith.ieee Lm).lit 0) = .fin w ∧
      0 ≤ w ∧ w ≤ 1 ∧ (w ≠ 0 → (2 : ℚ)⁻¹ ^ 54 ≤ w) ∧ (d ≤ 1 / 2 → w ≠ 0) := by
  have rep0 : RepD 0 := by simpa using repD_small (n := 0) (by norm_num)
  have rep54 : RepD ((2 : ℚ)⁻¹ ^ 54) := ⟨1, -54, by norm_num, by norm_num, by rw [zpow_neg, inv_pow]; norm_num⟩
  have w1 : rneD (1 - d) ≤ 1 := rneD_le_of repD_one (by linarith)
  refine ⟨max (rneD (1 - d)) 0, ?_, ?_, le_max_right _ _, max_le w1 (by norm_num), ?_, ?_⟩
  · rcases max_choice (rneD (1 - d)) 0 with h | h <;> rw [h]
    · exact rneD_rep _
    · exact rep0
  · rw [ieee_one, ieee_zero, ieee_sub (by rw [abs_le]; constructor <;> linarith), ieee_max]
  · intro hne
    have hpos : 0 < rneD (1 - d) := by
      by_contra hcon
      exact hne (max_eq_right (not_lt.1 hcon))
    have hd1 : d < 1 := by
      by_contra hcon
      have : rneD (1 - d) ≤ 0 := rneD_le_of rep0 (by linarith)
      linarith
    refine le_trans (rneD_ge_of rep54 ?_) (le_max_left _ _)
    by_cases hh : d ≤ 1 / 2
    · linarith [show (2 : ℚ)⁻¹ ^ 54 ≤ 1 / 2 by norm_num]
    rw [not_le] at hh
    obtain ⟨m, k, hm, hk, rfl⟩ := hd
    have hk54 : -54 ≤ k := by
      by_contra hcon
      have p : (2 : ℚ) ^ k ≤ 2 ^ (-55 : ℤ) := zpow_le_zpow_right₀ (by norm_num) (by omega)
      have mm : (m : ℚ) ≤ 2 ^ 53 := by exact_mod_cast (abs_le.1 hm).2
      have kp : (0 : ℚ) < 2 ^ k := by positivity
      have : (m : ℚ) * 2 ^ k ≤ 2 ^ 53 * 2 ^ (-55 : ℤ) := by
        calc (m : ℚ) * 2 ^ k ≤ 2 ^ 53 * 2 ^ k := by gcongr
          _ ≤ _ := by gcongr
      norm_num at this
      linarith
    obtain ⟨j, rfl⟩ : ∃ j : ℕ, k = (j : ℤ) - 54 := ⟨(k + 54).toNat, by omega⟩
    have e1 : (m : ℚ) * 2 ^ ((j : ℤ) - 54) = m * 2 ^ j * 2⁻¹ ^ 54 := by
      rw [zpow_sub₀ (by norm_num), zpow_natCast, inv_pow]
      norm_num
      ring
    rw [e1] at hd1 ⊢
    have e2 : (1 : ℚ) = 2 ^ 54 * 2⁻¹ ^ 54 := by norm_num
    have p54 : (0 : ℚ) < 2⁻¹ ^ 54 := by positivity
    have a1 : (m : ℚ) * 2 ^ j < 2 ^ 54 := by
      rw [e2] at hd1
      exact lt_of_mul_lt_mul_right hd1 p54.le
    have a2 : m * 2 ^ j + 1 ≤ (2 ^ 54 : ℤ) := by
      have : m * 2 ^ j < (2 ^ 54 : ℤ) := by exact_mod_cast a1
      omega
    have a3 : (m : ℚ) * 2 ^ j + 1 ≤ 2 ^ 54 := by exact_mod_cast a2
    nlinarith
  · intro hh
    have : 1 / 2 ≤ rneD (1 - d) := rneD_ge_of repD_halves (by linarith)
    have := le_max_left (rneD (1 - d)) 0
    linarith

/-- The linear filter sums weighted pixels one by one and divides the sum by the sum of the weights. -/
theorem linearPixel_steps {i : Image Dbl} (hi : ImgOk (Arith.ieee Lm) i) (hcount : Countable i) {w h y x : ℕ}
    (hw : w < 2 ^ 32) (hh : h < 2 ^ 32) (hy : y < h) (hx : x < w) (B : ℕ → ℚ → Color Dbl → Prop)
    (start : B 0 0 (zeroColor (Arith.ieee Lm))) (more : ∀ n m t s, n ≤ m → B n t s → B m t s)
    (step : ∀ (n : ℕ) (t : ℚ) s v, n < windowPixels i w h → 0 ≤ t → t ≤ n → (2 : ℚ)⁻¹ ^ 108 ≤ v → v ≤ 1 → RepD v → ∀ y x c,
      y < i.bmp.height → x < i.bmp.width → getPixelImpl (Arith.ieee Lm) i.format (i.bmp.px y x) = .ok c →
      B n t s → B (n + 1) (rneD (t + v)) (addScaled (Arith.ieee Lm) s c (.fin v))) :
    ∃ (s : Color Dbl) (t : ℚ) (n : ℕ), linearPixel (Arith.ieee Lm) i w h y x = .ok (divColor (Arith.ieee Lm) s (.fin t)) ∧ 0 < t ∧ t ≤ n ∧
      n ≤ windowPixels i w h ∧ B n t s := by
  obtain ⟨w0, h0, w1, h1, wh⟩ := hcount
  obtain ⟨vy, cy, oy, sy, ey, ecy, y1, y2, y3, y4, y5, y6, y7, y8, y9⟩ := ieee_axes (Lm := Lm) h0 h1 hy hh
  obtain ⟨vx, cx, ox, sx, ex, ecx, x1, x2, x3, x4, x5, x6, x7, x8, x9⟩ := ieee_axes (Lm := Lm) w0 w1 hx hw
  obtain ⟨top, bottom, wy, t1, t2, t3⟩ := ieee_window (Lm := Lm) h1 y1 y2 y3 (o := oy) (by linarith) y6
  obtain ⟨left, right, wx, l1, l2, l3⟩ := ieee_window (Lm := Lm) w1 x1 x2 x3 (o := ox) (by linarith) x6
  -- the weights
  have weight {n k : ℕ} {c s : ℚ} (hn : n < 2 ^ 31) (c0 : 0 < c) (c1 : c < n) (s0 : 0 < s) (s1 : s ≤ 1) (hk : k < n) :
      ∃ w, RepD w ∧ (Arith.ieee Lm).max ((Arith.ieee Lm).sub ((Arith.ieee Lm).lit 1)
        (distanceTo (Arith.ieee Lm) k (.fin c) (.fin s))) ((Arith.ieee Lm).lit 0) = .fin w ∧
        0 ≤ w ∧ w ≤ 1 ∧ (w ≠ 0 → (2 : ℚ)⁻¹ ^ 54 ≤ w) ∧ (k = ⌊c⌋.toNat → w ≠ 0) := by
    obtain ⟨d, d1, e, d2, d3, d4⟩ := ieee_distance (Lm := Lm) hn hk c0 c1 s0 s1
    obtain ⟨w, h1, h2, h3, h4, h5, h6⟩ := ieee_weight (Lm := Lm) d1 d2 d3
    exact ⟨w, h1, by rw [e, h2], h3, h4, h5, fun hk => h6 (d4 hk)⟩
  have isz (q : ℚ) : ((Arith.ieee Lm).eq (.fin q) ((Arith.ieee Lm).lit 0) = true) ↔ q = 0 := by
    rw [ieee_zero]
    show decide (q = 0) = true ↔ q = 0
    simp
  have hle : (bottom - top) * (right - left) ≤ windowPixels i w h :=
    window_pixels (Lm := Lm) ⟨w0, h0, w1, h1, wh⟩ (by omega) (by omega) hw hh y2 y3 x2 x3 (by rw [ey]) (by rw [ex])
      (by linarith) y6 (by linarith) x6 (fun m _ h => h) (fun m _ h => h) wy wx t3 l3
  have hwin : windowPixels i w h < 2 ^ 32 := lt_of_le_of_lt (min_le_left _ _) wh
  have rep0 : RepD 0 := by simpa using repD_small (n := 0) (by norm_num)
  obtain ⟨⟨s, t⟩, e, ⟨t', et, k0, k1, k2⟩, t'', et'', pos⟩ := window_grid (top := top) (bottom := bottom) (left := left) (right := right)
    (s0 := (zeroColor (Arith.ieee Lm), (Arith.ieee Lm).lit 0))
    (skip := fun k => (Arith.ieee Lm).eq ((Arith.ieee Lm).max ((Arith.ieee Lm).sub ((Arith.ieee Lm).lit 1)
        (distanceTo (Arith.ieee Lm) k (.fin cy) (.fin sy))) ((Arith.ieee Lm).lit 0)) ((Arith.ieee Lm).lit 0) = true)
    (cell := fun k j (s : Color Dbl × Dbl) => if (Arith.ieee Lm).eq ((Arith.ieee Lm).max ((Arith.ieee Lm).sub ((Arith.ieee Lm).lit 1)
        (distanceTo (Arith.ieee Lm) j (.fin cx) (.fin sx))) ((Arith.ieee Lm).lit 0)) ((Arith.ieee Lm).lit 0) = true
        then .ok s else do
      let c ← i.get (Arith.ieee Lm) k j
      .ok (addScaled (Arith.ieee Lm) s.1 c ((Arith.ieee Lm).mul ((Arith.ieee Lm).max ((Arith.ieee Lm).sub ((Arith.ieee Lm).lit 1)
        (distanceTo (Arith.ieee Lm) j (.fin cx) (.fin sx))) ((Arith.ieee Lm).lit 0))
        ((Arith.ieee Lm).max ((Arith.ieee Lm).sub ((Arith.ieee Lm).lit 1)
        (distanceTo (Arith.ieee Lm) k (.fin cy) (.fin sy))) ((Arith.ieee Lm).lit 0))), (Arith.ieee Lm).add s.2
        ((Arith.ieee Lm).mul ((Arith.ieee Lm).max ((Arith.ieee Lm).sub ((Arith.ieee Lm).lit 1)
        (distanceTo (Arith.ieee Lm) j (.fin cx) (.fin sx))) ((Arith.ieee Lm).lit 0))
        ((Arith.ieee Lm).max ((Arith.ieee Lm).sub ((Arith.ieee Lm).lit 1)
        (distanceTo (Arith.ieee Lm) k (.fin cy) (.fin sy))) ((Arith.ieee Lm).lit 0)))))
    (K := fun n s => ∃ t : ℚ, s.2 = .fin t ∧ 0 ≤ t ∧ t ≤ n ∧ B n t s.1)
    (Pos := fun s => ∃ t : ℚ, s.2 = .fin t ∧ 0 < t)
    ⟨t1, t2⟩ ⟨l1, l2⟩ (by
      obtain ⟨w, -, e, -, -, -, h⟩ := weight h1 y2 y3 y8 y9 (k := ⌊cy⌋.toNat) (by omega)
      rw [e, isz]
      exact h rfl) (by
      refine ⟨0, ?_, le_rfl, by simp, start⟩
      dsimp only
      exact ieee_zero)
    (fun n m s h ⟨t, h1, h2, h3, h4⟩ => ⟨t, h1, h2, h3.trans (by exact_mod_cast h), more _ _ _ _ h h4⟩) (by
      intro k j hk1 hk2 hj1 hj2 hs n s hn ⟨t, et, k0, k1, k2⟩
      obtain ⟨ay, ay1, ay2, ay3, ay4, ay5, -⟩ := weight h1 y2 y3 y8 y9 (k := k) (by omega)
      obtain ⟨ax, ax1, ax2, ax3, ax4, ax5, ax6⟩ := weight w1 x2 x3 x8 x9 (k := j) (by omega)
      rw [ay2, isz] at hs
      rw [ay2, ax2]
      by_cases hsj : ax = 0
      · refine ⟨s, if_pos ((isz ax).2 hsj), ⟨t, et, k0, k1.trans (by push_cast; linarith), more _ _ _ _ (by omega) k2⟩, ?_⟩
        rintro (h | ⟨-, h⟩)
        · exact h
        · exact absurd hsj (ax6 h)
      · obtain ⟨c, e1, e2⟩ := Image.get_ok hi (show k < i.bmp.height by omega) (show j < i.bmp.width by omega)
        have by' := ay5 hs
        have bx := ax5 hsj
        have lowq : (2 : ℚ)⁻¹ ^ 108 ≤ ax * ay := by
          calc (2 : ℚ)⁻¹ ^ 108 = 2⁻¹ ^ 54 * 2⁻¹ ^ 54 := by norm_num
            _ ≤ ax * ay := by gcongr
        have up : ax * ay ≤ 1 := mul_le_one₀ ax4 ay3 ay4
        have rep108 : RepD ((2 : ℚ)⁻¹ ^ 108) := ⟨1, -108, by norm_num, by norm_num, by rw [zpow_neg, inv_pow]; norm_num⟩
        have low' := rneD_ge_of rep108 lowq
        have up' := rneD_le_of repD_one up
        have tiny : (2 : ℚ) ^ (-1022 : ℤ) ≤ 2⁻¹ ^ 108 := by
          rw [show (-1022 : ℤ) = -((1022 : ℕ) : ℤ) by norm_num, zpow_neg, zpow_natCast, ← inv_pow]
          exact pow_le_pow_of_le_one (by norm_num) (by norm_num) (by norm_num)
        have em : (Arith.ieee Lm).mul (.fin ax) (.fin ay) = .fin (rneD (ax * ay)) :=
          ieee_mul (by rw [abs_of_nonneg (by positivity)]; linarith)
        set q := rneD (ax * ay) with hq
        have q0 : 0 < q := lt_of_lt_of_le (by positivity) low'
        have n32 : (n : ℚ) ≤ 2 ^ 32 := by exact_mod_cast (by omega : n ≤ 2 ^ 32)
        have ea : (Arith.ieee Lm).add (.fin t) (.fin q) = .fin (rneD (t + q)) :=
          ieee_add (by rw [abs_of_nonneg (by linarith)]; linarith)
        have repn : RepD ((n + 1 : ℕ) : ℚ) := by
          exact_mod_cast repD_small (n := ((n + 1 : ℕ) : ℤ)) (by rw [abs_of_nonneg (by positivity)]; norm_cast; omega)
        refine ⟨_, by rw [if_neg (by rw [isz]; exact hsj), e1, Res.ok_bind], ⟨rneD (t + q), ?_, ?_, ?_, ?_⟩,
          fun _ => ⟨rneD (t + q), ?_, ?_⟩⟩
        · rw [em, et, ea]
        · exact rneD_ge_of rep0 (by linarith)
        · exact rneD_le_of repn (by push_cast; linarith)
        · rw [em]
          exact step n t s.1 q (by omega) k0 k1 low' up' (rneD_rep _) k j c (by omega) (by omega) e2 k2
        · rw [em, et, ea]
        · exact lt_of_lt_of_le (by positivity) (rneD_ge_of rep108 (q := t + q) (by linarith)))
  dsimp only at et et''
  rw [et] at et''
  cases et''
  refine ⟨s, t', _, ?_, pos, k1, hle, k2⟩
  unfold linearPixel
  simp only [ey, ex, ecy, ecx, wy, wx, Res.ok_bind, e, et]

theorem tiny_weight : (2 : ℚ) ^ (-1022 : ℤ) ≤ 2⁻¹ ^ 108 := by
  rw [show (-1022 : ℤ) = -((1022 : ℕ) : ℤ) by norm_num, zpow_neg, zpow_natCast, ← inv_pow]
  exact pow_le_pow_of_le_one (by norm_num) (by norm_num) (by norm_num)

theorem linearPixel_ieee {i : Image Dbl} (hi : ImgOk (Arith.ieee Lm) i) (hcount : Countable i) {w h y x : ℕ}
    (hw : w < 2 ^ 32) (hh : h < 2 ^ 32) (hy : y < h) (hx : x < w) :
    ∃ c, linearPixel (Arith.ieee Lm) i w h y x = .ok c ∧ ∀ lo hi, AllBounds LinBound lo → AllBounds LinBound hi →
      RangedPx Lm lo hi i → RangedColor lo hi c := by
  have hwin : windowPixels i w h < 2 ^ 32 := lt_of_le_of_lt (min_le_left _ _) hcount.2.2.2.2
  obtain ⟨s, t, n, e, t0, -, -, hb⟩ := linearPixel_steps hi hcount hw hh hy hx
    (fun _ t s => ∀ lo hi, AllBounds LinBound lo → AllBounds LinBound hi → RangedPx Lm lo hi i →
      RangedColor (timesColor lo t) (timesColor hi t) s)
    (fun lo hi _ _ _ => ranged_zero lo hi) (fun _ _ _ _ _ h => h) (by
      intro n t s v hn t0 tn v0 v1 rv y x c hy hx e k lo hi hlo hhi hl
      exact rangedColor_addScaled hlo hhi (by omega) t0 tn (tiny_weight.trans v0) v1 rv (k lo hi hlo hhi hl)
        (hl y x c hy hx e))
  exact ⟨_, e, fun lo hi hlo hhi hl => rangedColor_div (hlo.imp fun b h => ⟨h.1, h.rep⟩) (hhi.imp fun b h => ⟨h.1, h.rep⟩)
    t0 (hb lo hi hlo hhi hl)⟩

end Cuttlefish
