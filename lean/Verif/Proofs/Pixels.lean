import Verif.Proofs.ImagePx
import Verif.Proofs.ArithLaws
import Verif.Spec.Pixels
/-
Storing a colour and reading it back.
-/
namespace Cuttlefish
open Spec
variable {L : Libm}

theorem toNorm_nan {top m : Nat} : (Arith.ieee L).toNorm top m .nan = .ub := by
  simp [Arith.toNorm, Arith.clamp, Arith.max, Arith.min, Arith.ieee, F32.lt, F32.mulWith, ofQ_one,
    ofQ_zero, F32.roundAway, F32.cast]

theorem toNorm_inf {top m : Nat} (s : Bool) :
    (Arith.ieee L).toNorm top m (.inf s) = (Arith.ieee L).toNorm top m (.fin (if s then 0 else 1)) := by
  unfold Arith.toNorm
  rw [clamp_ieee]
  cases s <;> simp [Arith.clamp, Arith.max, Arith.min, Arith.ieee, F32.lt, ofQ_one, ofQ_zero, clamp01,
    show ¬ ((1 : ℚ) < 0) by norm_num]

theorem fromNorm_nearest {m : Nat} {k : ℤ} (h0 : m ≠ 0) (hm : m ≤ 65535) (hk0 : 0 ≤ k) (hk : k ≤ m) :
    (Arith.ieee L).fromNorm m k = Dbl.ofQ (k / m) := by
  rw [fromNorm_ieee L h0 hm (by rw [abs_of_nonneg hk0]; omega), ofQ_small]
  have hm1 : (1 : ℚ) ≤ m := by exact_mod_cast Nat.one_le_iff_ne_zero.2 h0
  have hk' : (k : ℚ) ≤ m := by exact_mod_cast hk
  have hk0' : (0 : ℚ) ≤ k := by exact_mod_cast hk0
  rw [abs_of_nonneg (by positivity)]
  refine ((div_le_one (by linarith)).2 hk').trans (by norm_num)

theorem norm_store {top m : Nat} (h0 : m ≠ 0) (hm : m ≤ 65535) (ht : m ≤ top) {c : Dbl} (hc : c ≠ .nan) :
    ∃ k, (Arith.ieee L).toNorm top m c = .ok k ∧ Upto m k ∧ NormAs m c ((Arith.ieee L).fromNorm m k) := by
  have main (q : ℚ) (hl : limited c = some (clamp01 q)) (e : (Arith.ieee L).toNorm top m c =
      (Arith.ieee L).toNorm top m (.fin q)) : ∃ k, (Arith.ieee L).toNorm top m c = .ok k ∧ Upto m k ∧
      NormAs m c ((Arith.ieee L).fromNorm m k) := by
    rw [e, toNorm_ieee L q hm ht]
    have hb := toNorm_bounds (m := m) q hm
    refine ⟨_, rfl, hb, clamp01 q, _, hl, hb.1, hb.2, ?_, fromNorm_nearest h0 hm hb.1 hb.2⟩
    have := toNorm_err (m := m) q hm
    rwa [mul_comm (m : ℚ)]
  cases c with
  | nan => exact absurd rfl hc
  | inf s =>
    refine main (if s then 0 else 1) ?_ (toNorm_inf s)
    cases s <;> simp [limited, clamp01]
  | fin q => exact main q rfl rfl

theorem cast_range_iff {lo hi : ℤ} (h1 : lo ≤ 0) (h2 : 0 ≤ hi) {c : Dbl} (h : InRange lo hi c) :
    ∃ t, F32.cast lo hi c = .ok t ∧ lo ≤ t ∧ t ≤ hi ∧ IntAs lo hi c (.fin t) := by
  obtain ⟨q, rfl, hlo, hhi⟩ := h
  have key : ∃ t : ℤ, (if 0 ≤ q then ⌊q⌋ else -⌊-q⌋) = t ∧ lo ≤ t ∧ t ≤ hi ∧ |q - t| < 1 ∧ |(t : ℚ)| ≤ |q| ∧
      0 ≤ t * q := by
    by_cases hq : 0 ≤ q
    · refine ⟨_, if_pos hq, ?_⟩
      have f1 := Int.floor_le q
      have f2 := Int.lt_floor_add_one q
      have f3 : 0 ≤ ⌊q⌋ := Int.floor_nonneg.2 hq
      have f3' : (0 : ℚ) ≤ ⌊q⌋ := by exact_mod_cast f3
      have f4 : ⌊q⌋ < hi + 1 := by rw [Int.floor_lt]; push_cast; exact hhi
      refine ⟨by omega, by omega, ?_, ?_, by positivity⟩
      · rw [abs_lt]; constructor <;> linarith
      · rw [abs_of_nonneg f3', abs_of_nonneg hq]; exact f1
    · refine ⟨_, if_neg hq, ?_⟩
      rw [not_le] at hq
      have f1 := Int.floor_le (-q)
      have f2 := Int.lt_floor_add_one (-q)
      have f3 : 0 ≤ ⌊-q⌋ := Int.floor_nonneg.2 (by linarith)
      have f3' : (0 : ℚ) ≤ ⌊-q⌋ := by exact_mod_cast f3
      have f4 : ⌊-q⌋ < -lo + 1 := by rw [Int.floor_lt]; push_cast; linarith
      refine ⟨by omega, by omega, ?_, ?_, ?_⟩
      · push_cast; rw [abs_lt]; constructor <;> linarith
      · push_cast; rw [abs_neg, abs_of_nonneg f3', abs_of_neg hq]; exact f1
      · push_cast; nlinarith
  obtain ⟨t, et, k1, k2, k3⟩ := key
  refine ⟨t, ?_, k1, k2, q, t, rfl, rfl, k1, k2, k3⟩
  simp only [F32.cast, et]
  rw [if_pos ⟨k1, k2⟩]

theorem cast_not_range {lo hi : ℤ} (h1 : lo ≤ 0) (h2 : 0 ≤ hi) {c : Dbl} (h : ¬ InRange lo hi c) :
    F32.cast lo hi c = .ub := by
  cases c with
  | fin q =>
    simp only [F32.cast]
    rw [if_neg]
    rintro ⟨a1, a2⟩
    apply h
    refine ⟨q, rfl, ?_⟩
    by_cases hq : 0 ≤ q
    · rw [if_pos hq] at a1 a2
      have f2 := Int.lt_floor_add_one q
      have a2' : ((⌊q⌋ : ℤ) : ℚ) ≤ hi := by exact_mod_cast a2
      have h1' : (lo : ℚ) ≤ 0 := by exact_mod_cast h1
      constructor <;> linarith
    · rw [if_neg hq] at a1 a2
      rw [not_le] at hq
      have f2 := Int.lt_floor_add_one (-q)
      have a1' : (lo : ℚ) ≤ -((⌊-q⌋ : ℤ) : ℚ) := by exact_mod_cast a1
      have h2' : (0 : ℚ) ≤ hi := by exact_mod_cast h2
      constructor <;> linarith
  | _ => rfl

theorem lit_fin {v : ℤ} (h : |v| ≤ 2 ^ 32) : (Arith.ieee L).lit (v : ℚ) = .fin v := by
  simp only [Arith.ieee, ofQ_int (h.trans (by norm_num : (2 : ℤ) ^ 32 ≤ 2 ^ 53))]

theorem litOne (L : Libm) : (Arith.ieee L).lit 1 = .fin 1 := by simp only [Arith.ieee, ofQ_one]
theorem litZero (L : Libm) : (Arith.ieee L).lit 0 = .fin 0 := by simp only [Arith.ieee, ofQ_zero]

theorem field_of_sum {r g b : ℤ} (hg : Upto 31 g) (hb : Upto 31 b) (hr : Upto 31 r) :
    getField (r * 2 ^ 10 + g * 2 ^ 5 + b) 10 5 = r ∧ getField (r * 2 ^ 10 + g * 2 ^ 5 + b) 5 5 = g ∧
      getField (r * 2 ^ 10 + g * 2 ^ 5 + b) 0 5 = b := by
  unfold Upto at *
  refine ⟨?_, ?_, ?_⟩ <;> unfold getField <;> omega

theorem field_of_sum6 {r g b : ℤ} (hg : Upto 63 g) (hb : Upto 31 b) (hr : Upto 31 r) :
    getField (r * 2 ^ 11 + g * 2 ^ 5 + b) 11 5 = r ∧ getField (r * 2 ^ 11 + g * 2 ^ 5 + b) 5 6 = g ∧
      getField (r * 2 ^ 11 + g * 2 ^ 5 + b) 0 5 = b := by
  unfold Upto at *
  refine ⟨?_, ?_, ?_⟩ <;> unfold getField <;> omega

/-- A colour that can be stored is stored, and read back as specified. -/
theorem set_read {f : IFormat} {c : Color Dbl} (h : Keepable f c) :
    ∃ p d, setPixelNoGrayscaleImpl (Arith.ieee L) f c = .ok p ∧ PxOk (Arith.ieee L) f p ∧
      getPixelImpl (Arith.ieee L) f p = .ok d ∧ ReadBack f c d := by
  have n8 {c : Dbl} (hc : c ≠ .nan) := norm_store (L := L) (top := 255) (m := 255) (by norm_num) (by norm_num) le_rfl hc
  have n16 {c : Dbl} (hc : c ≠ .nan) := norm_store (L := L) (top := 65535) (m := 65535) (by norm_num) (by norm_num) le_rfl hc
  have n5 {c : Dbl} (hc : c ≠ .nan) := norm_store (L := L) (top := 255) (m := 31) (by norm_num) (by norm_num) (by norm_num) hc
  have n6 {c : Dbl} (hc : c ≠ .nan) := norm_store (L := L) (top := 255) (m := 63) (by norm_num) (by norm_num) (by norm_num) hc
  have ic : (Arith.ieee L).cast = F32.cast := rfl
  suffices H : ∃ p d, setPixelNoGrayscaleImpl (Arith.ieee L) f c = .ok p ∧
      getPixelImpl (Arith.ieee L) f p = .ok d ∧ ReadBack f c d by
    obtain ⟨p, d, e, g, r⟩ := H
    exact ⟨p, d, e, set_px (lawful_ieee L) e, g, r⟩
  cases f <;> simp only [Keepable] at h
  case Gray8 =>
    obtain ⟨k, e, u, n⟩ := n8 h
    exact ⟨_, _, by simp only [setPixelNoGrayscaleImpl, e, Res.ok_bind]; rfl, rfl, n, rfl, rfl, litOne L⟩
  case Gray16 =>
    obtain ⟨k, e, u, n⟩ := n16 h
    exact ⟨_, _, by simp only [setPixelNoGrayscaleImpl, e, Res.ok_bind]; rfl, rfl, n, rfl, rfl, litOne L⟩
  case RGB5 =>
    obtain ⟨r, er, ur, nr⟩ := n5 h.1
    obtain ⟨g, eg, ug, ng⟩ := n5 h.2.1
    obtain ⟨b, eb, ub, nb⟩ := n5 h.2.2
    obtain ⟨f1, f2, f3⟩ := field_of_sum ug ub ur
    refine ⟨_, _, by simp only [setPixelNoGrayscaleImpl, setPixelCommon, er, eg, eb, Res.ok_bind]; rfl, rfl, ?_⟩
    rw [f1, f2, f3]
    exact ⟨nr, ng, nb, litOne L⟩
  case RGB565 =>
    obtain ⟨r, er, ur, nr⟩ := n5 h.1
    obtain ⟨g, eg, ug, ng⟩ := n6 h.2.1
    obtain ⟨b, eb, ub, nb⟩ := n5 h.2.2
    obtain ⟨f1, f2, f3⟩ := field_of_sum6 ug ub ur
    refine ⟨_, _, by simp only [setPixelNoGrayscaleImpl, setPixelCommon, er, eg, eb, Res.ok_bind]; rfl, rfl, ?_⟩
    rw [f1, f2, f3]
    exact ⟨nr, ng, nb, litOne L⟩
  case RGB8 =>
    obtain ⟨r, er, ur, nr⟩ := n8 h.1
    obtain ⟨g, eg, ug, ng⟩ := n8 h.2.1
    obtain ⟨b, eb, ub, nb⟩ := n8 h.2.2
    exact ⟨_, _, by simp only [setPixelNoGrayscaleImpl, setPixelCommon, er, eg, eb, Res.ok_bind]; rfl, rfl, nr, ng,
      nb, litOne L⟩
  case RGB16 =>
    obtain ⟨r, er, ur, nr⟩ := n16 h.1
    obtain ⟨g, eg, ug, ng⟩ := n16 h.2.1
    obtain ⟨b, eb, ub, nb⟩ := n16 h.2.2
    exact ⟨_, _, by simp only [setPixelNoGrayscaleImpl, setPixelCommon, er, eg, eb, Res.ok_bind]; rfl, rfl, nr, ng,
      nb, litOne L⟩
  case RGBF => exact ⟨_, _, rfl, rfl, rfl, rfl, rfl, litOne L⟩
  case RGBA8 =>
    obtain ⟨r, er, ur, nr⟩ := n8 h.1
    obtain ⟨g, eg, ug, ng⟩ := n8 h.2.1
    obtain ⟨b, eb, ub, nb⟩ := n8 h.2.2.1
    obtain ⟨a, ea, ua, na⟩ := n8 h.2.2.2
    exact ⟨_, _, by simp only [setPixelNoGrayscaleImpl, setPixelCommon, er, eg, eb, ea, Res.ok_bind]; rfl, rfl, nr,
      ng, nb, na⟩
  case RGBA16 =>
    obtain ⟨r, er, ur, nr⟩ := n16 h.1
    obtain ⟨g, eg, ug, ng⟩ := n16 h.2.1
    obtain ⟨b, eb, ub, nb⟩ := n16 h.2.2.1
    obtain ⟨a, ea, ua, na⟩ := n16 h.2.2.2
    exact ⟨_, _, by simp only [setPixelNoGrayscaleImpl, setPixelCommon, er, eg, eb, ea, Res.ok_bind]; rfl, rfl, nr,
      ng, nb, na⟩
  case RGBAF => exact ⟨_, _, rfl, rfl, rfl, rfl, rfl, rfl⟩
  case Int16 =>
    obtain ⟨t, e, t1, t2, n⟩ := cast_range_iff (by norm_num) (by norm_num) h
    refine ⟨_, _, by simp only [setPixelNoGrayscaleImpl, setPixelCommon, ic, e, Res.ok_bind]; rfl, rfl, ?_, rfl, rfl,
      litOne L⟩
    rw [lit_fin (abs_le.2 (by omega))]; exact n
  case UInt16 =>
    obtain ⟨t, e, t1, t2, n⟩ := cast_range_iff (by norm_num) (by norm_num) h
    refine ⟨_, _, by simp only [setPixelNoGrayscaleImpl, ic, e, Res.ok_bind]; rfl, rfl, ?_, rfl, rfl, litOne L⟩
    rw [lit_fin (abs_le.2 (by omega))]; exact n
  case Int32 =>
    obtain ⟨t, e, t1, t2, n⟩ := cast_range_iff (by norm_num) (by norm_num) h
    refine ⟨_, _, by simp only [setPixelNoGrayscaleImpl, setPixelCommon, ic, e, Res.ok_bind]; rfl, rfl, ?_, rfl, rfl,
      litOne L⟩
    rw [lit_fin (abs_le.2 (by omega))]; exact n
  case UInt32 =>
    obtain ⟨t, e, t1, t2, n⟩ := cast_range_iff (by norm_num) (by norm_num) h
    refine ⟨_, _, by simp only [setPixelNoGrayscaleImpl, setPixelCommon, ic, e, Res.ok_bind]; rfl, rfl, ?_, rfl, rfl,
      litOne L⟩
    rw [lit_fin (abs_le.2 (by omega))]; exact n
  case Float => exact ⟨_, _, rfl, rfl, rfl, rfl, rfl, litOne L⟩
  case Double => exact ⟨_, _, rfl, rfl, rfl, rfl, rfl, litOne L⟩
  case Complex =>
    refine ⟨_, ⟨c.r, c.g, (Arith.ieee L).lit 0, (Arith.ieee L).lit 1⟩, rfl, rfl, ?_⟩
    rw [litZero, litOne]
    exact ⟨rfl, rfl, rfl, rfl⟩

/-- Storing any other colour is undefined. -/
theorem set_undefined {f : IFormat} {c : Color Dbl} (h : ¬ Keepable f c) :
    setPixelNoGrayscaleImpl (Arith.ieee L) f c = .ub := by
  have ic : (Arith.ieee L).cast = F32.cast := rfl
  have nb {α : Type} {top m : Nat} {d : Dbl} (k : ℤ → Res α) (hk : d ≠ .nan → ∀ v, k v = .ub) :
      ((Arith.ieee L).toNorm top m d >>= k) = .ub := by
    by_cases hd : d = .nan
    · rw [hd, toNorm_nan, Res.ub_bind]
    · cases (Arith.ieee L).toNorm top m d with
      | ub => rfl
      | ok v => exact hk hd v
  cases f <;> simp only [Keepable, not_and, not_not, ne_eq, not_true_eq_false] at h
  case Gray8 | Gray16 => exact nb _ (fun hd => absurd h hd)
  case RGB5 | RGB565 | RGB8 | RGB16 =>
    exact nb _ (fun h1 _ => nb _ (fun h2 _ => nb _ (fun h3 _ => absurd (h h1 h2) h3)))
  case RGBA8 | RGBA16 =>
    exact nb _ (fun h1 _ => nb _ (fun h2 _ => nb _ (fun h3 _ => nb _ (fun h4 _ => absurd (h h1 h2 h3) h4))))
  case Int16 | UInt16 | Int32 | UInt32 =>
    simp only [setPixelNoGrayscaleImpl, setPixelCommon, ic, cast_not_range (by norm_num) (by norm_num) h, Res.ub_bind]
  case Invalid => rfl

/-- The luminance computed in double precision. -/
theorem toGray_ieee {r g b : ℚ} (hr : |r| ≤ 1) (hg : |g| ≤ 1) (hb : |b| ≤ 1) :
    ∃ v, (Arith.ieee L).toGrayscale (.fin r) (.fin g) (.fin b) = .fin v ∧ |v - luma r g b| ≤ 1 / 2 ^ 50 := by
  have lit (q : ℚ) (hq : |q| ≤ 2 ^ 53) : (Arith.ieee L).lit q = .fin (rneD q) := by
    simp only [Arith.ieee, ofQ_small hq]
  have mul (p q : ℚ) (h : |p * q| ≤ 2 ^ 53) : (Arith.ieee L).mul (.fin p) (.fin q) = .fin (rneD (p * q)) := by
    simp only [Arith.ieee, F32.mulWith, ofQ_small h]
  have add (p q : ℚ) (h : |p + q| ≤ 2 ^ 53) : (Arith.ieee L).add (.fin p) (.fin q) = .fin (rneD (p + q)) := by
    simp only [Arith.ieee, F32.addWith, ofQ_small h]
  have err (q : ℚ) (hq : |q| ≤ 2) : |rneD q - q| ≤ 1 / 2 ^ 53 := by
    refine (rneD_abs (e := 0) (by norm_num) (by simpa using hq)).trans (le_of_eq ?_)
    norm_num [zpow_neg]
  have err1 (q : ℚ) (hq : |q| ≤ 1) : |rneD q - q| ≤ 1 / 2 ^ 54 := by
    refine (rneD_abs (e := -1) (by norm_num) (by simpa using hq)).trans (le_of_eq ?_)
    norm_num [zpow_neg]
  have u : (1 : ℚ) / 2 ^ 53 = 2 * (1 / 2 ^ 54) := by norm_num
  have u2 : (1 : ℚ) / 2 ^ 50 = 16 * (1 / 2 ^ 54) := by norm_num
  have big : (2 : ℚ) ≤ 2 ^ 53 := by norm_num
  obtain ⟨ε, hε⟩ : ∃ ε : ℚ, ε = 1 / 2 ^ 54 := ⟨_, rfl⟩
  have εpos : 0 < ε := by rw [hε]; norm_num
  have εsmall : ε ≤ 1 / 1000 := by rw [hε]; norm_num
  rw [u2, ← hε]
  rw [u] at err
  rw [← hε] at err err1
  -- one channel
  have chan (w x : ℚ) (hw0 : 0 ≤ w) (hw1 : w ≤ 3 / 4) (hx : |x| ≤ 1) :
      ∃ p, (Arith.ieee L).mul (.fin x) ((Arith.ieee L).lit w) = .fin p ∧ |p - w * x| ≤ 2 * ε ∧ |p| ≤ w + 2 * ε := by
    have hwa : |w| ≤ 1 := by rw [abs_of_nonneg hw0]; linarith
    have e1 := err1 w hwa
    rw [lit w (hwa.trans (by norm_num))]
    have hw' : |rneD w| ≤ 1 := by
      rw [abs_le] at e1 ⊢
      constructor <;> linarith [e1.1, e1.2]
    have hp : |x * rneD w| ≤ 1 := by
      rw [abs_mul]; exact mul_le_one₀ hx (abs_nonneg _) hw'
    have e2 := err1 _ hp
    have e3 : |x * rneD w - w * x| ≤ ε := by
      have : x * rneD w - w * x = x * (rneD w - w) := by ring
      rw [this, abs_mul]
      calc |x| * |rneD w - w| ≤ 1 * ε := mul_le_mul hx e1 (abs_nonneg _) (by norm_num)
        _ = ε := one_mul _
    have e4 : |w * x| ≤ w := by
      rw [abs_mul, abs_of_nonneg hw0]; exact mul_le_of_le_one_right hw0 hx
    refine ⟨_, mul _ _ (hp.trans (by norm_num)), ?_, ?_⟩
    · rw [abs_le] at *
      constructor <;> linarith [e2.1, e2.2, e3.1, e3.2]
    · rw [abs_le] at *
      constructor <;> linarith [e2.1, e2.2, e3.1, e3.2, e4.1, e4.2]
  obtain ⟨p1, m1, d1, b1⟩ := chan 0.2126 r (by norm_num) (by norm_num) hr
  obtain ⟨p2, m2, d2, b2⟩ := chan 0.7152 g (by norm_num) (by norm_num) hg
  obtain ⟨p3, m3, d3, b3⟩ := chan 0.0722 b (by norm_num) (by norm_num) hb
  have s1 : |p1 + p2| ≤ 1 := by
    rw [abs_le] at *; constructor <;> linarith [b1.1, b1.2, b2.1, b2.2]
  have a1 := err1 _ s1
  have s2 : |rneD (p1 + p2) + p3| ≤ 2 := by
    rw [abs_le] at *; constructor <;> linarith [b3.1, b3.2, s1.1, s1.2, a1.1, a1.2]
  have a2 := err _ s2
  refine ⟨rneD (rneD (p1 + p2) + p3), ?_, ?_⟩
  · unfold Arith.toGrayscale
    rw [m1, m2, m3, add _ _ (s1.trans (by norm_num)), add _ _ (s2.trans big)]
  · unfold luma
    rw [abs_le] at *
    constructor <;> linarith [d1.1, d1.2, d2.1, d2.2, d3.1, d3.2, a1.1, a1.2, a2.1, a2.2]

theorem clamp01_lip (p q : ℚ) : |clamp01 p - clamp01 q| ≤ |p - q| := by
  unfold clamp01
  refine (abs_max_sub_max_le_abs _ _ _).trans ?_
  refine (abs_min_sub_min_le_max _ _ _ _).trans ?_
  rw [sub_self, abs_zero]
  exact max_le le_rfl (abs_nonneg _)

/-- Storing the luminance of a colour in a grey pixel. -/
theorem setGrey_read {f : IFormat} {c : Color Dbl} {r g b : ℚ} (hf : isGrayscaleFormat f = true)
    (er : c.r = .fin r) (eg : c.g = .fin g) (eb : c.b = .fin b) (hr : |r| ≤ 1) (hg : |g| ≤ 1) (hb : |b| ≤ 1) :
    ∃ p d, setPixelImpl (Arith.ieee L) f c = .ok p ∧ PxOk (Arith.ieee L) f p ∧
      getPixelImpl (Arith.ieee L) f p = .ok d ∧ GreyBack f (luma r g b) d := by
  obtain ⟨v, ev, hv⟩ := toGray_ieee (L := L) hr hg hb
  rw [← er, ← eg, ← eb] at ev
  have close (m : ℕ) (k : ℤ) (hm : (m : ℚ) ≤ 65536) (q : ℚ) (hq : limited (.fin v) = some q)
      (h : |(k : ℚ) - m * q| ≤ 1 / 2 + 1 / 2 ^ 38) :
      |(k : ℚ) - m * max (min (luma r g b) 1) 0| ≤ 1 / 2 + 1 / 2 ^ 33 := by
    cases hq
    have l := clamp01_lip v (luma r g b)
    have hm0 : (0 : ℚ) ≤ m := by positivity
    have l2 : |(m : ℚ) * clamp01 v - m * clamp01 (luma r g b)| ≤ 1 / 2 ^ 34 := by
      rw [← mul_sub, abs_mul, abs_of_nonneg hm0]
      calc (m : ℚ) * |clamp01 v - clamp01 (luma r g b)| ≤ 65536 * (1 / 2 ^ 50) :=
            mul_le_mul hm (l.trans hv) (abs_nonneg _) (by norm_num)
        _ = 1 / 2 ^ 34 := by norm_num
    unfold clamp01 at l2
    have e : (1 : ℚ) / 2 ^ 38 + 1 / 2 ^ 34 ≤ 1 / 2 ^ 33 := by norm_num
    rw [abs_le] at *
    constructor <;> linarith [h.1, h.2, l2.1, l2.2]
  cases f <;> simp only [isGrayscaleFormat, Bool.false_eq_true] at hf
  case Gray8 =>
    obtain ⟨k, e, u, q, k', hq, k0, k1, hk, hd⟩ := norm_store (L := L) (top := 255) (m := 255) (by norm_num)
      (by norm_num) le_rfl (c := .fin v) (by simp)
    refine ⟨.ints [k], _, by simp only [setPixelImpl, ev, e, Res.ok_bind], u, rfl, ⟨k', ?_, k0, by exact_mod_cast k1, ?_⟩,
      rfl, rfl, litOne L⟩
    · exact_mod_cast close 255 k' (by norm_num) q hq hk
    · exact_mod_cast hd
  case Gray16 =>
    obtain ⟨k, e, u, q, k', hq, k0, k1, hk, hd⟩ := norm_store (L := L) (top := 65535) (m := 65535) (by norm_num)
      (by norm_num) le_rfl (c := .fin v) (by simp)
    refine ⟨.ints [k], _, by simp only [setPixelImpl, ev, e, Res.ok_bind], u, rfl, ⟨k', ?_, k0, by exact_mod_cast k1, ?_⟩,
      rfl, rfl, litOne L⟩
    · exact_mod_cast close 65535 k' (by norm_num) q hq hk
    · exact_mod_cast hd
  case Float =>
    have hl : |luma r g b| ≤ 1 := by
      unfold luma
      rw [abs_le] at *
      constructor <;> linarith [hr.1, hr.2, hg.1, hg.2, hb.1, hb.2]
    have hv2 : |v| ≤ 2 := by
      have : (1 : ℚ) / 2 ^ 50 ≤ 1 := by norm_num
      rw [abs_le] at *
      constructor <;> linarith [hv.1, hv.2, hl.1, hl.2]
    have h127 : |v| ≤ (2 : ℚ) ^ (127 : ℤ) := by
      refine hv2.trans ?_
      calc (2 : ℚ) = 2 ^ (1 : ℤ) := by norm_num
        _ ≤ 2 ^ (127 : ℤ) := zpow_le_zpow_right₀ (by norm_num) (by norm_num)
    have hs : (Arith.ieee L).single (.fin v) = .fin (rne v) := by
      simp only [Arith.ieee, Dbl.single]
      exact round_fin h127
    have he : |rne v - v| ≤ 1 / 2 ^ 24 := by
      refine (rne_abs (e := 0) (by norm_num) (by simpa using hv2)).trans (le_of_eq ?_)
      norm_num [zpow_neg]
    refine ⟨.nums [(Arith.ieee L).single (.fin v)], _, by simp only [setPixelImpl, ev], (lawful_ieee L).single _, rfl,
      ⟨rne v, ?_, hs⟩, rfl, rfl, litOne L⟩
    have : (1 : ℚ) / 2 ^ 24 + 1 / 2 ^ 50 ≤ 1 / 2 ^ 23 := by norm_num
    rw [abs_le] at *
    constructor <;> linarith [he.1, he.2, hv.1, hv.2]
  case Double =>
    exact ⟨.nums [.fin v], _, by simp only [setPixelImpl, ev], trivial, rfl, ⟨v, hv, rfl⟩, rfl, rfl, litOne L⟩

end Cuttlefish
