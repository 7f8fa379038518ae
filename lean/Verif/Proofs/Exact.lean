import Verif.Spec.Exact
import Verif.Proofs.ArithLaws
import Verif.Proofs.ImagePx
import Verif.Proofs.Pixels
/-
Storing and reading colours in exact arithmetic.
-/
namespace Cuttlefish
open Spec

theorem nearest_mono (m : Nat) {x y : ℝ} (h : x ≤ y) : nearest m x ≤ nearest m y := by
  unfold nearest
  have : max (min x 1) 0 ≤ max (min y 1) 0 := max_le_max (min_le_min h le_rfl) le_rfl
  gcongr

theorem whole_mono {x y : ℝ} (h : x ≤ y) : whole x ≤ whole y := by
  unfold whole
  split <;> split
  · exact Int.floor_mono h
  · linarith
  · rename_i h1 h2
    have : ⌈x⌉ ≤ 0 := by rw [Int.ceil_le]; push_cast; linarith
    have : 0 ≤ ⌊y⌋ := Int.floor_nonneg.2 h2
    omega
  · exact Int.ceil_mono h

theorem whole_int (v : ℤ) : whole v = v := by
  unfold whole
  split
  · exact Int.floor_intCast v
  · exact Int.ceil_intCast v

theorem cast_whole (lo hi : ℤ) (a : ℝ) :
    Arith.exact.cast lo hi a = if lo ≤ whole a ∧ whole a ≤ hi then .ok (whole a) else .ub := by
  have : (if 0 ≤ a then ⌊a⌋ else -⌊-a⌋) = whole a := by
    unfold whole
    split
    · rfl
    · rw [Int.floor_neg]; ring
  rw [exact_cast, this]

theorem fromNorm_exact (m : Nat) (v : ℤ) : Arith.exact.fromNorm m v = (v : ℝ) / m := by
  simp [Arith.fromNorm, Arith.exact]

theorem exact_lit (q : ℚ) : Arith.exact.lit q = (q : ℝ) := rfl

/-- Storing a colour and reading it back. -/
theorem exact_store {f : IFormat} {c : Color ℝ} (h : Fitting f c) :
    ∃ p, setPixelNoGrayscaleImpl Arith.exact f c = .ok p ∧ PxOk Arith.exact f p ∧
      getPixelImpl Arith.exact f p = .ok (stored f c) := by
  obtain ⟨hne, hr⟩ := h
  have t1 (x : ℝ) := toNorm_exact (top := 255) (m := 31) x (by norm_num)
  have t2 (x : ℝ) := toNorm_exact (top := 255) (m := 63) x (by norm_num)
  have t3 (x : ℝ) := toNorm_exact (top := 255) (m := 255) x (by norm_num)
  have t4 (x : ℝ) := toNorm_exact (top := 65535) (m := 65535) x (by norm_num)
  have b1 (x : ℝ) := toNorm_exact_bounds (m := 31) x
  have b2 (x : ℝ) := toNorm_exact_bounds (m := 63) x
  suffices h : ∃ p, setPixelNoGrayscaleImpl Arith.exact f c = .ok p ∧
      getPixelImpl Arith.exact f p = .ok (stored f c) by
    obtain ⟨p, h1, h2⟩ := h
    exact ⟨p, h1, set_px lawful_exact h1, h2⟩
  have f31 (x : ℝ) : (⌊clampR x * (31 : ℕ) + 1 / 2⌋ : ℝ) / (31 : ℕ) = nearest 31 x := rfl
  have f63 (x : ℝ) : (⌊clampR x * (63 : ℕ) + 1 / 2⌋ : ℝ) / (63 : ℕ) = nearest 63 x := rfl
  have f255 (x : ℝ) : (⌊clampR x * (255 : ℕ) + 1 / 2⌋ : ℝ) / (255 : ℕ) = nearest 255 x := rfl
  have f65535 (x : ℝ) : (⌊clampR x * (65535 : ℕ) + 1 / 2⌋ : ℝ) / (65535 : ℕ) = nearest 65535 x := rfl
  cases f
  case Invalid => exact absurd rfl hne
  case RGB5 =>
    refine ⟨.ints [⌊clampR c.r * (31 : ℕ) + 1 / 2⌋ * 2 ^ 10 + ⌊clampR c.g * (31 : ℕ) + 1 / 2⌋ * 2 ^ 5 +
      ⌊clampR c.b * (31 : ℕ) + 1 / 2⌋], ?_, ?_⟩
    · simp only [setPixelNoGrayscaleImpl, setPixelCommon, t1, Res.ok_bind]
    · have hr := b1 c.r
      have hg := b1 c.g
      have hb := b1 c.b
      generalize hR : ⌊clampR c.r * (31 : ℕ) + 1 / 2⌋ = R at *
      generalize hG : ⌊clampR c.g * (31 : ℕ) + 1 / 2⌋ = G at *
      generalize hB : ⌊clampR c.b * (31 : ℕ) + 1 / 2⌋ = B at *
      have e1 : getField (R * 2 ^ 10 + G * 2 ^ 5 + B) 10 5 = R := by unfold getField; push_cast at *; omega
      have e2 : getField (R * 2 ^ 10 + G * 2 ^ 5 + B) 5 5 = G := by unfold getField; push_cast at *; omega
      have e3 : getField (R * 2 ^ 10 + G * 2 ^ 5 + B) 0 5 = B := by unfold getField; push_cast at *; omega
      simp only [getPixelImpl, e1, e2, e3]
      simp only [fromNorm_exact, stored, exact_lit, ← hR, ← hG, ← hB, f31, Rat.cast_one]
  case RGB565 =>
    refine ⟨.ints [⌊clampR c.r * (31 : ℕ) + 1 / 2⌋ * 2 ^ 11 + ⌊clampR c.g * (63 : ℕ) + 1 / 2⌋ * 2 ^ 5 +
      ⌊clampR c.b * (31 : ℕ) + 1 / 2⌋], ?_, ?_⟩
    · simp only [setPixelNoGrayscaleImpl, setPixelCommon, t1, t2, Res.ok_bind]
    · have hr := b1 c.r
      have hg := b2 c.g
      have hb := b1 c.b
      generalize hR : ⌊clampR c.r * (31 : ℕ) + 1 / 2⌋ = R at *
      generalize hG : ⌊clampR c.g * (63 : ℕ) + 1 / 2⌋ = G at *
      generalize hB : ⌊clampR c.b * (31 : ℕ) + 1 / 2⌋ = B at *
      have e1 : getField (R * 2 ^ 11 + G * 2 ^ 5 + B) 11 5 = R := by unfold getField; push_cast at *; omega
      have e2 : getField (R * 2 ^ 11 + G * 2 ^ 5 + B) 5 6 = G := by unfold getField; push_cast at *; omega
      have e3 : getField (R * 2 ^ 11 + G * 2 ^ 5 + B) 0 5 = B := by unfold getField; push_cast at *; omega
      simp only [getPixelImpl, e1, e2, e3]
      simp only [fromNorm_exact, stored, exact_lit, ← hR, ← hG, ← hB, f31, f63, Rat.cast_one]
  case Int16 | UInt16 | Int32 | UInt32 =>
    have := hr _ _ rfl
    refine ⟨.ints [whole c.r], ?_, ?_⟩
    · simp only [setPixelNoGrayscaleImpl, setPixelCommon, cast_whole, if_pos this, Res.ok_bind]
    · simp only [getPixelImpl, stored, grey, exact_lit, Rat.cast_intCast, Rat.cast_one]
  all_goals
    simp only [setPixelNoGrayscaleImpl, setPixelCommon, t3, t4, Res.ok_bind, Res.ok.injEq]
    refine ⟨_, rfl, ?_⟩
    simp only [getPixelImpl, fromNorm_exact, stored, grey, exact_lit, f255, f65535, Rat.cast_one, Rat.cast_zero]
    try rfl

/-- A colour read from a pixel is stored without change. -/
theorem exact_fixed {f : IFormat} {p : Px ℝ} {c : Color ℝ} (h : PxOk Arith.exact f p)
    (hc : getPixelImpl Arith.exact f p = .ok c) : stored f c = c ∧ Fitting f c := by
  have hfit : Fitting f c := by
    refine ⟨by rintro rfl; cases p <;> simp [PxOk] at h, ?_⟩
    intro lo hi hlo
    cases f <;> simp only [intRange, reduceCtorEq, Option.some.injEq, Prod.mk.injEq] at hlo
    all_goals
      obtain ⟨rfl, rfl⟩ := hlo
      unfold PxOk at h
      split at h <;> simp only [reduceCtorEq] at *
      simp only [getPixelImpl, Res.ok.injEq] at hc
      subst hc
      simp only [exact_lit, Rat.cast_intCast, whole_int]
      try unfold Upto at *
      omega
  obtain ⟨p1, e1, -, e2⟩ := px_round lawful_exact h hc
  obtain ⟨p2, e3, -, e4⟩ := exact_store hfit
  rw [e1] at e3
  cases e3
  have : Res.ok c = Res.ok (stored f c) := e2.symm.trans e4
  simp only [Res.ok.injEq] at this
  exact ⟨this.symm, hfit⟩

theorem stored_mono {f : IFormat} {c d : Color ℝ} (h : Below c d) : Below (stored f c) (stored f d) := by
  obtain ⟨h1, h2, h3, h4⟩ := h
  have w {x y : ℝ} (h : x ≤ y) : (whole x : ℝ) ≤ whole y := by exact_mod_cast whole_mono h
  cases f <;> simp only [stored, grey, Below] <;>
    refine ⟨?_, ?_, ?_, ?_⟩ <;> first | exact le_rfl | assumption | exact nearest_mono _ ‹_› | exact w ‹_›

end Cuttlefish
