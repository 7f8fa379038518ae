import Mathlib.Data.Nat.Bitwise
import Mathlib.Data.Nat.Size
import Mathlib.Tactic.Ring
import Mathlib.Tactic.Linarith
import Verif.Model.Tool
/-
C36: power-of-two sizing.
-/
namespace Cuttlefish

/-- `r` is the smallest power of two that is not below `n`. -/
def Spec.NextPower (n r : ℕ) : Prop := ∃ k, r = 2 ^ k ∧ n ≤ 2 ^ k ∧ ∀ j, n ≤ 2 ^ j → 2 ^ k ≤ 2 ^ j

/-- The distance of two sizes. -/
def Spec.gap (a b : ℕ) : ℕ := (a - b) + (b - a)

/-- `r` is a power of two closest to `n`, and the lower one if two are equally close. -/
def Spec.NearestPower (n r : ℕ) : Prop :=
  ∃ k, r = 2 ^ k ∧ ∀ j, Spec.gap r n ≤ Spec.gap (2 ^ j) n ∧ (Spec.gap (2 ^ j) n = Spec.gap r n → r ≤ 2 ^ j)

open Spec

/-- One step of the smearing: every bit is the union of twice as many higher bits. -/
theorem smear_step {s t d : ℕ} (h : ∀ i, t.testBit i = true ↔ ∃ j, i ≤ j ∧ j < i + d ∧ s.testBit j = true) :
    ∀ i, (t ||| (t >>> d)).testBit i = true ↔ ∃ j, i ≤ j ∧ j < i + 2 * d ∧ s.testBit j = true := by
  intro i
  rw [Nat.testBit_or, Bool.or_eq_true, Nat.testBit_shiftRight, h, h]
  constructor
  · rintro (⟨j, h1, h2, h3⟩ | ⟨j, h1, h2, h3⟩)
    · exact ⟨j, h1, by omega, h3⟩
    · exact ⟨j, by omega, by omega, h3⟩
  · rintro ⟨j, h1, h2, h3⟩
    by_cases hj : j < i + d
    · exact .inl ⟨j, h1, hj, h3⟩
    · exact .inr ⟨j, by omega, by omega, h3⟩

/-- The smearing fills all bits below the highest one. -/
theorem smear_eq {s : ℕ} (hs : s < 2 ^ 32) :
    let a := s ||| (s >>> 1)
    let b := a ||| (a >>> 2)
    let c := b ||| (b >>> 4)
    let d := c ||| (c >>> 8)
    d ||| (d >>> 16) = 2 ^ s.size - 1 := by
  intro a b c d
  have h0 : ∀ i, s.testBit i = true ↔ ∃ j, i ≤ j ∧ j < i + 1 ∧ s.testBit j = true := by
    intro i
    constructor
    · exact fun h => ⟨i, le_rfl, by omega, h⟩
    · rintro ⟨j, h1, h2, h3⟩
      rwa [show i = j by omega]
  have h5 := smear_step (smear_step (smear_step (smear_step (smear_step h0))))
  apply Nat.eq_of_testBit_eq
  intro i
  rw [Nat.testBit_two_pow_sub_one, Bool.eq_iff_iff, decide_eq_true_iff]
  refine (h5 i).trans ⟨?_, ?_⟩
  · rintro ⟨j, h1, h2, h3⟩
    have hj : 2 ^ j ≤ s := Nat.ge_two_pow_of_testBit h3
    have : j < s.size := Nat.lt_size.2 hj
    omega
  · intro h
    have low : 2 ^ (s.size - 1) ≤ s := Nat.lt_size.1 (by omega)
    have high : s < 2 ^ s.size := Nat.lt_size_self s
    have hle : s.size ≤ 32 := Nat.size_le.2 hs
    refine ⟨s.size - 1, by omega, by omega, ?_⟩
    rw [Nat.testBit_eq_decide_div_mod_eq, decide_eq_true_iff]
    have : s / 2 ^ (s.size - 1) = 1 := by
      rw [Nat.div_eq_iff (by positivity)]
      have e : 2 ^ s.size = 2 * 2 ^ (s.size - 1) := by
        rw [← pow_succ', Nat.sub_add_cancel (by omega)]
      omega
    rw [this]

/-- `nextPO2` in closed form. -/
theorem nextPO2_eq {n : ℕ} (h1 : 1 ≤ n) (h2 : n ≤ 2 ^ 31) : nextPO2 n = 2 ^ (n - 1).size := by
  unfold nextPO2
  have e : u32 (n + pow32 - 1) = n - 1 := by unfold u32 pow32; omega
  have h := smear_eq (s := n - 1) (by omega)
  dsimp only at h ⊢
  rw [e, h]
  have hle : (n - 1).size ≤ 31 := Nat.size_le.2 (by omega)
  have hp : 2 ^ (n - 1).size ≤ 2 ^ 31 := Nat.pow_le_pow_right (by norm_num) hle
  have h0 : 0 < 2 ^ (n - 1).size := by positivity
  unfold u32 pow32
  omega

/-- `nextpo2` gives the smallest power of two that is not below the size. -/
theorem C36_next {n : ℕ} (h1 : 1 ≤ n) (h2 : n ≤ 2 ^ 31) : NextPower n (nextPO2 n) := by
  refine ⟨(n - 1).size, nextPO2_eq h1 h2, ?_, fun j hj => ?_⟩
  · have := Nat.lt_size_self (n - 1)
    omega
  · refine Nat.pow_le_pow_right (by norm_num) (Nat.size_le.2 ?_)
    omega

/-- `nearestpo2` gives the closest power of two, the lower one on ties. -/
theorem C36_nearest {n : ℕ} (h1 : 1 ≤ n) (h2 : n ≤ 2 ^ 31) : NearestPower n (nearestPO2 n) := by
  obtain ⟨k, e, hk, hmin⟩ := C36_next h1 h2
  unfold nearestPO2
  have hk31 : 2 ^ k ≤ 2 ^ 31 := hmin 31 h2
  dsimp only
  rw [e, Nat.shiftRight_eq_div_pow, pow_one]
  rcases k with _ | k
  · rw [if_pos (by norm_num)]
    have : n = 1 := by simp at hk; omega
    subst this
    refine ⟨0, rfl, fun j => ⟨by simp [gap], fun _ => by simpa using Nat.one_le_two_pow⟩⟩
  · have e2 : 2 ^ (k + 1) = 2 * 2 ^ k := pow_succ' 2 k
    have p0 : 0 < 2 ^ k := by positivity
    have low : 2 ^ k < n := by
      by_contra hcon
      have := hmin k (by omega)
      omega
    rw [e2, Nat.mul_div_cancel_left _ (by norm_num), if_neg (by omega)]
    have a1 : u32 (2 * 2 ^ k + pow32 - n) = 2 * 2 ^ k - n := by unfold u32 pow32; omega
    have a2 : u32 (n + pow32 - 2 ^ k) = n - 2 ^ k := by unfold u32 pow32; omega
    rw [a1, a2]
    -- other powers of two are further away
    have other (j : ℕ) : 2 ^ j ≤ 2 ^ k ∨ 2 * 2 ^ k ≤ 2 ^ j := by
      by_cases hj : j ≤ k
      · exact .inl (Nat.pow_le_pow_right (by norm_num) hj)
      · right
        rw [← e2]
        exact Nat.pow_le_pow_right (by norm_num) (by omega)
    split
    · refine ⟨k + 1, e2.symm, fun j => ?_⟩
      unfold gap
      rcases other j with h | h <;> constructor <;> omega
    · refine ⟨k, rfl, fun j => ?_⟩
      unfold gap
      rcases other j with h | h <;> constructor <;> omega

/-- The base size of each option. -/
def Spec.baseSize (cur width height : ℕ) : SizeOpt → ℕ
  | .original | .nextPO2 | .nearestPO2 => cur
  | .width | .widthNextPO2 | .widthNearestPO2 => width
  | .height | .heightNextPO2 | .heightNearestPO2 => height
  | .min | .minNextPO2 | .minNearestPO2 => if width ≤ height then width else height
  | .max | .maxNextPO2 | .maxNearestPO2 => if width ≤ height then height else width
  | .exact n => n.toNat

/-- What each option asks for. -/
def Spec.SizeFor (cur width height : ℕ) (o : SizeOpt) (r : ℕ) : Prop :=
  match o with
  | .nextPO2 | .widthNextPO2 | .heightNextPO2 | .minNextPO2 | .maxNextPO2 =>
    NextPower (baseSize cur width height o) r
  | .nearestPO2 | .widthNearestPO2 | .heightNearestPO2 | .minNearestPO2 | .maxNearestPO2 =>
    NearestPower (baseSize cur width height o) r
  | _ => r = baseSize cur width height o

/-- Every size option gives the size it asks for, for images of 1 to 2^31 pixels in each direction and
explicit sizes that are not negative. -/
theorem C36_dimension {cur width height : ℕ} (o : SizeOpt) (hc : 1 ≤ cur ∧ cur ≤ 2 ^ 31)
    (hw : 1 ≤ width ∧ width ≤ 2 ^ 31) (hh : 1 ≤ height ∧ height ≤ 2 ^ 31)
    (ho : ∀ n, o = .exact n → 0 ≤ n ∧ n < 2 ^ 31) :
    SizeFor cur width height o (getDimension cur width height o) := by
  have emin : Nat.min width height = if width ≤ height then width else height := rfl
  have emax : Nat.max width height = if width ≤ height then height else width := rfl
  have hmin : 1 ≤ (if width ≤ height then width else height) ∧
      (if width ≤ height then width else height) ≤ 2 ^ 31 := by split <;> assumption
  have hmax : 1 ≤ (if width ≤ height then height else width) ∧
      (if width ≤ height then height else width) ≤ 2 ^ 31 := by split <;> assumption
  cases o <;> simp only [SizeFor, baseSize, getDimension, emin, emax]
  case exact n =>
    have := ho n rfl
    omega
  all_goals first
    | exact C36_next hc.1 hc.2
    | exact C36_next hw.1 hw.2
    | exact C36_next hh.1 hh.2
    | exact C36_next hmin.1 hmin.2
    | exact C36_next hmax.1 hmax.2
    | exact C36_nearest hc.1 hc.2
    | exact C36_nearest hw.1 hw.2
    | exact C36_nearest hh.1 hh.2
    | exact C36_nearest hmin.1 hmin.2
    | exact C36_nearest hmax.1 hmax.2

/-- Outside of the range the result is 0: there is no such 32-bit size. -/
theorem C36_outside {n : ℕ} (h : n = 0 ∨ 2 ^ 31 < n) (hn : n < 2 ^ 32) : nextPO2 n = 0 := by
  unfold nextPO2
  have lt : u32 (n + pow32 - 1) < 2 ^ 32 := by unfold u32 pow32; omega
  have ge : 2 ^ 31 ≤ u32 (n + pow32 - 1) := by unfold u32 pow32; omega
  have h := smear_eq lt
  dsimp only at h ⊢
  have hs : (u32 (n + pow32 - 1)).size = 32 :=
    le_antisymm (Nat.size_le.2 lt) (Nat.lt_size.2 ge)
  rw [h, hs]
  rfl

/-! Concrete cases. -/

example : nextPO2 5 = 8 ∧ nearestPO2 5 = 4 ∧ nearestPO2 6 = 4 ∧ nearestPO2 7 = 8 ∧ nextPO2 64 = 64 ∧
    nearestPO2 64 = 64 ∧ nextPO2 1 = 1 ∧ nearestPO2 1 = 1 ∧ nextPO2 (2 ^ 31) = 2 ^ 31 := by decide

example : getDimension 3 3 100 .maxNearestPO2 = 128 ∧ getDimension 3 3 100 .min = 3 := by decide

end Cuttlefish
