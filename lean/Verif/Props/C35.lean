import Verif.Proofs.CommandLine
/-
C35: the rotation option.
-/
namespace Cuttlefish
open Spec
variable {H : Type}

/-- The table of the code as a function of the residue. -/
theorem rotation_none {n : ℤ} : rotation n = none ↔ ¬ (90 : ℤ) ∣ n := by
  unfold rotation
  by_cases h : (90 : ℤ) ∣ n
  · obtain ⟨k, rfl⟩ := h
    have e1 : Int.tmod (90 * k) 90 = 0 := Int.mul_tmod_right 90 k
    have e2 : Int.tdiv (90 * k) 90 = k := Int.mul_tdiv_cancel_left k (by norm_num)
    simp only [e1, e2, ne_eq, not_true_eq_false, if_false, dvd_mul_right, iff_false]
    have h1 : Int.tmod k 4 < 4 := Int.tmod_lt_of_pos k (by norm_num)
    have h2 : -4 < Int.tmod k 4 := by
      have : Int.tmod k 4 = -(Int.tmod (-k) 4) := by rw [Int.neg_tmod, neg_neg]
      have := Int.tmod_lt_of_pos (-k) (show (0 : ℤ) < 4 by norm_num)
      omega
    repeat' split
    all_goals simp
    omega
  · have : Int.tmod n 90 ≠ 0 := fun e => h (Int.dvd_of_tmod_eq_zero e)
    simp [this, h]

/-- The rotation that the code selects is the angle modulo a full turn. -/
theorem rotation_turn {H : Type} {n : ℤ} {r : Option RotateAngle} (c : Cmd H) (h : rotation n = some r)
    (s : Place) :
    turned (match r with
      | none => { c with rotate := false }
      | some a => { c with rotate := true, rotateAngle := a }) s = quarter^[(n / 90 % 4).toNat] s := by
  have hd : (90 : ℤ) ∣ n := by
    by_contra hc
    rw [rotation_none.2 hc] at h
    simp at h
  obtain ⟨k, rfl⟩ := hd
  unfold rotation at h
  have e1 : Int.tmod (90 * k) 90 = 0 := Int.mul_tmod_right 90 k
  have e2 : Int.tdiv (90 * k) 90 = k := Int.mul_tdiv_cancel_left k (by norm_num)
  have e3 : 90 * k / 90 = k := Int.mul_ediv_cancel_left k (by norm_num)
  simp only [e1, e2, ne_eq, not_true_eq_false, if_false] at h
  rw [e3]
  have tm : Int.tmod k 4 = k % 4 ∨ Int.tmod k 4 = k % 4 - 4 := by
    rcases le_total 0 k with hk | hk
    · left; exact Int.tmod_eq_emod_of_nonneg hk
    · have : Int.tmod k 4 = -(Int.tmod (-k) 4) := by rw [Int.neg_tmod, neg_neg]
      rw [this, Int.tmod_eq_emod_of_nonneg (by omega)]
      omega
  have neg : k < 0 ∨ 0 ≤ Int.tmod k 4 := by
    rcases lt_or_ge k 0 with hk | hk
    · exact .inl hk
    · right; exact Int.tmod_nonneg 4 hk
  have it1 : quarter^[1] s = quarter s := rfl
  have it2 : quarter^[2] s = quarter (quarter s) := rfl
  have it3 : quarter^[3] s = quarter (quarter (quarter s)) := rfl
  have it0 : quarter^[0] s = s := rfl
  have rng : 0 ≤ k % 4 ∧ k % 4 < 4 := by omega
  split at h
  · have : (k % 4).toNat = 1 := by omega
    simp only [Option.some.injEq] at h; subst h; rw [this]; rfl
  split at h
  · have : (k % 4).toNat = 2 := by omega
    simp only [Option.some.injEq] at h; subst h; rw [this]; rfl
  split at h
  · have : (k % 4).toNat = 3 := by omega
    simp only [Option.some.injEq] at h; subst h; rw [this]; rfl
  split at h
  · have : (k % 4).toNat = 0 := by omega
    simp only [Option.some.injEq] at h; subst h; rw [this]; rfl
  split at h
  · have : (k % 4).toNat = 1 := by omega
    simp only [Option.some.injEq] at h; subst h; rw [this]; rfl
  split at h
  · have : (k % 4).toNat = 2 := by omega
    simp only [Option.some.injEq] at h; subst h; rw [this]; rfl
  split at h
  · have : (k % 4).toNat = 3 := by omega
    simp only [Option.some.injEq] at h; subst h; rw [this]; rfl
  · simp at h

/-- The parser at the option `--rotate`. -/
theorem step_rotate (E : CmdEnv H) {argv : List Str} {i : ℕ} (c : Cmd H)
    (ho : argv[i]? = some (cstr "--rotate")) : parseStep E argv i c = optRotate argv i c := by
  unfold parseStep
  rw [argAt_ok ho, Res.ok_bind]
  rfl

/-- The option with the text of an integer that fits in 64 bits: multiples of 90 are accepted, and
the image is turned clockwise by that angle modulo a full turn; nothing else of the command line
changes.  Other integers are rejected.

Partial: larger integers are all rejected, see `C35_huge`. -/
theorem C35_option_partial (E : CmdEnv H) {argv : List Str} {i : ℕ} (c : Cmd H) (n : ℤ)
    (hn : -(2 ^ 63) ≤ n ∧ n < 2 ^ 63) (ho : argv[i]? = some (cstr "--rotate"))
    (hv : argv[i + 1]? = some (decimal n)) :
    if 90 ∣ n then
      ∃ c' : Cmd H, parseStep E argv i c = .ok (.next (i + 1) c') ∧
        (∀ s, turned c' s = quarter^[(n / 90 % 4).toNat] s) ∧
        { c' with rotate := c.rotate, rotateAngle := c.rotateAngle } = c
    else parseStep E argv i c = .ok (.stop { c with success := false }) := by
  have hlen : ¬ argv.length ≤ i + 1 := by
    have := (List.getElem?_eq_some_iff.1 hv).1; omega
  rw [step_rotate E c ho]
  unfold optRotate
  rw [if_neg hlen, argAt_ok hv, Res.ok_bind]
  have clamp : max (-(2 ^ 63)) (min n (2 ^ 63 - 1)) = n := by omega
  have ra : rotateArg (decimal n) = rotation n := by
    unfold rotateArg; rw [strtol_decimal, clamp]
  rw [ra]
  split
  · rename_i hd
    have hs : rotation n ≠ none := fun e => rotation_none.1 e hd
    obtain ⟨r, hr⟩ := Option.ne_none_iff_exists'.1 hs
    have ht := rotation_turn c hr
    rw [hr]
    cases r with
    | none => exact ⟨_, rfl, ht, rfl⟩
    | some a => exact ⟨_, rfl, ht, rfl⟩
  · rename_i hd
    rw [rotation_none.2 hd]
    rfl

/-- Integers that do not fit in 64 bits are rejected, multiples of 90 or not: `strtol` gives the
largest or smallest 64-bit integer for them. -/
theorem C35_huge (E : CmdEnv H) {argv : List Str} {i : ℕ} (c : Cmd H) (n : ℤ)
    (hn : n < -(2 ^ 63) ∨ 2 ^ 63 ≤ n) (ho : argv[i]? = some (cstr "--rotate"))
    (hv : argv[i + 1]? = some (decimal n)) :
    parseStep E argv i c = .ok (.stop { c with success := false }) := by
  have hlen : ¬ argv.length ≤ i + 1 := by
    have := (List.getElem?_eq_some_iff.1 hv).1; omega
  rw [step_rotate E c ho]
  unfold optRotate
  rw [if_neg hlen, argAt_ok hv, Res.ok_bind]
  have ra : rotateArg (decimal n) = none := by
    unfold rotateArg
    rw [strtol_decimal]
    dsimp only
    rcases hn with h | h
    · rw [show max (-(2 ^ 63)) (min n (2 ^ 63 - 1)) = -(2 ^ 63) by omega]
      rw [rotation_none]; omega
    · rw [show max (-(2 ^ 63)) (min n (2 ^ 63 - 1)) = 2 ^ 63 - 1 by omega]
      rw [rotation_none]; omega
  rw [ra]
  rfl

/-- The full claim is false: a multiple of 90 is rejected. -/
theorem C35_fails_huge (E : CmdEnv H) (c : Cmd H) : (90 : ℤ) ∣ 90 * 2 ^ 63 ∧
    parseStep E [cstr "cuttlefish", cstr "--rotate", decimal (90 * 2 ^ 63)] 1 c =
      .ok (.stop { c with success := false }) :=
  ⟨dvd_mul_right _ _, C35_huge E c (90 * 2 ^ 63) (by norm_num) rfl rfl⟩

/-- An empty argument is not an integer, but is accepted as 0. -/
theorem C35_fails_empty (E : CmdEnv H) (c : Cmd H) :
    parseStep E [cstr "cuttlefish", cstr "--rotate", []] 1 c =
      .ok (.next 2 { c with rotate := false }) := by
  rw [step_rotate E c rfl]
  rfl

/-- The option without an argument is rejected. -/
theorem C35_missing (E : CmdEnv H) {argv : List Str} {i : ℕ} (c : Cmd H)
    (ho : argv[i]? = some (cstr "--rotate")) (hl : argv.length = i + 1) :
    parseStep E argv i c = .ok (.stop { c with success := false }) := by
  rw [step_rotate E c ho]
  unfold optRotate
  rw [if_pos (by omega)]
  rfl

/-! Concrete cases: 450 and -270 are a quarter turn clockwise, 45 is rejected. -/

example : decimal 450 = cstr "450" ∧ decimal (-270) = cstr "-270" := by decide +kernel

example : rotateArg (cstr "450") = some (some .CW90) ∧ rotateArg (cstr "-270") = some (some .CCW270) ∧
    rotateArg (cstr "-720") = some none ∧ rotateArg (cstr "45") = none ∧
    rotateArg (cstr "90 ") = none ∧ rotateArg (cstr " +180") = some (some .CW180) := by decide +kernel

example : quarter^[(450 / 90 % 4 : ℤ).toNat] ((3, 2), (0, 0)) = ((2, 3), (1, 0)) := by decide +kernel

end Cuttlefish
