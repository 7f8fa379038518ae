import Mathlib.Data.Nat.Digits.Lemmas
import Mathlib.Tactic.Ring
import Mathlib.Tactic.Linarith
import Verif.Spec.Tool
/-
Lemmas about the command line model: numbers.
-/
namespace Cuttlefish
open Spec

theorem digitsValue_append (a b : Str) :
    digitsValue (a ++ b) = b.foldl (fun v b => 10 * v + (b.toNat - 48)) (digitsValue a) := by
  unfold digitsValue; rw [List.foldl_append]

theorem digitsValue_ofDigits : ∀ (l : List ℕ), (∀ d ∈ l, d < 10) →
    digitsValue (l.reverse.map (fun d => UInt8.ofNat (48 + d))) = Nat.ofDigits 10 l
  | [], _ => rfl
  | d :: l, h => by
    have ih := digitsValue_ofDigits l (fun x hx => h x (List.mem_cons_of_mem _ hx))
    have hd := h d List.mem_cons_self
    rw [List.reverse_cons, List.map_append, digitsValue_append, ih, Nat.ofDigits_cons]
    simp only [List.map_cons, List.map_nil, List.foldl_cons, List.foldl_nil]
    have : (UInt8.ofNat (48 + d)).toNat = 48 + d := by
      rw [UInt8.toNat_ofNat']; omega
    rw [this]
    first | omega | (push_cast; omega)

theorem digitText_value (n : ℕ) : digitsValue (digitText n) = n := by
  unfold digitText
  split
  · rename_i h; subst h; rfl
  · rw [digitsValue_ofDigits _ (fun d hd => Nat.digits_lt_base (by norm_num) hd), Nat.ofDigits_digits]

theorem digitText_digits (n : ℕ) : ∀ b ∈ digitText n, isDigitByte b = true := by
  unfold digitText
  split
  · intro b hb
    simp only [List.mem_singleton] at hb
    subst hb; decide
  · intro b hb
    simp only [List.mem_map, List.mem_reverse] at hb
    obtain ⟨d, hd, rfl⟩ := hb
    have := Nat.digits_lt_base (by norm_num) hd
    have e : (UInt8.ofNat (48 + d)).toNat = 48 + d := by rw [UInt8.toNat_ofNat']; omega
    unfold isDigitByte
    rw [e]; simp; omega

theorem digitText_ne (n : ℕ) : digitText n ≠ [] := by
  unfold digitText
  split
  · simp
  · rename_i h
    simpa [Nat.digits_ne_nil_iff_ne_zero] using h

theorem digit_not_space {b : UInt8} (h : isDigitByte b = true) : isSpaceByte b = false := by
  unfold isDigitByte at h
  unfold isSpaceByte
  simp at h ⊢
  omega

theorem splitSign_digits {l : Str} (h : ∀ b ∈ l, isDigitByte b = true) : splitSign l = (false, l) := by
  cases l with
  | nil => rfl
  | cons b bs =>
    have := h b List.mem_cons_self
    unfold isDigitByte at this
    simp at this
    unfold splitSign
    dsimp only
    rw [if_neg (by simp; omega), if_neg (by simp; omega)]

theorem dropWhile_digits {l : Str} (h : ∀ b ∈ l, isDigitByte b = true) : l.dropWhile isSpaceByte = l := by
  cases l with
  | nil => rfl
  | cons b bs =>
    rw [List.dropWhile_cons, digit_not_space (h b List.mem_cons_self)]; rfl

/-- The scanner reads the decimal text of an integer. -/
theorem scan_decimal (n : ℤ) : scanNumber (decimal n) = some (decide (n < 0), n.natAbs) := by
  have hd := digitText_digits n.natAbs
  have hne := digitText_ne n.natAbs
  unfold scanNumber decimal
  by_cases h : n < 0
  · simp only [h, if_true, decide_true]
    have sp : (45 :: digitText n.natAbs).dropWhile isSpaceByte = 45 :: digitText n.natAbs := by
      rw [List.dropWhile_cons]; rfl
    rw [sp]
    have ss : splitSign (45 :: digitText n.natAbs) = (true, digitText n.natAbs) := rfl
    simp only [ss, List.isEmpty_cons, Bool.false_eq_true, if_false, digitText_value]
    rw [if_neg]
    simpa [hne] using hd
  · simp only [h, if_false, decide_false]
    rw [dropWhile_digits hd, splitSign_digits hd]
    simp only [digitText_value]
    rw [if_neg (by simpa using hne), if_neg]
    simpa [hne] using hd

/-- `strtol` of the text of an integer: the integer, limited to 64 bits. -/
theorem strtol_decimal (n : ℤ) :
    strtolAll (decimal n) = some (max (-(2 ^ 63)) (min n (2 ^ 63 - 1))) := by
  unfold strtolAll
  rw [scan_decimal]
  dsimp only
  by_cases h : n < 0
  · simp only [h, decide_true, if_true, Option.some.injEq]
    split <;> omega
  · simp only [h, decide_false, Bool.false_eq_true, if_false, Option.some.injEq]
    split <;> omega

/-- `strtoul` of the text of a natural number. -/
theorem strtoul_decimal (n : ℕ) : strtoulAll (decimal n) = some (min n (2 ^ 64 - 1)) := by
  unfold strtoulAll
  rw [scan_decimal]
  have h : ¬ ((n : ℤ) < 0) := by omega
  simp only [h, decide_false, Bool.false_eq_true, if_false, Option.some.injEq, Int.natAbs_natCast]
  split <;> omega

theorem argAt_ok {argv : List Str} {i : ℕ} {a : Str} (h : argv[i]? = some a) : argAt argv i = .ok a := by
  unfold argAt; rw [h]

end Cuttlefish
