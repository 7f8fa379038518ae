import Verif.Model.Num
import Mathlib.Tactic.Ring
import Mathlib.Tactic.NormNum
import Mathlib.Tactic.Positivity
/-
Little endian words as byte sequences.
-/
namespace Cuttlefish

@[simp] theorem leBytes_length (n v : Nat) : (leBytes n v).length = n := by
  induction n generalizing v with
  | zero => rfl
  | succ n ih => simp [leBytes, ih]

theorem leVal_leBytes (n v : Nat) : leVal (leBytes n v) = v % 256 ^ n := by
  induction n generalizing v with
  | zero => simp [leBytes, leVal, Nat.mod_one]
  | succ n ih =>
    simp only [leBytes, leVal, ih]
    rw [pow_succ', Nat.mod_mul]
    have : (UInt8.ofNat (v % 256)).toNat = v % 256 := by
      simp [UInt8.toNat_ofNat']
    rw [this]

theorem leVal_leBytes_of_lt {n v : Nat} (h : v < 256 ^ n) : leVal (leBytes n v) = v := by
  rw [leVal_leBytes, Nat.mod_eq_of_lt h]

theorem leVal_lt (bs : List UInt8) : leVal bs < 256 ^ bs.length := by
  induction bs with
  | nil => simp [leVal]
  | cons b bs ih =>
    simp only [leVal, List.length_cons, pow_succ']
    have := b.toNat_lt
    omega

theorem leBytes_leVal (bs : List UInt8) : leBytes bs.length (leVal bs) = bs := by
  induction bs with
  | nil => rfl
  | cons b bs ih =>
    simp only [List.length_cons, leBytes, leVal]
    have hb := b.toNat_lt
    have h1 : (b.toNat + 256 * leVal bs) % 256 = b.toNat := by omega
    have h2 : (b.toNat + 256 * leVal bs) / 256 = leVal bs := by omega
    rw [h1, h2, ih]
    simp

theorem leVal_append (as bs : List UInt8) :
    leVal (as ++ bs) = leVal as + 256 ^ as.length * leVal bs := by
  induction as with
  | nil => simp [leVal]
  | cons a as ih => simp only [List.cons_append, leVal, ih, List.length_cons, pow_succ']; ring

theorem or_shift {a b k : Nat} (h : a < 2 ^ k) : a ||| (b <<< k) = a + b * 2 ^ k := by
  rw [Nat.or_comm, ← Nat.shiftLeft_add_eq_or_of_lt h, Nat.shiftLeft_eq, Nat.add_comm]

theorem bits_lt (n : Nat) (i : ℤ) : bits n i < 2 ^ n := by
  unfold bits
  have h1 : (0 : ℤ) < 2 ^ n := by positivity
  have h2 := Int.emod_lt_of_pos i h1
  have h3 := Int.emod_nonneg i h1.ne'
  have : ((i % 2 ^ n).toNat : ℤ) < ((2 ^ n : ℕ) : ℤ) := by
    rw [Int.toNat_of_nonneg h3]; push_cast; exact h2
  exact_mod_cast this

theorem bits_nonneg {n : Nat} {i : ℤ} (h0 : 0 ≤ i) (h : i < 2 ^ n) : bits n i = i.toNat := by
  unfold bits
  rw [Int.emod_eq_of_lt h0 h]

end Cuttlefish
