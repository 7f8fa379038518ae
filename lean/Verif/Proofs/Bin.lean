import Verif.Spec.Bin
import Verif.Proofs.Bytes
/-
Readers that get back exactly what was written.
-/
namespace Cuttlefish
open Spec
variable {α β : Type}

/-- The reader consumes `b` and returns `v`, whatever follows. -/
def Reads (p : Rd α) (b : List UInt8) (v : α) : Prop := ∀ rest, p (b ++ rest) = some (v, rest)

theorem Reads.cast {p : Rd α} {b b' : List UInt8} {v : α} (h : Reads p b v) (e : b' = b) :
    Reads p b' v := e ▸ h

theorem reads_pure (a : α) : Reads (rdPure a) [] a := fun _ => rfl

theorem reads_bytes {n : Nat} {b : List UInt8} (h : b.length = n) : Reads (rdBytes n) b b := by
  intro rest
  subst h
  simp [rdBytes]

theorem foldr_leVal (bs : List UInt8) : bs.foldr (fun b v => b.toNat + 256 * v) 0 = leVal bs := by
  induction bs with
  | nil => rfl
  | cons b bs ih => simp [leVal, ih]

theorem reads_le {n v : Nat} (h : v < 256 ^ n) : Reads (rdLe n) (leBytes n v) v := by
  intro rest
  have hl : (leBytes n v).length = n := leBytes_length n v
  unfold rdLe
  rw [if_pos (by simp [hl]), List.take_left' hl, List.drop_left' hl, foldr_leVal,
    leVal_leBytes_of_lt h]

theorem reads_then {p : Rd α} {q : α → Rd β} {b c : List UInt8} {a : α} {v : β}
    (h1 : Reads p b a) (h2 : Reads (q a) c v) : Reads (rdThen p q) (b ++ c) v := by
  intro rest
  unfold rdThen
  rw [List.append_assoc, h1]
  exact h2 rest

theorem reads_then_pure {p : Rd α} {q : α → Rd β} {b : List UInt8} {a : α} {v : β}
    (h1 : Reads p b a) (h2 : Reads (q a) [] v) : Reads (rdThen p q) b v := by
  have := reads_then h1 h2
  rwa [List.append_nil] at this

theorem reads_guard {c : Bool} {q : Unit → Rd β} {b : List UInt8} {v : β} (hc : c = true)
    (h : Reads (q ()) b v) : Reads (rdThen (rdGuard c) q) b v := by
  intro rest
  simp only [rdThen, rdGuard, hc, if_true]
  exact h rest

theorem reads_many {p : Nat → Rd α} {b : Nat → List UInt8} {v : Nat → α} (n : Nat) : ∀ i,
    (∀ j, i ≤ j → j < i + n → Reads (p j) (b j) (v j)) →
    Reads (rdMany p i n) ((List.range' i n).flatMap b) ((List.range' i n).map v) := by
  induction n with
  | zero => intro i _; exact reads_pure _
  | succ n ih =>
    intro i h
    simp only [List.range'_succ, List.flatMap_cons, List.map_cons, rdMany]
    refine reads_then (h i le_rfl (by omega)) (reads_then_pure (ih (i + 1) ?_) (reads_pure _))
    intro j h1 h2
    exact h j (by omega) (by omega)

theorem reads_for {n : Nat} {p : Nat → Rd α} {b : Nat → List UInt8} {v : Nat → α}
    (h : ∀ j, j < n → Reads (p j) (b j) (v j)) :
    Reads (rdFor n p) ((List.range n).flatMap b) ((List.range n).map v) := by
  rw [List.range_eq_range']
  exact reads_many n 0 (fun j _ hj => h j (by omega))

theorem reads_all {p : Rd α} {b : List UInt8} {v : α} (h : Reads p b v) : rdAll p b = some v := by
  have := h []
  rw [List.append_nil] at this
  simp [rdAll, this]

theorem reads_within {n : Nat} {p : Rd α} {b : List UInt8} {v : α} (h : Reads p b v)
    (hn : b.length = n) : Reads (rdWithin n p) b v := by
  intro rest
  unfold rdWithin
  rw [if_pos (by simp [hn]), List.take_left' hn, List.drop_left' hn, reads_all h]
  rfl

end Cuttlefish
