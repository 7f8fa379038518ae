import Verif.Model.Num
/-
Reading binary files: a reader takes the remaining bytes and either fails or returns a value and what
is left.
-/
namespace Cuttlefish.Spec

/-- A reader. -/
abbrev Rd (α : Type) := List UInt8 → Option (α × List UInt8)

/-- The next `n` bytes. -/
def rdBytes (n : Nat) : Rd (List UInt8) := fun bs =>
  if n ≤ bs.length then some (bs.take n, bs.drop n) else none

/-- The next `n` bytes as a little-endian number. -/
def rdLe (n : Nat) : Rd Nat := fun bs =>
  if n ≤ bs.length then some (((bs.take n).foldr (fun b v => b.toNat + 256 * v) 0), bs.drop n) else none

/-- Succeeds with `a` without reading. -/
def rdPure {α : Type} (a : α) : Rd α := fun bs => some (a, bs)

/-- One reader after the other. -/
def rdThen {α β : Type} (p : Rd α) (q : α → Rd β) : Rd β := fun bs =>
  match p bs with
  | none => none
  | some (a, rest) => q a rest

/-- Fails unless the condition holds. -/
def rdGuard (b : Bool) : Rd Unit := fun bs => if b then some ((), bs) else none

/-- `n` readers one after the other, the `i`-th given its number. -/
def rdMany {α : Type} (p : Nat → Rd α) : Nat → Nat → Rd (List α)
  | _, 0 => rdPure []
  | i, n + 1 => rdThen (p i) (fun a => rdThen (rdMany p (i + 1) n) (fun as => rdPure (a :: as)))

/-- The values of `n` readers numbered from 0. -/
def rdFor {α : Type} (n : Nat) (p : Nat → Rd α) : Rd (List α) := rdMany p 0 n

/-- Reads the whole file: nothing may be left. -/
def rdAll {α : Type} (p : Rd α) (bs : List UInt8) : Option α :=
  match p bs with
  | some (a, []) => some a
  | _ => none

/-- The next `n` bytes, read by `p` without leaving any of them. -/
def rdWithin {α : Type} (n : Nat) (p : Rd α) : Rd α := fun bs =>
  if n ≤ bs.length then (rdAll p (bs.take n)).map (fun a => (a, bs.drop n)) else none

/-- `n`, or one if `n` is zero: the way file headers leave out a dimension. -/
def orOne (n : Nat) : Nat := if n = 0 then 1 else n

end Cuttlefish.Spec
