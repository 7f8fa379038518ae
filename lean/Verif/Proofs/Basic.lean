import Mathlib.Tactic.Common
import Mathlib.Tactic.Ring
import Mathlib.Tactic.Linarith
import Verif.Model.Tables
namespace Cuttlefish

@[simp] theorem Res.ok_ne_ub {α : Type _} (a : α) : (Res.ok a ≠ Res.ub) := by simp

theorem Res.bind_eq_ok {α β : Type _} {r : Res α} {f : α → Res β} {b : β} :
    (r >>= f) = .ok b ↔ ∃ a, r = .ok a ∧ f a = .ok b := by
  cases r <;> simp

theorem Res.bind_ne_ub {α β : Type _} {r : Res α} {f : α → Res β} :
    (r >>= f) ≠ .ub ↔ ∃ a, r = .ok a ∧ f a ≠ .ub := by
  cases r <;> simp

end Cuttlefish
