import Verif.Model.Threads
import Verif.Spec.Surface
/-
Vocabulary for runs with several threads.
-/
namespace Cuttlefish.Spec
variable {Img : Type}

/-- The texture holds this image in one of its slots. -/
def Holds (t : Tex Img) (g : Img) : Prop :=
  ∃ i, t = some i ∧ ∃ ds ∈ i.images, ∃ gs ∈ ds, some g ∈ gs

/-- The PVRTC library's result does not depend on the number of threads it is allowed to use. -/
def ThreadBlind (X : Ext) : Prop :=
  ∀ f q n n' pre w h px, X.codec (.pvrtc f q n pre w h px) = X.codec (.pvrtc f q n' pre w h px)

/-- Job `j` was processed exactly once, by exactly one worker, and is finished. -/
def DoneOnce (es : List Event) (j : Nat) : Prop :=
  ∃ w, es.count (.begin w j) = 1 ∧ es.count (.finish w j) = 1 ∧
    ∀ w', w' ≠ w → es.count (.begin w' j) = 0 ∧ es.count (.finish w' j) = 0

/-- No byte was stored twice. -/
def StoredOnce (es : List Event) : Prop :=
  ∀ (p q : Nat) (w w' : Nat) (e e' : Write), es[p]? = some (.store w e) → es[q]? = some (.store w' e') →
    e.1 = e'.1 → p = q

end Cuttlefish.Spec
