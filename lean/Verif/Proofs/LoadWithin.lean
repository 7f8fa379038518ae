import Verif.Proofs.ToolDefined
import Verif.Props.C36
import Verif.Props.C50
/-
The loader of the tool gives images with 32-bit sizes.
-/
namespace Cuttlefish
open Spec
variable {σ : Type}

theorem target_small32 {N : Type} {c : Cmd N} {i : Image N} (hc : Spec.Countable i) :
    (targetSize c i unset unset).1 < 2 ^ 32 ∧ (targetSize c i unset unset).2 < 2 ^ 32 := by
  obtain ⟨a1, a2, a3, a4, -⟩ := hc
  have key (cur : ℕ) (hcur : 1 ≤ cur ∧ cur < 2 ^ 31) (o : SizeOpt) :
      getDimension cur i.bmp.width i.bmp.height o < 2 ^ 32 := by
    by_cases he : ∃ n, o = .exact n
    · obtain ⟨n, rfl⟩ := he
      simp only [getDimension]
      omega
    · have ho (n : ℤ) (e : o = .exact n) : 0 < n ∧ n < 2 ^ 31 := absurd ⟨n, e⟩ he
      have := sizeFor_bounds hcur ⟨a1, a3⟩ ⟨a2, a4⟩ ho (C36_dimension _ ⟨hcur.1, hcur.2.le⟩ ⟨a1, a3.le⟩ ⟨a2, a4.le⟩
        (fun n hn => by
          have := ho n hn
          omega))
      omega
  unfold targetSize
  rw [if_pos ⟨rfl, rfl⟩]
  exact ⟨key _ ⟨a1, a3⟩ _, key _ ⟨a2, a4⟩ _⟩

/-- The images of the modelled loader have images with 32-bit sizes. -/
theorem loads_within {N : Type} {A : Arith N} {FI : FreeImage N} (L : LawfulArith A) (F : LawfulFI A FI)
    {read : Str → ColorSpace → Img? N} (R : LoadsWell A read) {E : ToolEnv (Image N) N σ}
    (hE : E.load = loadAndProcess A FI read)
    (hS : ∀ g, E.world.lib.width g = g.bmp.width ∧ E.world.lib.height g = g.bmp.height) : LoadsSmall E := by
  intro c p l g w' h' e
  rw [hE] at e
  unfold loadAndProcess at e
  cases hr : read p c.imageColorSpace with
  | none => rw [hr] at e; cases e
  | some i =>
    rw [hr] at e
    obtain ⟨o, eo, e⟩ := Res.bind_eq_ok.1 e
    cases e
    obtain ⟨h1, h2, h3⟩ := R _ _ _ hr
    obtain ⟨-, -, b3, -⟩ := processLoaded_shape L F h1 h2 ⟨h3.1, h3.2.1⟩ eo
    obtain ⟨t1, t2⟩ := target_small32 (c := c) h3
    generalize targetSize c i unset unset = T at *
    have small (n : ℕ) (hn : n < 2 ^ 32) : max (n / 2 ^ l) 1 < 2 ^ 32 := by
      have := Nat.div_le_self n (2 ^ l)
      omega
    have hT : (levelSize T l).1 < 2 ^ 32 ∧ (levelSize T l).2 < 2 ^ 32 := ⟨small _ t1, small _ t2⟩
    have hlast : (lastSize c T l).1 < 2 ^ 32 ∧ (lastSize c T l).2 < 2 ^ 32 := by
      unfold lastSize
      split
      · unfold turnedSize
        split
        · cases c.rotateAngle <;> first | exact hT | exact ⟨hT.2, hT.1⟩
        · exact hT
      · exact hT
    rw [(hS g).1, (hS g).2]
    have b1 : g.bmp.width = (lastSize c T l).1 := congrArg Prod.fst b3
    have b2 : g.bmp.height = (lastSize c T l).2 := congrArg Prod.snd b3
    rw [b1, b2]
    exact hlast

end Cuttlefish
