import Verif.Proofs.TexWeak
import Verif.Spec.Toy
/-
C05: extents of each mip level.
-/
namespace Cuttlefish
open Spec
variable {Img : Type}

/-- Whatever happened before the last successful `initialize` and whatever calls follow it, the
extents of a level below `mipLevelCount()` are the arguments of `initialize` halved level by level
(the depth only for 3D, otherwise it stays at the layer count), and other levels report 0. -/
theorem C05_extents (W : World Img) (pre post : List (Op Img)) (dim : Dimension)
    (w h d requested : Nat) (cs : ColorSpace) (hw : w < 2 ^ 32) (hh : h < 2 ^ 32) (hd : d < 2 ^ 32)
    (hvalid : w ≠ 0 ∧ h ≠ 0 ∧ (dim = .Dim3D → d ≠ 0)) (hpost : ∀ o ∈ post, keepsShape o)
    (outs : List (Out Img)) (t : Tex Img)
    (hrun : run W none (pre ++ .initialize dim w h d requested cs :: post) = .ok (outs, t)) :
    1 ≤ t.mipLevelCount ∧ t.mipLevelCount ≤ maxMipmapLevels dim w h d ∧ ∀ m,
      t.widthAt m = .ok (if m < t.mipLevelCount then extent w m else 0) ∧
      t.heightAt m = .ok (if m < t.mipLevelCount then extent h m else 0) ∧
      t.depthAt m = .ok (if m < t.mipLevelCount then depthExtent dim d m else 0) := by
  rw [run_append, Res.bind_eq_ok] at hrun
  obtain ⟨⟨o1, t1⟩, -, h2⟩ := hrun
  rw [Res.bind_eq_ok] at h2
  obtain ⟨⟨o2, t2⟩, h3, h4⟩ := h2
  simp only [Res.ok.injEq, Prod.mk.injEq] at h4
  rcases winv_init t1 (dim := dim) (m := requested) (cs := cs) hw hh hd with ⟨i, hi, hI, -⟩ | ⟨-, hbad⟩
  · simp only [run, call, hi, Res.ok_bind, Res.bind_eq_ok] at h3
    obtain ⟨⟨o3, t3⟩, h5, h6⟩ := h3
    simp only [Res.pure_eq, Res.ok.injEq, Prod.mk.injEq] at h6
    obtain ⟨i', h7, hI'⟩ := run_weak post hI hpost h5
    have : t = some i' := by rw [← h4.2, ← h6.2]; exact h7
    subst this
    exact ⟨hI'.mips.1, hI'.mips.2, fun m => wAt hI' m⟩
  · exfalso; rcases hbad with h | h | h
    · exact hvalid.1 h
    · exact hvalid.2.1 h
    · exact hvalid.2.2 h.1 h.2

/-- An invalid texture reports 0 for every level. -/
theorem C05_invalid (m : Nat) : Tex.widthAt (none : Tex Img) m = .ok 0 ∧
    Tex.heightAt (none : Tex Img) m = .ok 0 ∧ Tex.depthAt (none : Tex Img) m = .ok 0 := by
  simp [Tex.widthAt, Tex.heightAt, Tex.depthAt]

/-- Consecutive levels never grow and never become empty. -/
theorem C05_never_grows (dim : Dimension) (n d k : Nat) (hn : 0 < n) (hd : dim = .Dim3D → 0 < d) :
    0 < extent n (k+1) ∧ extent n (k+1) ≤ extent n k ∧
    0 < depthExtent dim d (k+1) ∧ depthExtent dim d (k+1) ≤ depthExtent dim d k := by
  have key : ∀ n, 0 < n → extent n (k+1) ≤ extent n k := by
    intro n hn
    have := extent_pos n k hn
    simp only [extent, halve]; split <;> omega
  refine ⟨extent_pos _ _ hn, key n hn, depthExtent_pos _ _ _ hd, ?_⟩
  unfold depthExtent
  split
  · rename_i h3; exact key d (hd h3)
  · exact Nat.le_refl _

/-- A concrete history: a 3D texture 9x4x6 asked for all levels. -/
example : ∃ outs t, run Toy.world none ([.reset] ++
      .initialize .Dim3D 9 4 6 4294967295 .Linear :: [.extents 1, Toy.put 9 4 1 none 0 5]) =
        .ok (outs, t) ∧ t.mipLevelCount = 4 ∧ t.depthAt 1 = .ok 3 ∧ t.widthAt 3 = .ok 1 ∧
        t.widthAt 4 = .ok 0 := by
  refine ⟨_, _, rfl, ?_⟩; decide

end Cuttlefish
