import Verif.Proofs.TexHist
import Verif.Spec.Toy
/-
C07: image slots behave like a map.
-/
namespace Cuttlefish
open Spec
variable {Img : Type}

/-- Refinement: over every history of `initialize`, `reset`, `setImage` and `getImage` calls with
any arguments, every call returns exactly what the same call returns on the map of
Verif/Spec/Texture.lean, and none is undefined.

Partial: images passed to `setImage` must be representable (convertible to RGBAF).  The full claim
also covers images that are not; see `C07_rejected_call_clears_slot`. -/
theorem C07_slots_are_a_map_partial (W : World Img) (hL : Lawful W.lib) (calls : List (Op Img))
    (hcalls : ∀ o ∈ calls, isMapOp o ∧ o.WF ∧ SetOK W.lib o) :
    ∃ t, run W none calls = .ok ((mapRun W.lib none calls).1, t) := by
  obtain ⟨t, h, -, -⟩ := refines_run hL calls (t := none) (a := none) trivial trivial hcalls
  exact ⟨t, h⟩

/-- Read-over-write for the map: after a successful `setImage` the slot holds the represented image
and every other slot what it held before. -/
theorem C07_map_read_over_write (L : ImageLib Img) (a : ATex Img) (g : Img) (mv : Bool)
    (face : Option CubeFace) (m d : Nat)
    (hok : (mapCall L (some a) (.setImage (some g) mv face m d)).1 = .bool true) :
    ∃ f r a', addressed a.shape.dim face = some f ∧ represent L a.shape.cs g mv = some r ∧
      (mapCall L (some a) (.setImage (some g) mv face m d)).2 = some a' ∧ a'.shape = a.shape ∧
      a'.img f m d = some r ∧
      ∀ f' m' d', (f', m', d') ≠ (f, m, d) → a'.img f' m' d' = a.img f' m' d' := by
  unfold mapCall at hok ⊢
  cases hf : addressed a.shape.dim face with
  | none => simp [hf] at hok
  | some f =>
    simp only [hf] at hok ⊢
    split at hok
    · rename_i hc
      simp only [if_pos hc]
      cases hr : represent L a.shape.cs g mv with
      | none => simp [hr] at hok
      | some r =>
        refine ⟨f, r, _, rfl, rfl, rfl, rfl, by simp, ?_⟩
        intro f' m' d' hne
        simp only
        rw [if_neg]
        rintro ⟨rfl, rfl, rfl⟩; exact hne rfl
    · simp at hok

/-- What is stored is RGBAF, in the texture's colour space and of the same size. -/
theorem C07_represent (L : ImageLib Img) (hL : Lawful L) (cs : ColorSpace) (g r : Img) (mv : Bool)
    (h : represent L cs g mv = some r) :
    L.isRGBAF r = true ∧ L.colorSpace r = cs ∧ L.width r = L.width g ∧ L.height r = L.height g := by
  have := stored_ok hL (cs := cs) (img := some g) (mv := mv) (g := r) h
  exact ⟨this.2.2.1, this.2.2.2, this.1, this.2.1⟩

/-- The full claim is false: a `setImage` call that fails because the image cannot be converted
returns false but destroys the image the slot held before. -/
theorem C07_rejected_call_clears_slot :
    let bad : Toy.Img := ⟨2, 2, false, .Linear, [99]⟩
    ∃ t, run Toy.world none [.initialize .Dim2D 2 2 0 1 .Linear, Toy.put 2 2 7 none 0 0,
      .getImage none 0 0, .setImage (some bad) false none 0 0, .getImage none 0 0] =
      .ok ([.bool true, .bool true, .image (some (Toy.img 2 2 7)), .bool false, .image none], t) :=
  ⟨_, rfl⟩

/-- A history that meets the hypotheses: a cube array whose slots are set, overwritten and read. -/
example : ∀ o ∈ ([.initialize .Cube 4 4 2 2 .sRGB, Toy.put 4 4 1 (some .NegZ) 0 1,
      Toy.put 2 2 2 (some .NegX) 1 0, Toy.put 4 4 3 (some .NegZ) 0 1, Toy.put 4 4 3 none 0 1,
      .getImage (some .NegZ) 0 1, .getImage (some .NegX) 1 0] : List (Op Toy.Img)),
    isMapOp o ∧ o.WF ∧ SetOK Toy.world.lib o := by
  intro o ho
  simp only [List.mem_cons, List.not_mem_nil, or_false, Toy.put] at ho
  rcases ho with rfl | rfl | rfl | rfl | rfl | rfl | rfl <;>
    simp [isMapOp, Op.WF, SetOK, represent, Toy.world, Toy.lib, Toy.img]

example : (mapRun Toy.lib none [.initialize .Cube 4 4 2 2 .sRGB, Toy.put 4 4 1 (some .NegZ) 0 1,
      Toy.put 4 4 3 (some .NegZ) 0 1, Toy.put 4 4 3 none 0 1, .getImage (some .NegZ) 0 1]).1 =
    [.bool true, .bool true, .bool true, .bool false,
      .image (some ⟨4, 4, true, .sRGB, [3]⟩)] := rfl

end Cuttlefish
