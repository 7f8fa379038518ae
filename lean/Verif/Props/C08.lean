import Verif.Proofs.TexSafe
import Verif.Spec.Toy
/-
C08: `imagesComplete()` means every addressable image is present.
-/
namespace Cuttlefish
open Spec
variable {Img : Type}

/-- Over every history that keeps the storage consistent, `imagesComplete()` returning true means
that every addressable image is present. -/
theorem C08_complete_implies_present (W : World Img) (hL : Lawful W.lib) (calls : List (Op Img))
    (hsafe : SafeHist W none calls) (outs : List (Out Img)) (t : Tex Img)
    (hrun : run W none calls = .ok (outs, t)) (hc : t.imagesComplete = true) : AllPresent t := by
  obtain ⟨outs', t', h1, hI⟩ := tinv_run hL calls (t := none) trivial hsafe
  rw [hrun] at h1; simp only [Res.ok.injEq, Prod.mk.injEq] at h1
  obtain ⟨-, rfl⟩ := h1
  cases t with
  | none => simp [Tex.imagesComplete] at hc
  | some i =>
    refine ⟨rfl, ?_⟩
    intro face m d k hk hm hd hf
    have hI : Inv W.lib i := hI
    rw [depthAt_eq hI] at hk
    have hm : m < i.mipLevels := hm
    simp only [if_pos hm, Res.ok.injEq] at hk
    have hfi := faceIndex_addressed hI.faces face
    obtain ⟨f, hf⟩ := Option.isSome_iff_exists.1 hf
    have hf : addressed i.dimension face = some f := hf
    rw [hf] at hfi
    obtain ⟨g, hg, hres⟩ := getImage_slot hI (m := m) (d := d) ⟨hm, by omega, hfi⟩
    obtain ⟨ds, fs, e1, e2, e3, -⟩ := Store.mem_of_at? hg
    obtain ⟨x, rfl⟩ := imagesComplete_iff.1 hc ds e1 fs e2 g e3
    exact ⟨x, hres⟩

/-- For textures that are not 3D or have a single level the converse holds too, so
`imagesComplete()` is exactly the presence of every addressable image.

Partial: the full claim is the equivalence for all reachable textures.  It is false for 3D
textures with several levels, see `C08_fails_for_3d_mips`, and for textures left by a failed
`generateMipmaps` call, see `C08_fails_after_failed_generate`. -/
theorem C08_complete_iff_present_partial (W : World Img) (hL : Lawful W.lib)
    (calls : List (Op Img)) (hsafe : SafeHist W none calls) (outs : List (Out Img)) (t : Tex Img)
    (hrun : run W none calls = .ok (outs, t))
    (hkind : t.dimension ≠ .Dim3D ∨ t.mipLevelCount = 1) :
    t.imagesComplete = true ↔ AllPresent t := by
  refine ⟨C08_complete_implies_present W hL calls hsafe outs t hrun, ?_⟩
  obtain ⟨outs', t', h1, hI⟩ := tinv_run hL calls (t := none) trivial hsafe
  rw [hrun] at h1; simp only [Res.ok.injEq, Prod.mk.injEq] at h1
  obtain ⟨-, rfl⟩ := h1
  rintro ⟨hs, hall⟩
  cases t with
  | none => simp at hs
  | some i =>
    have hI : Inv W.lib i := hI
    rw [imagesComplete_iff]
    intro ds hds fs hfs o ho
    obtain ⟨m, hm, rfl⟩ := List.getElem_of_mem hds
    obtain ⟨d, hd, rfl⟩ := List.getElem_of_mem hfs
    obtain ⟨f, hf, rfl⟩ := List.getElem_of_mem ho
    have hmm : m < i.mipLevels := by rw [← hI.len]; exact hm
    have hds' := hI.depths m _ (List.getElem?_eq_getElem hm)
    have hlen := hds'.2.1 (by
      rcases hkind with h | h
      · exact Or.inl h
      · right
        have : i.mipLevels = 1 := h
        omega)
    have hfl := hds'.2.2 _ (List.getElem_mem hd)
    have hff : f < i.faces := by omega
    -- the face that addresses index f
    obtain ⟨face, cf, ha, hcf⟩ := face_of_index hI.faces hff
    have hfi := faceIndex_addressed hI.faces face
    rw [ha, Option.map_some, hcf] at hfi
    obtain ⟨g, hg, hres⟩ := getImage_slot hI (face := face) (m := m) (d := d) ⟨hmm, by omega, hfi⟩
    obtain ⟨x, hx⟩ := hall face m d (depthExtent i.dimension i.depth m)
      (by rw [depthAt_eq hI, if_pos hmm]) hmm (by omega)
      (by show (addressed i.dimension face).isSome = true; rw [ha]; rfl)
    rw [hres] at hx
    simp only [Res.ok.injEq] at hx
    refine ⟨x, ?_⟩
    unfold Store.at? at hg
    simp only [List.getElem?_eq_getElem hm, Option.bind_some, List.getElem?_eq_getElem hd,
      List.getElem?_eq_getElem hf, Option.some.injEq] at hg
    rw [hg, hx]

/-- The calls that fill every addressable slot of a 2x2x2 3D texture with two levels. -/
def fill3d : List (Op Toy.Img) :=
  [.initialize .Dim3D 2 2 2 2 .Linear, Toy.put 2 2 1 none 0 0, Toy.put 2 2 2 none 0 1,
   Toy.put 1 1 3 none 1 0]

/-- The full claim is false: a 3D texture whose addressable images were all set successfully is
never reported as complete, because every level was given as many slices as level 0. -/
theorem C08_fails_for_3d_mips :
    ∃ t, run Toy.world none fill3d = .ok ([.bool true, .bool true, .bool true, .bool true], t) ∧
      t.mipLevelCount = 2 ∧ t.depthAt 0 = .ok 2 ∧ t.depthAt 1 = .ok 1 ∧
      t.getImage none 0 0 = .ok (some (Toy.img 2 2 1)) ∧
      t.getImage none 0 1 = .ok (some (Toy.img 2 2 2)) ∧
      t.getImage none 1 0 = .ok (some (Toy.img 1 1 3)) ∧
      t.imagesComplete = false := by
  refine ⟨_, rfl, ?_⟩; decide

/-- The full claim is false: after a `generateMipmaps` call that returns false on a 3D texture
(custom images for only one of the two slices of level 1), `imagesComplete()` is true although
level 1 holds no image at all; reading it is undefined behaviour. -/
theorem C08_fails_after_failed_generate :
    let custom : CustomMips Toy.Img := [(⟨.PosX, 1, 1⟩, ⟨some (some (Toy.img 2 2 9)), .Once⟩)]
    ∃ t, run Toy.world none [.initialize .Dim3D 4 4 4 1 .Linear, Toy.put 4 4 1 none 0 0,
        Toy.put 4 4 2 none 0 1, Toy.put 4 4 3 none 0 2, Toy.put 4 4 4 none 0 3,
        .generateMipmaps .Box 2 custom] =
        .ok ([.bool true, .bool true, .bool true, .bool true, .bool true, .bool false], t) ∧
      t.mipLevelCount = 2 ∧ t.imagesComplete = true ∧ t.getImage none 1 0 = .ub := by
  refine ⟨_, rfl, ?_⟩; decide

/-- The hypotheses are met by a history that completes a cube map. -/
example : SafeHist Toy.world none ([.initialize .Cube 1 1 0 1 .Linear,
    Toy.put 1 1 1 (some .PosX) 0 0, Toy.put 1 1 2 (some .NegX) 0 0, Toy.put 1 1 3 (some .PosY) 0 0,
    Toy.put 1 1 4 (some .NegY) 0 0, Toy.put 1 1 5 (some .PosZ) 0 0, Toy.put 1 1 6 (some .NegZ) 0 0]) ∧
  ∃ outs t, run Toy.world none [.initialize .Cube 1 1 0 1 .Linear,
    Toy.put 1 1 1 (some .PosX) 0 0, Toy.put 1 1 2 (some .NegX) 0 0, Toy.put 1 1 3 (some .PosY) 0 0,
    Toy.put 1 1 4 (some .NegY) 0 0, Toy.put 1 1 5 (some .PosZ) 0 0, Toy.put 1 1 6 (some .NegZ) 0 0] =
    .ok (outs, t) ∧ t.imagesComplete = true ∧ t.dimension ≠ .Dim3D := by
  refine ⟨by simp [SafeHist, SafeCall, Toy.put], _, _, rfl, ?_⟩
  decide

end Cuttlefish
