import Verif.Proofs.TexSafe
import Verif.Spec.Toy
/-
C10: no out-of-bounds access through the Texture API.
-/
namespace Cuttlefish
open Spec
variable {Img : Type}

/-- No call of a history reads or writes outside the texture's storage (or dereferences a null
pointer), whatever the calls and their arguments, provided every call is one of `SafeCall`:
`initialize` arguments fit an `unsigned int`; encoders are defined on the images; and every
`generateMipmaps` call either does not raise the number of levels or is made on a texture that is
not converted and, for 3D, has complete custom images that can be resized.

Partial: the full claim has no such restriction on `generateMipmaps`.  It is false without it, see
the three theorems below. -/
theorem C10_memory_safe_partial (W : World Img) (hL : Lawful W.lib) (calls : List (Op Img))
    (hsafe : SafeHist W none calls) : run W none calls ≠ .ub := by
  obtain ⟨outs, t, h, -⟩ := tinv_run hL calls (t := none) trivial hsafe
  rw [h]; simp

/-- Histories without `generateMipmaps` and `convert` are always safe. -/
theorem C10_safe_without_generate (W : World Img) (hL : Lawful W.lib) (calls : List (Op Img))
    (hcalls : ∀ o ∈ calls, match o with
      | .initialize _ w h d _ _ => w < 2 ^ 32 ∧ h < 2 ^ 32 ∧ d < 2 ^ 32
      | .generateMipmaps .. | .convert .. => False
      | _ => True) : run W none calls ≠ .ub := by
  apply C10_memory_safe_partial W hL
  have : ∀ (t : Tex Img), SafeHist W t calls := by
    induction calls with
    | nil => intro t; trivial
    | cons o os ih =>
      intro t
      refine ⟨?_, fun out t' _ => ih (fun o ho => hcalls o (by simp [ho])) t'⟩
      have := hcalls o (by simp)
      cases o <;> simp_all [SafeCall]
  exact this none

/-- For textures that are not 3D, `generateMipmaps` is safe in every consistent state that is not
converted, with any filter, level count and custom images. -/
theorem C10_generate_flat_safe (W : World Img) (hL : Lawful W.lib) (calls : List (Op Img))
    (hsafe : SafeHist W none calls) (outs : List (Out Img)) (t : Tex Img)
    (hrun : run W none calls = .ok (outs, t)) (hdim : t.dimension ≠ .Dim3D)
    (hconv : t.converted = false) (filter : ResizeFilter) (requested : Nat)
    (custom : CustomMips Img) :
    t.generateMipmaps W.lib filter requested custom ≠ .ub := by
  obtain ⟨outs', t', h1, hI⟩ := tinv_run hL calls (t := none) trivial hsafe
  rw [hrun] at h1; simp only [Res.ok.injEq, Prod.mk.injEq] at h1
  obtain ⟨-, rfl⟩ := h1
  obtain ⟨b, t', h, -⟩ := tinv_gen hL hI (filter := filter) (r := requested) (custom := custom) (by
    cases t with
    | none => trivial
    | some i =>
      refine ⟨Or.inl ?_, fun h3 => absurd h3 hdim⟩
      simpa [Tex.converted] using hconv)
  rw [h]; simp

/-- The full claim is false: raising the number of levels of a converted texture makes `data()`
read past the encoded surfaces. -/
theorem C10_fails_generate_after_convert :
    run Toy.world none [.initialize .Dim2D 4 4 0 1 .Linear, Toy.put 4 4 1 none 0 0,
      .convert .R8G8B8A8 .UNorm .Normal .Standard {} 1, Toy.put 4 4 1 none 0 0,
      .generateMipmaps .Box 3 [], .data none 1 0] = .ub := rfl

/-- The full claim is false: a `generateMipmaps` call that fails on a 3D texture leaves levels
without slices, and `getImage()` reads past them. -/
theorem C10_fails_after_failed_generate :
    run Toy.world none [.initialize .Dim3D 4 4 4 1 .Linear, Toy.put 4 4 1 none 0 0,
      Toy.put 4 4 2 none 0 1, Toy.put 4 4 3 none 0 2, Toy.put 4 4 4 none 0 3,
      .generateMipmaps .Box 2 [(⟨.PosX, 1, 1⟩, ⟨some (some (Toy.img 2 2 9)), .Once⟩)],
      .getImage none 1 0] = .ub := rfl

/-- The full claim is false: on a 3D texture a valid custom image that cannot be resized with the
chosen filter makes `generateMipmaps()` read the scanlines of an invalid image. -/
theorem C10_fails_custom_not_resizable :
    run Toy.world none [.initialize .Dim3D 4 4 2 1 .Linear, Toy.put 4 4 1 none 0 0,
      Toy.put 4 4 2 none 0 1,
      .generateMipmaps .CatmullRom 3
        [(⟨.PosX, 1, 0⟩, ⟨some (some ⟨4, 4, false, .Linear, [9]⟩), .Continue⟩)]] = .ub := rfl

/-- A history that meets the hypotheses of `C10_memory_safe_partial`, with mip generation on a cube
map, conversion and out-of-range reads. -/
def safeHistory : List (Op Toy.Img) :=
  [.initialize .Cube 4 4 0 1 .Linear, Toy.put 4 4 1 (some .PosX) 0 0, Toy.put 4 4 2 (some .NegX) 0 0,
   Toy.put 4 4 3 (some .PosY) 0 0, Toy.put 4 4 4 (some .NegY) 0 0, Toy.put 4 4 5 (some .PosZ) 0 0,
   Toy.put 4 4 6 (some .NegZ) 0 0,
   .generateMipmaps .Box 9 [(⟨.NegX, 1, 0⟩, ⟨some (some ⟨8, 1, false, .Linear, [9]⟩), .Once⟩)],
   .convert .BC1_RGB .UNorm .Normal .Standard {} 4294967295, .data (some .NegX) 1 0,
   .data (some .NegX) 7 4294967295, .getImage none 4294967295 4294967295]

example : SafeHist Toy.world none safeHistory := by
  simp only [safeHistory, SafeHist, Toy.put]
  refine ⟨by simp [SafeCall], ?_⟩
  intro _ _ h; cases h
  refine ⟨trivial, ?_⟩; intro _ _ h; cases h
  refine ⟨trivial, ?_⟩; intro _ _ h; cases h
  refine ⟨trivial, ?_⟩; intro _ _ h; cases h
  refine ⟨trivial, ?_⟩; intro _ _ h; cases h
  refine ⟨trivial, ?_⟩; intro _ _ h; cases h
  refine ⟨trivial, ?_⟩; intro _ _ h; cases h
  refine ⟨⟨Or.inl rfl, by intro h; cases h⟩, ?_⟩; intro _ _ h; cases h
  refine ⟨?_, ?_⟩
  · intro k a _ ds _ fs _ g _; exact Res.ok_ne_ub _
  intro _ _ h; cases h
  refine ⟨trivial, ?_⟩; intro _ _ h; cases h
  refine ⟨trivial, ?_⟩; intro _ _ h; cases h
  exact ⟨trivial, fun _ _ _ => trivial⟩

end Cuttlefish
