import Verif.Proofs.TexSafe
import Verif.Spec.Toy
/-
C12: custom mip images only affect their own chain.
-/
namespace Cuttlefish
open Spec
variable {Img : Type}

/-- No chain other than (`cf`, `d`) has a custom image with `Once` on the last level. -/
def NoOnceAtEnd (custom : CustomMips Img) (levels : Nat) (cf : CubeFace) (d : Nat) : Prop :=
  ∀ cf' d' c, (cf', d') ≠ (cf, d) → CustomMips.find custom ⟨cf', levels - 1, d'⟩ = some c →
    c.replacement ≠ .Once

/-- After `generateMipmaps()` on a 1D, 2D or cube texture, every level of every face and layer is
the level of `Spec.chain` (Verif/Spec/MipChain.lean) that starts from the level-0 image of that
face and layer and uses only the custom images given for that face and layer.

Partial: the full claim has no hypothesis `hlast`.  It is false without it, see
`C12_fails_once_on_last_level`. -/
theorem C12_chain_partial (W : World Img) (hL : Lawful W.lib) (calls : List (Op Img))
    (hsafe : SafeHist W none calls) (outs : List (Out Img)) (t : Tex Img)
    (hrun : run W none calls = .ok (outs, t)) (hdim : t.dimension ≠ .Dim3D)
    (hconv : t.converted = false) (hbase : BasePresent t)
    (filter : ResizeFilter) (requested : Nat) (custom : CustomMips Img)
    (hcustom : GoodCustom W.lib filter custom) (t' : Tex Img)
    (hgen : t.generateMipmaps W.lib filter requested custom = .ok (true, t'))
    (w h : Nat) (hw : t.widthAt 0 = .ok w) (hh : t.heightAt 0 = .ok h)
    (face : Option CubeFace) (cf : CubeFace) (hface : addressed t.dimension face = some cf)
    (d : Nat) (base : Img) (hb : t.getImage face 0 d = .ok (some base))
    (hlast : NoOnceAtEnd custom t'.mipLevelCount cf d) (m : Nat) (hm : m < t'.mipLevelCount) :
    t'.getImage face m d = .ok (chain W.lib filter w h
      (fun m => CustomMips.find custom ⟨cf, m, d⟩) base m).1 := by
  obtain ⟨outs', t0, h1, hI⟩ := tinv_run hL calls (t := none) trivial hsafe
  rw [hrun] at h1; simp only [Res.ok.injEq, Prod.mk.injEq] at h1
  obtain ⟨-, rfl⟩ := h1
  cases t with
  | none => simp [BasePresent] at hbase
  | some i =>
    have hI : Inv W.lib i := hI
    have hdim : i.dimension ≠ .Dim3D := hdim
    have hbok := (basePresent_iff hI).1 hbase
    obtain ⟨d0, e1, e2, e3, e4⟩ := gen_extents hI requested
    rw [hw] at e2; rw [hh] at e3
    simp only [Res.ok.injEq] at e2 e3
    subst e2 e3
    obtain ⟨images, g1, g2, g3, g4⟩ := gen_flat hL hI (r := requested) hcustom hbok hdim
    rw [g1] at hgen
    simp only [Res.ok.injEq, Prod.mk.injEq, true_and] at hgen
    subst hgen
    have hm : m < genLevels i requested := hm
    have hfit : TexturesFit i (genLevels i requested) := Or.inl (by simpa [Tex.converted] using hconv)
    have hI' := inv_gen_flat hL hI hcustom hdim hfit g2 g3 g4
    have hface : addressed i.dimension face = some cf := hface
    have hfi := faceIndex_addressed hI.faces face
    rw [hface, Option.map_some] at hfi
    have hff := faceIndex_lt hI hfi
    have hslot0 : HasSlot i face 0 d cf.toNat := by
      by_contra hns
      have : Tex.getImage (some i) face 0 d = .ok none := by
        apply getImage_noSlot hI
        rintro f ⟨x, y, z⟩
        rw [hfi] at z; simp only [Option.some.injEq] at z; subst z
        exact hns ⟨x, y, hfi⟩
      rw [this] at hb; simp at hb
    obtain ⟨b0, hb1, hb2⟩ := getImage_slot hI hslot0
    rw [hb2] at hb; simp only [Res.ok.injEq] at hb; subst hb
    have hdd : d < max i.depth 1 := by
      have := hslot0.2.1; rw [depthExtent_flat hdim] at this; exact this
    obtain ⟨base', src0, c1, c2, c3, c4⟩ := g4 d cf.toNat hdd hff
    rw [hb1] at c1; simp only [Option.some.injEq] at c1; subst c1
    have hsrc : src0 = base := by
      rcases c3 with h | h
      · exact h
      · exfalso
        obtain ⟨n0, l1, c, hc, hr⟩ := h
        have hlast : NoOnceAtEnd custom (genLevels i requested) cf d := hlast
        refine hlast _ _ c ?_ hc hr
        intro he
        simp only [Prod.mk.injEq] at he
        obtain ⟨he1, he2⟩ := he
        have hfp : 0 < i.faces := by omega
        have hlt : (d * i.faces + cf.toNat - 1) % i.faces < i.faces := Nat.mod_lt _ hfp
        have h6 : i.faces ≤ 6 := by have := hI.faces; split at this <;> omega
        have hofx : ∀ x, x < 6 → (CubeFace.ofIndex x).toNat = x
          | 0, _ | 1, _ | 2, _ | 3, _ | 4, _ | 5, _ => rfl
        have hidx := hofx _ (Nat.lt_of_lt_of_le hlt h6)
        rw [he1] at hidx
        have hdm := Nat.div_add_mod (d * i.faces + cf.toNat - 1) i.faces
        rw [he2, ← hidx, Nat.mul_comm] at hdm
        omega
    subst hsrc
    have hslot : HasSlot { i with mipLevels := genLevels i requested, images } face m d cf.toNat :=
      ⟨hm, by show d < depthExtent i.dimension i.depth m; rw [depthExtent_flat hdim]; exact hdd, hfi⟩
    obtain ⟨g, hg, hres⟩ := getImage_slot hI' hslot
    rw [hres]
    have hcust : custOf custom d cf.toNat = fun m => CustomMips.find custom ⟨cf, m, d⟩ := by
      funext m; unfold custOf; rw [ofIndex_toNat]
    by_cases hm0 : m = 0
    · subst hm0
      have hg : images.at? 0 d cf.toNat = some g := hg
      rw [g3, hb1] at hg; simp only [Option.some.injEq] at hg
      subst hg; rfl
    · have hg : images.at? m d cf.toNat = some g := hg
      rw [c4 m (by omega) hm, chainFrom_base, hcust] at hg
      simp only [Option.some.injEq] at hg
      rw [hg]

/-- Hence the images of a face and layer do not depend on the custom images of other faces and
layers. -/
theorem C12_other_chains_partial (W : World Img) (hL : Lawful W.lib) (calls : List (Op Img))
    (hsafe : SafeHist W none calls) (outs : List (Out Img)) (t : Tex Img)
    (hrun : run W none calls = .ok (outs, t)) (hdim : t.dimension ≠ .Dim3D)
    (hconv : t.converted = false) (hbase : BasePresent t)
    (filter : ResizeFilter) (requested : Nat) (custom custom2 : CustomMips Img)
    (hcustom : GoodCustom W.lib filter custom) (hcustom2 : GoodCustom W.lib filter custom2)
    (t1 t2 : Tex Img)
    (hgen1 : t.generateMipmaps W.lib filter requested custom = .ok (true, t1))
    (hgen2 : t.generateMipmaps W.lib filter requested custom2 = .ok (true, t2))
    (face : Option CubeFace) (cf : CubeFace) (hface : addressed t.dimension face = some cf)
    (d : Nat) (base : Img) (hb : t.getImage face 0 d = .ok (some base))
    (hsame : ∀ m, CustomMips.find custom ⟨cf, m, d⟩ = CustomMips.find custom2 ⟨cf, m, d⟩)
    (hlast1 : NoOnceAtEnd custom t1.mipLevelCount cf d)
    (hlast2 : NoOnceAtEnd custom2 t2.mipLevelCount cf d) :
    t1.mipLevelCount = t2.mipLevelCount ∧
    ∀ m, m < t1.mipLevelCount → t1.getImage face m d = t2.getImage face m d := by
  obtain ⟨outs', t0, h1, hI⟩ := tinv_run hL calls (t := none) trivial hsafe
  rw [hrun] at h1; simp only [Res.ok.injEq, Prod.mk.injEq] at h1
  obtain ⟨-, rfl⟩ := h1
  cases t with
  | none => simp [BasePresent] at hbase
  | some i =>
    have hI : Inv W.lib i := hI
    obtain ⟨d0, e1, e2, e3, -⟩ := gen_extents hI requested
    have hbok := (basePresent_iff hI).1 hbase
    obtain ⟨im1, p1, -⟩ := gen_flat hL hI (r := requested) hcustom hbok hdim
    obtain ⟨im2, p2, -⟩ := gen_flat hL hI (r := requested) hcustom2 hbok hdim
    have q1 := hgen1; rw [p1] at q1
    have q2 := hgen2; rw [p2] at q2
    simp only [Res.ok.injEq, Prod.mk.injEq, true_and] at q1 q2
    have hl : t1.mipLevelCount = t2.mipLevelCount := by rw [← q1, ← q2]; rfl
    refine ⟨hl, fun m hm => ?_⟩
    rw [C12_chain_partial W hL calls hsafe outs _ hrun hdim hconv hbase filter requested custom
        hcustom t1 hgen1 _ _ e2 e3 face cf hface d base hb hlast1 m hm,
      C12_chain_partial W hL calls hsafe outs _ hrun hdim hconv hbase filter requested custom2
        hcustom2 t2 hgen2 _ _ e2 e3 face cf hface d base hb hlast2 m (by rw [← hl]; exact hm)]
    simp only [hsame]

/-- The same for 3D textures, slice by slice, without the extra hypothesis. -/
theorem C12_chain_3d (W : World Img) (hL : Lawful W.lib) (calls : List (Op Img))
    (hsafe : SafeHist W none calls) (outs : List (Out Img)) (t : Tex Img)
    (hrun : run W none calls = .ok (outs, t)) (hdim : t.dimension = .Dim3D)
    (hconv : t.converted = false) (hbase : BasePresent t)
    (filter : ResizeFilter) (requested : Nat) (custom : CustomMips Img)
    (hcustom : GoodCustom W.lib filter custom) (t' : Tex Img)
    (hgen : t.generateMipmaps W.lib filter requested custom = .ok (true, t'))
    (w h d : Nat) (hw : t.widthAt 0 = .ok w) (hh : t.heightAt 0 = .ok h) (hd : t.depthAt 0 = .ok d)
    (base : List Img) (hlen : base.length = d)
    (hb : ∀ k, t.getImage none 0 k = .ok base[k]?) (m : Nat) (hm : m < t'.mipLevelCount) (k : Nat) :
    t'.getImage none m k = .ok ((chain3d W.lib filter t.colorSpace w h d
      (CustomMips.find custom) base m).1[k]?).join := by
  obtain ⟨outs', t0, h1, hI⟩ := tinv_run hL calls (t := none) trivial hsafe
  rw [hrun] at h1; simp only [Res.ok.injEq, Prod.mk.injEq] at h1
  obtain ⟨-, rfl⟩ := h1
  cases t with
  | none => simp [BasePresent] at hbase
  | some i =>
    have hI : Inv W.lib i := hI
    have hdim : i.dimension = .Dim3D := hdim
    have hbok := (basePresent_iff hI).1 hbase
    have hfaces : i.faces = 1 := by rw [hI.faces, if_neg (by rw [hdim]; decide)]
    have hm0 : 0 < i.mipLevels := hI.mips.1
    rw [widthAt_eq hI, if_pos hm0] at hw
    rw [heightAt_eq hI, if_pos hm0] at hh
    rw [depthAt_eq hI, if_pos hm0] at hd
    have hdep : depthExtent i.dimension i.depth 0 = i.depth := by
      unfold depthExtent; rw [if_pos hdim]; rfl
    rw [hdep] at hd
    simp only [Res.ok.injEq] at hw hh hd
    have hw : i.width = w := hw
    have hh : i.height = h := hh
    subst hw hh hd
    obtain ⟨base', b1, b2, b3⟩ := base3d hI hbok hdim
    -- the two descriptions of level 0 agree
    have hbb : base = base' := by
      apply List.ext_getElem?
      intro k
      by_cases hk : k < i.depth
      · obtain ⟨g, hg, hres⟩ := getImage_slot hI (face := none) (m := 0) (d := k) (f := 0)
          ⟨hm0, by rw [hdep]; exact hk, by simp [faceIndex, hfaces]⟩
        rw [hb k] at hres; simp only [Res.ok.injEq] at hres
        obtain ⟨-, hx⟩ := at?_slices b1 hg
        simp only [List.getElem?_map, Option.map_eq_some_iff] at hx
        obtain ⟨x, hx1, hx2⟩ := hx
        rw [hres, ← hx2, hx1]
      · rw [List.getElem?_eq_none (by omega), List.getElem?_eq_none (by omega)]
    subst hbb
    obtain ⟨ok, images, g1, g2, g3, g4, g5, g6⟩ := gen_3d hL hI (r := requested) hcustom hbok hdim b1 b2 b3
    rw [g1] at hgen
    simp only [Res.ok.injEq, Prod.mk.injEq] at hgen
    obtain ⟨rfl, rfl⟩ := hgen
    have hm : m < genLevels i requested := hm
    have hfit : TexturesFit i (genLevels i requested) := Or.inl (by simpa [Tex.converted] using hconv)
    have hcons := g4.1 rfl
    have hI' := inv_gen_3d hL hI hcustom hdim hfit (base := base) g2 g3
      (fun m a b => Or.inl ⟨hcons m a b, g5 rfl m b⟩)
    have hlen : (chain3d W.lib filter i.colorSpace i.width i.height i.depth
        (CustomMips.find custom) base m).1.length = depthExtent i.dimension i.depth m := by
      by_cases hm0 : m = 0
      · subst hm0; simp [chain3d, hdep, b2]
      · rw [(chain3d_ok hL (cs := i.colorSpace) (base := base) hI.w.1 hI.h.1 (hI.d.2 hdim)
          hcustom m (by omega) (hcons m (by omega) hm)).1.1]
        unfold depthExtent; rw [if_pos hdim]
    show Tex.getImage _ none m k = Res.ok ((chain3d W.lib filter i.colorSpace i.width i.height i.depth
      (CustomMips.find custom) base m).1[k]?).join
    by_cases hk : k < depthExtent i.dimension i.depth m
    · obtain ⟨g, hg, hres⟩ := getImage_slot hI' (face := none) (m := m) (d := k) (f := 0)
        ⟨hm, hk, by simp [faceIndex, hfaces]⟩
      rw [hres]
      obtain ⟨-, hx⟩ := at?_slices (g5 rfl m hm) hg
      rw [hx]; rfl
    · rw [List.getElem?_eq_none (by omega), getImage_noSlot hI' (by
        rintro f ⟨-, hx, -⟩; exact hk hx)]
      rfl

/-- The full claim is false: a custom image with `Once` on the last level of one face changes the
generated image of the next face: face -X gets an image computed from face +X (tag 1) instead of
its own (tag 2). -/
theorem C12_fails_once_on_last_level :
    let custom : CustomMips Toy.Img := [(⟨.PosX, 1, 0⟩, ⟨some (some (Toy.img 1 1 9)), .Once⟩)]
    let setup : List (Op Toy.Img) := [.initialize .Cube 2 2 0 1 .Linear,
      Toy.put 2 2 1 (some .PosX) 0 0, Toy.put 2 2 2 (some .NegX) 0 0, Toy.put 2 2 3 (some .PosY) 0 0,
      Toy.put 2 2 4 (some .NegY) 0 0, Toy.put 2 2 5 (some .PosZ) 0 0, Toy.put 2 2 6 (some .NegZ) 0 0]
    ∃ outs t t' t'', run Toy.world none setup = .ok (outs, t) ∧
      t.generateMipmaps Toy.lib .Box 2 custom = .ok (true, t') ∧
      t.generateMipmaps Toy.lib .Box 2 [] = .ok (true, t'') ∧
      t''.getImage (some .NegX) 1 0 = .ok (some (Toy.img 1 1 2)) ∧
      t'.getImage (some .NegX) 1 0 = .ok (some (Toy.img 1 1 1)) := by
  refine ⟨_, _, _, _, rfl, rfl, rfl, ?_⟩; decide

/-- The hypothesis is met by a custom image in the middle of a chain: the image after it continues
from the generated one (`Once`), and the other face is untouched. -/
example :
    let custom : CustomMips Toy.Img := [(⟨.PosX, 1, 0⟩, ⟨some (some (Toy.img 8 8 9)), .Once⟩)]
    let setup : List (Op Toy.Img) := [.initialize .Cube 4 4 0 1 .Linear,
      Toy.put 4 4 1 (some .PosX) 0 0, Toy.put 4 4 2 (some .NegX) 0 0, Toy.put 4 4 3 (some .PosY) 0 0,
      Toy.put 4 4 4 (some .NegY) 0 0, Toy.put 4 4 5 (some .PosZ) 0 0, Toy.put 4 4 6 (some .NegZ) 0 0]
    NoOnceAtEnd custom 3 .NegX 0 ∧ ∃ outs t t', run Toy.world none setup = .ok (outs, t) ∧
      t.generateMipmaps Toy.lib .Box 3 custom = .ok (true, t') ∧
      t'.getImage (some .PosX) 1 0 = .ok (some (Toy.img 2 2 9)) ∧
      t'.getImage (some .PosX) 2 0 = .ok (some (Toy.img 1 1 1)) ∧
      t'.getImage (some .NegX) 1 0 = .ok (some (Toy.img 2 2 2)) := by
  refine ⟨?_, _, _, _, rfl, rfl, by decide⟩
  intro cf' d' c _ h
  have := find_mem h
  simp at this

end Cuttlefish
