import Verif.Proofs.TexSafe
import Verif.Spec.Toy
/-
C11: `generateMipmaps()` completes the texture.
-/
namespace Cuttlefish
open Spec
variable {Img : Type}

/-- The texture after mip generation has `levels` levels, the level-0 images of `t`, and a valid
image of the right size in every slot. -/
structure Completed (L : ImageLib Img) (t t' : Tex Img) (levels : Nat) : Prop where
  levels : t'.mipLevelCount = levels
  base : ∀ face d, t'.getImage face 0 d = t.getImage face 0 d
  complete : t'.imagesComplete = true
  present : AllPresent t'
  sizes : ∀ face m d g, t'.getImage face m d = .ok (some g) →
    t'.widthAt m = .ok (L.width g) ∧ t'.heightAt m = .ok (L.height g) ∧ L.isRGBAF g = true

theorem completed_of {L : ImageLib Img} {i i' : TexImpl Img} {levels : Nat} (hI : Inv L i)
    (hI' : Inv L i') (hl : i'.mipLevels = levels) (hdim : i'.dimension = i.dimension)
    (hdep : i'.depth = i.depth) (hfaces : i'.faces = i.faces)
    (h0 : ∀ d f, i'.images.at? 0 d f = i.images.at? 0 d f)
    (hall : ∀ m d f, m < levels → (i'.images.at? m d f).isSome →
      ∃ g, i'.images.at? m d f = some (some g)) : Completed L (some i) (some i') levels := by
  have hm := hI.mips.1
  have hm' := hI'.mips.1
  refine ⟨hl, ?_, ?_, ⟨rfl, ?_⟩, ?_⟩
  · intro face d
    by_cases hs : ∃ f, HasSlot i face 0 d f
    · obtain ⟨f, hs⟩ := hs
      have hs' : HasSlot i' face 0 d f := ⟨by omega, by rw [hdim, hdep]; exact hs.2.1,
        by rw [hfaces]; exact hs.2.2⟩
      obtain ⟨g, hg, hr⟩ := getImage_slot hI hs
      obtain ⟨g', hg', hr'⟩ := getImage_slot hI' hs'
      rw [h0, hg] at hg'
      simp only [Option.some.injEq] at hg'
      rw [hr, hr', hg']
    · rw [getImage_noSlot hI (fun f hf => hs ⟨f, hf⟩), getImage_noSlot hI' (fun f hf => hs ⟨f, by
        omega, by rw [← hdim, ← hdep]; exact hf.2.1, by rw [← hfaces]; exact hf.2.2⟩)]
  · rw [imagesComplete_iff]
    intro ds hds fs hfs o ho
    obtain ⟨m, hm, rfl⟩ := List.getElem_of_mem hds
    obtain ⟨d, hd, rfl⟩ := List.getElem_of_mem hfs
    obtain ⟨f, hf, rfl⟩ := List.getElem_of_mem ho
    have hat : i'.images.at? m d f = some (((i'.images[m]'hm)[d]'hd)[f]'hf) := by
      simp [Store.at?, List.getElem?_eq_getElem hm, List.getElem?_eq_getElem hd,
        List.getElem?_eq_getElem hf]
    obtain ⟨g, hg⟩ := hall m d f (by rw [← hl, ← hI'.len]; exact hm) (by rw [hat]; rfl)
    rw [hat] at hg
    simp only [Option.some.injEq] at hg
    exact ⟨g, hg⟩
  · intro face m d k hk hmm hd hf
    have hmm : m < i'.mipLevels := hmm
    rw [depthAt_eq hI', if_pos hmm] at hk
    simp only [Res.ok.injEq] at hk; subst hk
    have hfi := faceIndex_addressed hI'.faces face
    obtain ⟨cf, hf⟩ := Option.isSome_iff_exists.1 hf
    have hf : addressed i'.dimension face = some cf := hf
    rw [hf, Option.map_some] at hfi
    obtain ⟨g, hg, hres⟩ := getImage_slot hI' (m := m) (d := d) ⟨hmm, hd, hfi⟩
    obtain ⟨x, hx⟩ := hall m d _ (by omega) (by rw [hg]; rfl)
    rw [hg] at hx; simp only [Option.some.injEq] at hx
    exact ⟨x, by rw [hres, hx]⟩
  · intro face m d g hg
    by_cases hs : ∃ f, HasSlot i' face m d f
    · obtain ⟨f, hs⟩ := hs
      obtain ⟨g', hg', hr'⟩ := getImage_slot hI' hs
      rw [hr'] at hg; simp only [Res.ok.injEq] at hg; subst hg
      have := hI'.imgs _ _ _ _ hg'
      rw [widthAt_eq hI', heightAt_eq hI', if_pos hs.1, if_pos hs.1]
      exact ⟨by rw [this.1], by rw [this.2.1], this.2.2⟩
    · rw [getImage_noSlot hI' (fun f hf => hs ⟨f, hf⟩)] at hg; simp at hg

/-- Mip generation on 1D, 2D and cube textures (arrays included), in every state reached by a
consistent history: if every level-0 image is present and every custom image can be brought to any
size with the filter, the call returns true and completes the texture.

Partial: the full claim only asks for the custom images to be valid.  It is false for valid custom
images that cannot be resized with the chosen filter, see `C11_fails_custom_not_resizable`.  (The
texture must not be converted already, or not gain levels; see C10.) -/
theorem C11_flat_partial (W : World Img) (hL : Lawful W.lib) (calls : List (Op Img))
    (hsafe : SafeHist W none calls) (outs : List (Out Img)) (t : Tex Img)
    (hrun : run W none calls = .ok (outs, t)) (hdim : t.dimension ≠ .Dim3D)
    (hconv : t.converted = false) (hbase : BasePresent t)
    (filter : ResizeFilter) (requested : Nat) (custom : CustomMips Img)
    (hcustom : GoodCustom W.lib filter custom)
    (w h d : Nat) (hw : t.widthAt 0 = .ok w) (hh : t.heightAt 0 = .ok h)
    (hd : t.depthAt 0 = .ok d) :
    ∃ t', t.generateMipmaps W.lib filter requested custom = .ok (true, t') ∧
      Completed W.lib t t' (limitLevels requested (maxMipmapLevels t.dimension w h d)) := by
  obtain ⟨outs', t', h1, hI⟩ := tinv_run hL calls (t := none) trivial hsafe
  rw [hrun] at h1; simp only [Res.ok.injEq, Prod.mk.injEq] at h1
  obtain ⟨-, rfl⟩ := h1
  cases t with
  | none => simp [BasePresent] at hbase
  | some i =>
    have hI : Inv W.lib i := hI
    have hb := (basePresent_iff hI).1 hbase
    obtain ⟨d', e1, e2, e3, e4⟩ := gen_extents hI requested
    rw [hw] at e2; rw [hh] at e3; rw [hd] at e1
    simp only [Res.ok.injEq] at e1 e2 e3
    subst e1 e2 e3
    obtain ⟨images, g1, g2, g3, g4⟩ := gen_flat hL hI (r := requested) hcustom hb hdim
    refine ⟨_, g1, ?_⟩
    have hfit : TexturesFit i (genLevels i requested) := Or.inl (by simpa [Tex.converted] using hconv)
    have hI' := inv_gen_flat hL hI hcustom hdim hfit g2 g3 g4
    have hlim : limitLevels requested (maxMipmapLevels (Tex.dimension (some i)) i.width i.height d)
        = genLevels i requested := by
      rw [← e4]
      apply limitLevels_eq
      have hd' := hI.mips
      have := maxMip_pos i.dimension i.width i.height i.depth hI.w.1 hI.w.2 hI.h.1 hI.h.2
        (fun h3 => absurd h3 hdim)
      have e : maxMipmapLevels (Tex.dimension (some i)) i.width i.height d =
          maxMipmapLevels i.dimension i.width i.height i.depth := by
        show maxMipmapLevels i.dimension i.width i.height d = _
        have hne : i.dimension ≠ .Dim3D := hdim
        simp [maxMipmapLevels, hne]
      rw [e]; exact this
    rw [hlim]
    refine completed_of hI hI' rfl rfl rfl rfl g3 ?_
    intro m d f hm hsome
    obtain ⟨n, hn1, hn2⟩ := Store.at?_isSome.1 hsome
    have hdd : d < max i.depth 1 := by
      have hl := g2.ds m hm
      unfold Store.facesAt at hn1
      simp only at hn1
      cases hx : images[m]? with
      | none => simp [hx] at hn1
      | some ds =>
        rw [hx] at hl hn1
        simp only [Option.map_some, Option.some.injEq] at hl
        simp only [Option.bind_some, Option.map_eq_some_iff] at hn1
        obtain ⟨fs, hfs, -⟩ := hn1
        have := (List.getElem?_eq_some_iff.1 hfs).1
        omega
    have hff : f < i.faces := by
      have := g2.fs m d hm hdd
      simp only at hn1
      rw [this] at hn1; simp only [Option.some.injEq] at hn1; omega
    obtain ⟨base, src0, b1, b2, -, b4⟩ := g4 d f hdd hff
    by_cases hm0 : m = 0
    · subst hm0; exact ⟨base, by show images.at? 0 d f = _; rw [g3, b1]⟩
    · obtain ⟨g, hg, -⟩ := (chainFrom_ok hL hI.w.1 hI.h.1 (base := base) (filter := filter)
        (cust := custOf custom d f) (fun m c hc => hcustom _ (find_mem hc)) b2 m).2 (by omega)
      exact ⟨g, by show images.at? m d f = _; rw [b4 m (by omega) hm, hg]⟩

/-- Mip generation on 3D textures: with the same conditions the call returns true exactly when at
each new level custom images are given for all slices or for none, with one replacement mode, and
then it completes the texture. -/
theorem C11_3d_partial (W : World Img) (hL : Lawful W.lib) (calls : List (Op Img))
    (hsafe : SafeHist W none calls) (outs : List (Out Img)) (t : Tex Img)
    (hrun : run W none calls = .ok (outs, t)) (hdim : t.dimension = .Dim3D)
    (hconv : t.converted = false) (hbase : BasePresent t)
    (filter : ResizeFilter) (requested : Nat) (custom : CustomMips Img)
    (hcustom : GoodCustom W.lib filter custom)
    (w h d : Nat) (hw : t.widthAt 0 = .ok w) (hh : t.heightAt 0 = .ok h)
    (hd : t.depthAt 0 = .ok d) :
    ∃ b t', t.generateMipmaps W.lib filter requested custom = .ok (b, t') ∧
      (b = true ↔ ∀ m, 1 ≤ m → m < limitLevels requested (maxMipmapLevels .Dim3D w h d) →
        consistent3d (CustomMips.find custom) m (extent d m)) ∧
      (b = true → Completed W.lib t t' (limitLevels requested (maxMipmapLevels .Dim3D w h d))) := by
  obtain ⟨outs', t', h1, hI⟩ := tinv_run hL calls (t := none) trivial hsafe
  rw [hrun] at h1; simp only [Res.ok.injEq, Prod.mk.injEq] at h1
  obtain ⟨-, rfl⟩ := h1
  cases t with
  | none => simp [BasePresent] at hbase
  | some i =>
    have hI : Inv W.lib i := hI
    have hdim : i.dimension = .Dim3D := hdim
    have hb := (basePresent_iff hI).1 hbase
    obtain ⟨d', e1, e2, e3, e4⟩ := gen_extents hI requested
    have hd3 : d' = i.depth := by
      rw [depthAt_eq hI, if_pos (show 0 < i.mipLevels from hI.mips.1)] at e1
      simp only [Res.ok.injEq] at e1
      rw [← e1]; unfold depthExtent; rw [if_pos hdim]; rfl
    rw [hw] at e2; rw [hh] at e3; rw [hd] at e1
    simp only [Res.ok.injEq] at e1 e2 e3
    subst e1 e2 e3
    have hlim : limitLevels requested (maxMipmapLevels .Dim3D i.width i.height d)
        = genLevels i requested := by
      rw [← e4, hdim]
      apply limitLevels_eq
      rw [hd3, ← hdim]
      exact maxMip_pos i.dimension i.width i.height i.depth hI.w.1 hI.w.2 hI.h.1 hI.h.2
        (fun h3 => ⟨hI.d.2 h3, hI.d.1⟩)
    rw [hlim]
    obtain ⟨base, b1, b2, b3⟩ := base3d hI hb hdim
    obtain ⟨ok, images, g1, g2, g3, g4, g5, g6⟩ := gen_3d hL hI (r := requested) hcustom hb hdim b1 b2 b3
    refine ⟨ok, _, g1, by rw [hd3]; exact g4, ?_⟩
    rintro rfl
    have hfit : TexturesFit i (genLevels i requested) := Or.inl (by simpa [Tex.converted] using hconv)
    have hcons := g4.1 rfl
    have hI' := inv_gen_3d hL hI hcustom hdim hfit (base := base) g2 g3
      (fun m a b => Or.inl ⟨hcons m a b, g5 rfl m b⟩)
    refine completed_of hI hI' rfl rfl rfl rfl ?_ ?_
    · intro d f; show images.at? 0 d f = _; unfold Store.at?; rw [g3]
    · intro m d f hm hsome
      obtain ⟨o, ho⟩ := Option.isSome_iff_exists.1 hsome
      have ho : images.at? m d f = some o := ho
      obtain ⟨-, hd⟩ := at?_slices (g5 rfl m hm) ho
      by_cases hm0 : m = 0
      · subst hm0
        simp only [chain3d, List.getElem?_map, Option.map_eq_some_iff] at hd
        obtain ⟨g, -, rfl⟩ := hd
        exact ⟨g, ho⟩
      · have hok := (chain3d_ok hL (cs := i.colorSpace) (base := base) hI.w.1 hI.h.1 (hI.d.2 hdim)
          hcustom m (by omega) (hcons m (by omega) hm)).1
        obtain ⟨g, hg, -⟩ := hok.2 _ (List.mem_of_getElem? hd)
        exact ⟨g, by show images.at? m d f = _; rw [ho, hg]⟩

/-- If a level-0 image is missing, or a custom image is null or invalid, the call returns false and
changes nothing. -/
theorem C11_rejects (W : World Img) (hL : Lawful W.lib) (calls : List (Op Img))
    (hsafe : SafeHist W none calls) (outs : List (Out Img)) (t : Tex Img)
    (hrun : run W none calls = .ok (outs, t))
    (filter : ResizeFilter) (requested : Nat) (custom : CustomMips Img)
    (hbad : ¬ BasePresent t ∨ ∃ e ∈ custom, ∀ g, e.2.image ≠ some (some g)) :
    t.generateMipmaps W.lib filter requested custom = .ok (false, t) := by
  obtain ⟨outs', t', h1, hI⟩ := tinv_run hL calls (t := none) trivial hsafe
  rw [hrun] at h1; simp only [Res.ok.injEq, Prod.mk.injEq] at h1
  obtain ⟨-, rfl⟩ := h1
  cases t with
  | none => rfl
  | some i =>
    apply gen_reject hI
    rintro ⟨hb, hc⟩
    rcases hbad with h | ⟨e, he, h⟩
    · exact h ((basePresent_iff hI).2 hb)
    · obtain ⟨g, hg⟩ := hc e he
      exact h g hg

/-- The full claim is false: a valid custom image that cannot be resized with the chosen filter
gives a call that returns true and leaves the slot without an image. -/
theorem C11_fails_custom_not_resizable :
    let custom : CustomMips Toy.Img := [(⟨.PosX, 1, 0⟩, ⟨some (some ⟨4, 4, false, .Linear, [9]⟩), .Continue⟩)]
    ∃ t, run Toy.world none [.initialize .Dim2D 4 4 0 1 .Linear, Toy.put 4 4 1 none 0 0,
        .generateMipmaps .CatmullRom 2 custom] = .ok ([.bool true, .bool true, .bool true], t) ∧
      t.imagesComplete = false ∧ t.getImage none 1 0 = .ok none := by
  refine ⟨_, rfl, ?_⟩; decide

/-- A custom image that meets `GoodCustom`, and a 3D texture completed with it. -/
example : GoodCustom Toy.lib .Box [(⟨.PosX, 1, 0⟩, ⟨some (some ⟨4, 4, false, .Linear, [9]⟩), .Once⟩)] ∧
    ∃ t, run Toy.world none [.initialize .Dim3D 4 4 2 1 .Linear, Toy.put 4 4 1 none 0 0,
      Toy.put 4 4 2 none 0 1,
      .generateMipmaps .Box 9 [(⟨.PosX, 1, 0⟩, ⟨some (some ⟨4, 4, false, .Linear, [9]⟩), .Once⟩)]] =
      .ok ([.bool true, .bool true, .bool true, .bool true], t) ∧ t.mipLevelCount = 3 ∧
      t.imagesComplete = true ∧
      t.getImage none 2 0 = .ok (some ⟨1, 1, true, .Linear, [1, 2]⟩) := by
  refine ⟨?_, _, rfl, by decide⟩
  intro e he w h _ _
  simp only [List.mem_cons, List.not_mem_nil, or_false] at he
  subst he; simp [fit, Toy.lib]

end Cuttlefish
