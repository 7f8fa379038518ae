import Verif.Proofs.ToolTex
import Verif.Spec.Written
import Verif.Props.C20
import Verif.Props.C21
import Verif.Props.C22
/-
What the surfaces of the texture of a job are made from.
-/
namespace Cuttlefish
open Spec
variable {Img H σ : Type}

/-- A successful `setImage` stores the image. -/
theorem set_stores {L : ImageLib Img} {i : TexImpl Img} {img : Option Img} {mv : Bool}
    {face : Option CubeFace} {d : ℕ} {t : Tex Img} (hr : Tex.setImage L (some i) img mv face 0 d = .ok (true, t)) :
    ∃ g r f, ∃ im : Store (Option Img), img = some g ∧ represent L i.colorSpace g mv = some r ∧
      faceIndex i.faces face = some f ∧ t = some { i with images := im } ∧ im.at? 0 d f = some (some r) := by
  unfold Tex.setImage at hr
  rw [Res.bind_eq_ok] at hr
  obtain ⟨d', -, hr⟩ := hr
  split at hr
  · simp at hr
  rw [Res.bind_eq_ok] at hr
  obtain ⟨w', -, hr⟩ := hr
  rw [Res.bind_eq_ok] at hr
  obtain ⟨h', -, hr⟩ := hr
  split at hr
  · simp at hr
  simp only at hr
  split at hr
  · simp at hr
  rename_i f hf
  rw [Res.bind_eq_ok] at hr
  obtain ⟨im, him, hr⟩ := hr
  simp only [Res.pure_eq, Res.ok.injEq, Prod.mk.injEq] at hr
  obtain ⟨s', h1, h2, -⟩ := Store.set_ok (a := _) (store_at_set him)
  rw [h1] at him
  simp only [Res.ok.injEq] at him
  subst him
  cases img with
  | none => simp at hr
  | some g =>
    obtain ⟨hs, ht⟩ := hr
    obtain ⟨r, hr⟩ := Option.isSome_iff_exists.1 hs
    refine ⟨g, r, f, s', rfl, hr, hf, ht.symm, ?_⟩
    rw [h2, if_pos ⟨rfl, rfl, rfl⟩, ← hr]

/-- Storing several images successfully: every image is in its place. -/
theorem put_stored {W : World Img} {k : ImageType} : ∀ (gs : List (Option Img)) (n : ℕ) (i : TexImpl Img)
    (outs : List (Out Img)) (t : Tex Img), run W (some i) (putOps k n gs) = .ok (outs, t) →
    (∀ j < gs.length, outs[j]? = some (.bool true)) →
    (∀ j < gs.length, ∀ j' < gs.length, cell i.faces k (n + j) = cell i.faces k (n + j') → j = j') →
    ∃ im : Store (Option Img), t = some { i with images := im } ∧
      ∀ j < gs.length, ∃ g r f, gs[j]? = some (some g) ∧ represent W.lib i.colorSpace g true = some r ∧
        faceIndex i.faces (toolPlace k (n + j)).1 = some f ∧
        im.at? 0 (toolPlace k (n + j)).2.2 f = some (some r)
  | [], n, i, outs, t, h, _, _ => by
    simp only [putOps, List.zipIdx_nil, List.map_nil, run, Res.ok.injEq, Prod.mk.injEq] at h
    exact ⟨i.images, h.2.symm, fun j hj => by simp at hj⟩
  | g :: gs, n, i, outs, t, h, hout, hinj => by
    simp only [putOps, List.zipIdx_cons, List.map_cons, run, Res.bind_eq_ok, call] at h
    obtain ⟨⟨o1, t1⟩, ⟨⟨b, t1'⟩, h1, h2⟩, ⟨o2, t2⟩, h3, h4⟩ := h
    simp only [Res.pure_eq, Res.ok.injEq, Prod.mk.injEq] at h2 h4
    obtain ⟨rfl, rfl⟩ := h2
    obtain ⟨rfl, rfl⟩ := h4
    rw [place_level] at h1
    have hb := hout 0 (by simp)
    simp only [List.getElem?_cons_zero, Option.some.injEq, Out.bool.injEq] at hb
    subst hb
    obtain ⟨g', r, f, im1, rfl, hr, hf, rfl, hat⟩ := set_stores h1
    have hinj' : ∀ j < gs.length, ∀ j' < gs.length,
        cell i.faces k (n + 1 + j) = cell i.faces k (n + 1 + j') → j = j' := by
      intro a ha b hb' hab
      have := hinj (a + 1) (by simpa using ha) (b + 1) (by simpa using hb')
        (by rw [show n + (a + 1) = n + 1 + a by omega, show n + (b + 1) = n + 1 + b by omega]; exact hab)
      omega
    obtain ⟨im, e, hs⟩ := put_stored gs (n + 1) { i with images := im1 } o2 t2 h3
      (fun j hj => by have := hout (j + 1) (by simpa using hj); simpa using this) hinj'
    obtain ⟨im', e', -, hk, -⟩ := put_slots gs (n + 1) { i with images := im1 } o2 t2 h3
    have him : im' = im := by
      rw [e] at e'
      have := congrArg (fun t : TexImpl Img => t.images) (Option.some.inj e')
      exact this.symm
    subst him
    refine ⟨im', e, ?_⟩
    intro j hj
    cases j with
    | zero =>
      refine ⟨g', r, f, rfl, hr, hf, ?_⟩
      rw [Nat.add_zero, hk]
      · exact hat
      · intro j hj' hc
        have h0 : cell i.faces k (n + 0) = ((toolPlace k n).2.2, some f) := by
          show ((toolPlace k n).2.2, faceIndex i.faces (toolPlace k n).1) = _
          rw [hf]
        have := hinj 0 (by simp) (j + 1) (by simpa using hj')
          (h0.trans (by rw [show n + (j + 1) = n + 1 + j by omega]; exact hc))
        omega
    | succ j =>
      obtain ⟨g2, r2, f2, a1, a2, a3, a4⟩ := hs j (by simpa using hj)
      rw [show n + 1 + j = n + (j + 1) by omega] at a3 a4
      exact ⟨g2, r2, f2, by simpa using a1, a2, a3, a4⟩

/-! ### Generating mipmaps keeps the first level -/

theorem store_set_zero {α : Type} {s s' : Store α} {m d f : ℕ} {a : α} (hm : 1 ≤ m)
    (h : s.set m d f a = .ok s') : s'[0]? = s[0]? := by
  unfold Store.set at h
  split at h
  · simp at h
  split at h
  · simp at h
  split at h
  · simp only [Res.ok.injEq] at h
    rw [← h, List.getElem?_set_ne (by omega)]
  · simp at h

theorem genMipStep_zero {L : ImageLib Img} {t : TexImpl Img} {filter : ResizeFilter} {custom : CustomMips Img}
    {d f mip : ℕ} {face : CubeFace} (hm : 1 ≤ mip) {st st' : Store (Option Img) × Option Img}
    (h : genMipStep L t filter custom d f mip face st = .ok st') : st'.1[0]? = st.1[0]? := by
  unfold genMipStep at h
  simp only [Res.bind_eq_ok] at h
  obtain ⟨w, -, hh, -, h⟩ := h
  split at h
  · simp only [Res.bind_eq_ok, Res.pure_eq, Res.ok.injEq] at h
    obtain ⟨g, -, im, h1, rfl⟩ := h
    exact store_set_zero hm h1
  · split at h
    · simp only [Res.bind_eq_ok, Res.pure_eq, Res.ok.injEq] at h
      obtain ⟨g, -, im, h1, rfl⟩ := h
      exact store_set_zero hm h1
    · simp only [Res.bind_eq_ok, Res.pure_eq, Res.ok.injEq] at h
      obtain ⟨im, h1, rfl⟩ := h
      exact store_set_zero hm h1

/-- A loop keeps what its body keeps. -/
theorem forRes_same {α σ β : Type} (p : σ → β) : ∀ (xs : List α) (body : α → σ → Res σ) (s s' : σ),
    (∀ x ∈ xs, ∀ s s', body x s = .ok s' → p s' = p s) → forRes xs body s = .ok s' → p s' = p s
  | [], _, s, s', _, h => by
    simp only [forRes, Res.ok.injEq] at h
    rw [h]
  | x :: xs, body, s, s', hb, h => by
    simp only [forRes, Res.bind_eq_ok] at h
    obtain ⟨s1, h1, h2⟩ := h
    rw [forRes_same p xs body s1 s' (fun x hx => hb x (by simp [hx])) h2, hb x (by simp) s s1 h1]

theorem mipRange_pos {n m : ℕ} (h : m ∈ mipRange n) : 1 ≤ m := by
  unfold mipRange at h
  rw [List.mem_iff_getElem] at h
  obtain ⟨i, hi, rfl⟩ := h
  simp

theorem genMipsFlat_zero {L : ImageLib Img} {t : TexImpl Img} {filter : ResizeFilter} {custom : CustomMips Img}
    {im : Store (Option Img)} (h : genMipsFlat L t filter custom = .ok im) : im[0]? = t.images[0]? := by
  unfold genMipsFlat at h
  simp only [Res.bind_eq_ok, Res.pure_eq, Res.ok.injEq] at h
  obtain ⟨r, h, rfl⟩ := h
  have := forRes_same (fun st : Store (Option Img) × Option Img => st.1[0]?) _ _ _ _ (by
    intro d _ s s' hb
    refine forRes_same (fun st : Store (Option Img) × Option Img => st.1[0]?) _ _ _ _ ?_ hb
    intro f _ s s' hb
    refine forRes_same (fun st : Store (Option Img) × Option Img => st.1[0]?) _ _ _ _ ?_ hb
    intro m hm s s' hb
    exact genMipStep_zero (mipRange_pos hm) hb) h
  rw [this, List.getElem?_mapIdx]
  simp

theorem genMips3d_zero {L : ImageLib Img} {t : TexImpl Img} {filter : ResizeFilter} {custom : CustomMips Img} :
    ∀ (ms : List ℕ) (im : Store (Option Img)) (inputs : List (Option Img)) (b : Bool) (im' : Store (Option Img)),
    (∀ m ∈ ms, 1 ≤ m) → genMips3dLoop L t filter custom ms im inputs = .ok (b, im') → im'[0]? = im[0]?
  | [], im, inputs, b, im', _, h => by
    simp only [genMips3dLoop, Res.ok.injEq, Prod.mk.injEq] at h
    rw [h.2]
  | m :: ms, im, inputs, b, im', hm, h => by
    simp only [genMips3dLoop, Res.bind_eq_ok] at h
    obtain ⟨o, ho, h⟩ := h
    cases o with
    | none =>
      simp only [Res.pure_eq, Res.ok.injEq, Prod.mk.injEq] at h
      rw [h.2]
    | some p =>
      rw [genMips3d_zero ms p.1 p.2 b im' (fun x hx => hm x (by simp [hx])) h]
      have hput : ∀ {slices : List (Option Img)} {im2 : Store (Option Img)},
          putSlices3d im m slices = .ok im2 → im2[0]? = im[0]? := by
        intro slices im2 hp
        unfold putSlices3d at hp
        split at hp
        · simp only [Res.ok.injEq] at hp
          have := hm m (by simp)
          rw [← hp, List.getElem?_set_ne (by omega)]
        · simp at hp
      unfold genMip3dStep at ho
      simp only [Res.bind_eq_ok] at ho
      obtain ⟨w, -, hh, -, d, -, ho⟩ := ho
      split at ho
      · simp at ho
      · simp only [Res.bind_eq_ok, Res.pure_eq, Res.ok.injEq, Option.some.injEq] at ho
        obtain ⟨s, -, im2, h2, rfl⟩ := ho
        exact hput h2
      · split at ho
        all_goals
          rw [Res.bind_eq_ok] at ho
          obtain ⟨_, -, ho⟩ := ho
          simp only [Res.bind_eq_ok, Res.pure_eq, Res.ok.injEq, Option.some.injEq] at ho
          obtain ⟨s, -, im2, h2, rfl⟩ := ho
          exact hput h2

theorem vresize_zero {α : Type} (l : List α) (n : ℕ) (a : α) (hn : 1 ≤ n) (hl : l ≠ []) :
    (vresize l n a)[0]? = l[0]? := by
  obtain ⟨x, xs, rfl⟩ := List.exists_cons_of_ne_nil hl
  rw [vresize_getElem?]
  simp; omega

/-- `generateMipmaps` keeps the first level, whatever it is given. -/
theorem gen_zero {L : ImageLib Img} {i : TexImpl Img} {filter : ResizeFilter} {r : ℕ}
    {custom : CustomMips Img} {b : Bool} {t : Tex Img} {dim cs w h d} (hI : WInv i dim cs w h d)
    (hr : Tex.generateMipmaps L (some i) filter r custom = .ok (b, t)) :
    ∃ i', t = some i' ∧ i'.images[0]? = i.images[0]? := by
  unfold Tex.generateMipmaps at hr
  simp only at hr
  split at hr
  · simp at hr
  rename_i l0 hl0
  have hne : i.images ≠ [] := by
    intro h0
    rw [h0] at hl0
    simp at hl0
  split at hr
  · simp only [Res.ok.injEq, Prod.mk.injEq] at hr
    exact ⟨i, hr.2.symm, rfl⟩
  split at hr
  · simp only [Res.ok.injEq, Prod.mk.injEq] at hr
    exact ⟨i, hr.2.symm, rfl⟩
  obtain ⟨hw, hh, hd⟩ := wAt hI 0
  have h0 : 0 < i.mipLevels := hI.mips.1
  have hmm : maxMipmapLevels i.dimension w h (depthExtent dim d 0) = maxMipmapLevels dim w h d := by
    rw [hI.edim]
    unfold maxMipmapLevels depthExtent
    by_cases h3 : dim = .Dim3D
    · simp only [h3, if_true]; rfl
    · simp only [h3, if_false]
  rw [hw, hh, hd] at hr
  simp only [Res.ok_bind, if_pos h0] at hr
  rw [show extent w 0 = w from rfl, show extent h 0 = h from rfl, hmm] at hr
  have hpos : 1 ≤ min (max r 1) (maxMipmapLevels dim w h d) := by
    have := maxMip_pos dim w h d hI.pw.1 hI.pw.2 hI.ph.1 hI.ph.2 (fun h3 => ⟨hI.pd.2 h3, hI.pd.1⟩)
    omega
  split at hr
  · rw [Res.bind_eq_ok] at hr
    obtain ⟨p, hp, hr⟩ := hr
    simp only [Res.pure_eq, Res.ok.injEq, Prod.mk.injEq] at hr
    refine ⟨_, hr.2.symm, ?_⟩
    have := genMips3d_zero _ _ _ p.1 p.2 (fun m hm => mipRange_pos hm) hp
    exact this.trans (vresize_zero _ _ _ hpos hne)
  · rw [Res.bind_eq_ok] at hr
    obtain ⟨p, hp, hr⟩ := hr
    simp only [Res.pure_eq, Res.ok.injEq, Prod.mk.injEq] at hr
    refine ⟨_, hr.2.symm, ?_⟩
    exact (genMipsFlat_zero hp).trans (vresize_zero _ _ _ hpos hne)

theorem safeHist_append {W : World Img} : ∀ (os os' : List (Op Img)) (t : Tex Img), SafeHist W t os →
    (∀ outs t', run W t os = .ok (outs, t') → SafeHist W t' os') → SafeHist W t (os ++ os')
  | [], os', t, _, h => h [] t rfl
  | o :: os, os', t, h1, h2 => by
    refine ⟨h1.1, fun out t' hc => ?_⟩
    refine safeHist_append os os' t' (h1.2 out t' hc) ?_
    intro outs t'' hr
    refine h2 (out :: outs) t'' ?_
    simp only [run, hc, Res.ok_bind, hr]
    rfl

theorem safeHist_puts {W : World Img} : ∀ (os : List (Op Img)) (t : Tex Img),
    (∀ o ∈ os, ∃ g mv f m d, o = .setImage g mv f m d) → SafeHist W t os
  | [], _, _ => trivial
  | o :: os, t, h => by
    refine ⟨?_, fun out t' _ => safeHist_puts os t' (fun o ho => h o (by simp [ho]))⟩
    obtain ⟨g, mv, f, m, d, rfl⟩ := h o (by simp)
    trivial

/-- The textures of a job: `t0` with its images, `t` with its mip levels, `t'` converted. -/
structure Stages (W : World Img) (c : Cmd H) (images : List (Option Img)) (custom : CustomMips Img)
    (t0 t t' : Tex Img) : Prop where
  hist0 : ∃ calls o, SafeHist W none calls ∧ run W none calls = .ok (o, t0)
  hist : ∃ calls o, SafeHist W none calls ∧ run W none calls = .ok (o, t)
  plain : t0.converted = false
  base : BasePresent t0
  dim : t0.dimension = c.dimension
  space : t0.colorSpace = c.textureColorSpace
  width : t0.widthAt 0 = .ok (W.lib.widthO images.head?.join)
  height : t0.heightAt 0 = .ok (W.lib.heightO images.head?.join)
  depth : t0.depthAt 0 = .ok (max (layers c.imageType images.length) 1)
  mips : 1 < c.mipLevels → ∃ b, t0.generateMipmaps W.lib c.mipFilter c.mipLevels custom = .ok (b, t)
  one : ¬ 1 < c.mipLevels → t = t0
  single : t0.mipLevelCount = 1
  conv : t.convert W.feat W.hw W.enc c.format c.type c.quality c.alpha c.colorMask c.jobs = .ok (true, t')
  first : ∀ j < images.length, ∃ g r, images[j]? = some (some g) ∧
    represent W.lib c.textureColorSpace g true = some r ∧
    t0.getImage (toolPlace c.imageType j).1 0 (toolPlace c.imageType j).2.2 = .ok (some r) ∧
    t.getImage (toolPlace c.imageType j).1 0 (toolPlace c.imageType j).2.2 = .ok (some r)

/-- What a job goes through. -/
theorem job_stages {W : World Img} (hL : Lawful W.lib) {c : Cmd H} {images : List (Option Img)}
    {custom : CustomMips Img} {outs : List (Out Img)} {t' : Tex Img} (hn : images.length < 2 ^ 32) (hne : images ≠ [])
    (hsize : W.lib.widthO images.head?.join < 2 ^ 32 ∧ W.lib.heightO images.head?.join < 2 ^ 32)
    (hone : c.imageType = .Image → images.length = 1) (hcube : c.imageType = .Cube → images.length = 6)
    (hcubes : c.imageType = .CubeArray → 6 ∣ images.length)
    (hkind : c.dimension = .Cube ↔ c.imageType = .Cube ∨ c.imageType = .CubeArray)
    (hcust : CustomFor W.lib c custom images.length)
    (h : run W none (jobOps W.lib c images custom) = .ok (outs ++ [.bool true], t')) :
    ∃ t0 t, Stages W c images custom t0 t t' := by
  have hj := job_texture hn hne hsize hone hcube hcubes hkind h
  obtain ⟨houts, -⟩ := hj
  obtain ⟨first, rest, rfl⟩ := List.exists_cons_of_ne_nil hne
  rw [jobOps_eq hn hcube hone] at h
  have hdep : toolDepth c.imageType (first :: rest).length = layers c.imageType (first :: rest).length := by
    unfold layers toolDepth
    cases c.imageType <;> simp only [u32, pow32] <;> omega
  rw [hdep] at h
  generalize hN : (first :: rest).length = n at *
  have hwh : W.lib.widthO first < pow32 ∧ W.lib.heightO first < pow32 := by
    simpa using hsize
  have hd : layers c.imageType n < pow32 := by
    unfold layers pow32
    cases c.imageType <;> simp only <;> omega
  generalize hwe : W.lib.widthO first = w at *
  generalize hhe : W.lib.heightO first = hh at *
  generalize hD : layers c.imageType n = d at *
  -- split off the conversion
  rw [run_append, Res.bind_eq_ok] at h
  obtain ⟨⟨oa, t⟩, h1, h⟩ := h
  rw [Res.bind_eq_ok] at h
  obtain ⟨⟨oc, tc⟩, h2, h⟩ := h
  simp only [Res.ok.injEq, Prod.mk.injEq] at h
  obtain ⟨h', rfl⟩ := h
  simp only [run, call, Res.bind_eq_ok, Res.pure_eq] at h2
  obtain ⟨⟨oc1, tc1⟩, ⟨⟨cv, tc'⟩, h2, h3⟩, ⟨oe, te⟩, h4, h5⟩ := h2
  simp only [Res.ok.injEq, Prod.mk.injEq] at h3 h4 h5
  obtain ⟨rfl, rfl⟩ := h4
  obtain ⟨rfl, rfl⟩ := h3
  obtain ⟨rfl, rfl⟩ := h5
  obtain ⟨rfl, hcv⟩ := List.append_inj' h' rfl
  clear h'
  simp only [List.cons.injEq, Out.bool.injEq, and_true] at hcv
  subst hcv
  have hcomp := convert_complete h2
  have hrun := h1
  rw [List.cons_append] at h1
  simp only [run, call, Res.ok_bind, Res.bind_eq_ok] at h1
  obtain ⟨⟨ob, tb⟩, h1, h1'⟩ := h1
  simp only [Res.pure_eq, Res.ok.injEq, Prod.mk.injEq] at h1'
  obtain ⟨rfl, rfl⟩ := h1'
  rw [run_append, Res.bind_eq_ok] at h1
  obtain ⟨⟨o1, t1⟩, h1, h6⟩ := h1
  rw [Res.bind_eq_ok] at h6
  obtain ⟨⟨o2, t2⟩, h6, h7⟩ := h6
  simp only [Res.ok.injEq, Prod.mk.injEq] at h7
  obtain ⟨rfl, rfl⟩ := h7
  have hputs : ∀ o ∈ (((first :: rest).zipIdx 0).map fun g => Op.setImage g.1 true (toolPlace c.imageType g.2).1
      (toolPlace c.imageType g.2).2.1 (toolPlace c.imageType g.2).2.2), ∃ g mv f m d, o = Op.setImage g mv f m d := by
    intro o ho
    obtain ⟨g, -, rfl⟩ := List.mem_map.1 ho
    exact ⟨_, _, _, _, _, rfl⟩
  rcases winv_init (none : Tex Img) (dim := c.dimension) (m := 1) (cs := c.textureColorSpace)
    hwh.1 hwh.2 hd with ⟨i, e, hI, hm, -, -, hd3, htex, him⟩ | ⟨e, -⟩
  · rw [e] at h1 houts
    dsimp only at h1 houts
    have hpos := maxMip_pos c.dimension w hh d hI.pw.1 hI.pw.2 hI.ph.1 hI.ph.2 (fun h3 => ⟨hI.pd.2 h3, hI.pd.1⟩)
    have hfaces : i.faces = if c.imageType = .Cube ∨ c.imageType = .CubeArray then 6 else 1 := by
      rw [hI.faces]
      simp only [hkind]
    obtain ⟨hex, hinj⟩ := cell_ok hfaces hone hcube hcubes
    obtain ⟨-, -, hl, -, -⟩ := put_slots _ _ _ _ _ h1
    rw [hN] at hl
    obtain ⟨im, rfl, hst⟩ := put_stored _ _ _ _ _ h1
      (by
        intro j hj
        rw [hN] at hj
        have := houts (j + 1) (by omega)
        rwa [List.getElem?_cons_succ, List.getElem?_append_left (by omega)] at this)
      (by
        rw [hN]
        simpa using hinj)
    rw [hN] at hst
    have hI1 : WInv { i with images := im } c.dimension c.textureColorSpace w hh d :=
      ⟨hI.pw, hI.ph, hI.pd, hI.mips, hI.faces, hI.edim, hI.ecs, hI.ew, hI.eh, hI.ed⟩
    -- the calls are safe
    have hsafe : SafeHist W none (.initialize c.dimension w hh d 1 c.textureColorSpace ::
        (((first :: rest).zipIdx 0).map fun g => .setImage g.1 true (toolPlace c.imageType g.2).1
          (toolPlace c.imageType g.2).2.1 (toolPlace c.imageType g.2).2.2) ++
        (if 1 < c.mipLevels then [.generateMipmaps c.mipFilter c.mipLevels custom] else [])) := by
      refine safeHist_append _ _ _ ⟨⟨hwh.1, hwh.2, hd⟩, fun _ t' _ => safeHist_puts _ _ hputs⟩ ?_
      intro outs t' hr
      simp only [run, call, Res.ok_bind, Res.bind_eq_ok] at hr
      obtain ⟨⟨ob', tb'⟩, hr1, hr2⟩ := hr
      rw [e] at hr1
      dsimp only at hr1
      rw [h1] at hr1
      simp only [Res.ok.injEq, Prod.mk.injEq] at hr1
      simp only [Res.pure_eq, Res.ok.injEq, Prod.mk.injEq] at hr2
      rw [← hr2.2, ← hr1.2]
      split
      · refine ⟨⟨.inl htex, ?_⟩, fun _ _ _ => trivial⟩
        intro h3
        have h3 : c.dimension = .Dim3D := by rw [← hI.edim]; exact h3
        obtain ⟨hg, hco⟩ := hcust h3
        refine ⟨hg, .inr ?_⟩
        intro m hm1 _
        have hdn : i.depth = n := by
          rw [hI.ed, ← hD]
          have hp := hd3 h3
          rw [← hD] at hp
          cases hk : c.imageType with
          | Image => rw [hk] at hp; simp [layers] at hp
          | Array => rfl
          | Cube => rw [hkind.2 (.inl hk)] at h3; simp at h3
          | CubeArray => rw [hkind.2 (.inr hk)] at h3; simp at h3
        show consistent3d _ _ (extent i.depth m)
        rw [hdn]
        exact hco m hm1
      · trivial
    -- the first level is kept
    have key : ∃ i2, t2 = some i2 ∧ WInv i2 c.dimension c.textureColorSpace w hh d ∧ i2.images[0]? = im[0]? ∧
        (∀ d' f', im.at? 0 d' f' ≠ some none) ∧
        (1 < c.mipLevels → ∃ b, Tex.generateMipmaps W.lib (some { i with images := im }) c.mipFilter c.mipLevels
          custom = .ok (b, some i2)) ∧ (¬ 1 < c.mipLevels → i2 = { i with images := im }) := by
      by_cases hml : 1 < c.mipLevels
      · rw [if_pos hml] at h6
        simp only [run, call, Res.bind_eq_ok, Res.pure_eq] at h6
        obtain ⟨⟨p1, p2⟩, ⟨⟨q1, q2⟩, hg, hq⟩, ⟨p3, p4⟩, hp, hfin⟩ := h6
        simp only [Res.ok.injEq, Prod.mk.injEq] at hq hp hfin
        obtain ⟨-, rfl⟩ := hq
        obtain ⟨-, rfl⟩ := hp
        obtain ⟨-, rfl⟩ := hfin
        obtain ⟨i2, rfl, hz⟩ := gen_zero hI1 hg
        rcases gen_levels hI1 hg with ⟨e2, hu⟩ | ⟨hall, im2, e2⟩
        · refine ⟨i2, rfl, ?_, hz, ?_, fun _ => ⟨_, hg⟩, fun h => absurd hml h⟩
          · rw [Option.some.injEq] at e2
            rw [e2]
            exact hI1
          · rw [e2] at hcomp
            exact fun d' f' => complete_at hcomp d' f'
        · refine ⟨i2, rfl, ?_, hz, hall, fun _ => ⟨_, hg⟩, fun h => absurd hml h⟩
          rw [Option.some.injEq] at e2
          rw [e2]
          exact ⟨hI.pw, hI.ph, hI.pd, ⟨by simp only; omega, by simp only; omega⟩, hI.faces,
            hI.edim, hI.ecs, hI.ew, hI.eh, hI.ed⟩
      · rw [if_neg hml] at h6
        simp only [run, Res.ok.injEq, Prod.mk.injEq] at h6
        obtain ⟨-, rfl⟩ := h6
        exact ⟨_, rfl, hI1, rfl, fun d' f' => complete_at hcomp d' f', fun h => absurd h hml, fun _ => rfl⟩
    obtain ⟨i2, rfl, hI2, hz, hfull, hgen, hnogen⟩ := key
    -- the texture before its mip levels
    have hsafe0 : SafeHist W none (.initialize c.dimension w hh d 1 c.textureColorSpace ::
        (((first :: rest).zipIdx 0).map fun g => .setImage g.1 true (toolPlace c.imageType g.2).1
          (toolPlace c.imageType g.2).2.1 (toolPlace c.imageType g.2).2.2)) :=
      ⟨⟨hwh.1, hwh.2, hd⟩, fun _ t' _ => safeHist_puts _ _ hputs⟩
    have hrun0 : run W none (.initialize c.dimension w hh d 1 c.textureColorSpace ::
        (((first :: rest).zipIdx 0).map fun g => .setImage g.1 true (toolPlace c.imageType g.2).1
          (toolPlace c.imageType g.2).2.1 (toolPlace c.imageType g.2).2.2)) =
        .ok (.bool true :: o1, some { i with images := im }) := by
      simp only [run, call, Res.ok_bind]
      rw [e]
      dsimp only
      rw [h1]
      rfl
    have hT0 : Inv W.lib { i with images := im } := by
      obtain ⟨outs', t0, hr0, hT⟩ := tinv_run hL _ (t := none) trivial hsafe0
      rw [hrun0] at hr0
      simp only [Res.ok.injEq, Prod.mk.injEq] at hr0
      obtain ⟨-, rfl⟩ := hr0
      exact hT
    obtain ⟨a1, a2, a3⟩ := wAt hI1 0
    have h0 : 0 < i.mipLevels := hI.mips.1
    rw [if_pos h0] at a1 a2 a3
    have hm1 : i.mipLevels = 1 := by rw [hm]; omega
    have hplace : ∀ j < n, ∀ (i' : TexImpl Img), Inv W.lib i' → WInv i' c.dimension c.textureColorSpace w hh d →
        i'.images[0]? = im[0]? → ∀ r f, faceIndex i.faces (toolPlace c.imageType j).1 = some f →
        im.at? 0 (toolPlace c.imageType j).2.2 f = some (some r) →
        Tex.getImage (some i') (toolPlace c.imageType j).1 0 (toolPlace c.imageType j).2.2 = .ok (some r) := by
      intro j hj i' hT' hI' hz' r f a3 a4
      obtain ⟨d', f', hc, hd', hf'⟩ := hex j hj
      have hslot : HasSlot i' (toolPlace c.imageType j).1 0 (toolPlace c.imageType j).2.2 f := by
        refine ⟨hI'.mips.1, ?_, ?_⟩
        · have : d' = (toolPlace c.imageType j).2.2 := (congrArg Prod.fst hc).symm
          rw [← this, hI'.edim, hI'.ed]
          rw [hD] at hd'
          unfold depthExtent
          split
          · rename_i h3
            have := hI.pd.2 h3
            unfold extent
            omega
          · split <;> omega
        · rw [hI'.faces, ← hI.faces]
          exact a3
      obtain ⟨g', hg1, hg2⟩ := getImage_slot hT' hslot
      rw [hg2]
      have : i'.images.at? 0 (toolPlace c.imageType j).2.2 f = im.at? 0 (toolPlace c.imageType j).2.2 f := by
        unfold Store.at?
        rw [hz']
      rw [this, a4, Option.some.injEq] at hg1
      rw [hg1]
    refine ⟨some { i with images := im }, some i2, ⟨⟨_, _, hsafe0, hrun0⟩, ⟨_, _, hsafe, hrun⟩, ?_, ?_, hI.edim, hI.ecs,
      by rw [a1, ← hwe]; rfl, by rw [a2, ← hhe]; rfl, ?_, hgen, fun h => by rw [hnogen h], hm1, h2, ?_⟩⟩
    · unfold Tex.converted
      simp only [htex]
      rfl
    · rw [basePresent_iff hT0]
      intro d' f' hd' hf'
      obtain ⟨face, cf, ha, hcf⟩ := face_of_index hT0.faces hf'
      have hfi := faceIndex_addressed hT0.faces face
      rw [ha, Option.map_some, hcf] at hfi
      obtain ⟨g, hg, -⟩ := getImage_slot hT0 (m := 0) (d := d') ⟨h0, hd', hfi⟩
      cases g with
      | none => exact absurd hg (hfull d' f')
      | some g => exact ⟨g, hg⟩
    · rw [a3, hN, hD]
      unfold depthExtent extent
      congr 1
      by_cases h3 : c.dimension = .Dim3D
      · have := hI2.pd.2 h3
        rw [if_pos h3]
        omega
      · rw [if_neg h3]
        split <;> omega
    intro j hj
    rw [hN] at hj
    obtain ⟨g, r, f, a1, a2, a3, a4⟩ := hst j hj
    rw [Nat.zero_add] at a3 a4
    refine ⟨g, r, a1, by rw [← hI.ecs]; exact a2, hplace j hj _ hT0 hI1 rfl r f a3 a4, ?_⟩
    obtain ⟨outs', t0, hr0, hT⟩ := tinv_run hL _ (t := none) trivial hsafe
    rw [hrun] at hr0
    simp only [Res.ok.injEq, Prod.mk.injEq] at hr0
    obtain ⟨-, rfl⟩ := hr0
    exact hplace j hj i2 hT hI2 hz r f a3 a4
  · exfalso
    rw [e] at h1
    have e1 := run_none _ _ _ (fun o ho => .inl (hputs o ho)) h1
    subst e1
    have e2 := run_none _ _ _ (by
      intro o ho
      split at ho
      · simp only [List.mem_singleton] at ho
        exact .inr ⟨_, _, _, ho⟩
      · simp at ho) h6
    subst e2
    simp [Tex.imagesComplete] at hcomp

/-- The images that a job stores, before it converts the texture. -/
theorem job_images {W : World Img} (hL : Lawful W.lib) {c : Cmd H} {images : List (Option Img)}
    {custom : CustomMips Img} {outs : List (Out Img)} {t' : Tex Img} (hn : images.length < 2 ^ 32) (hne : images ≠ [])
    (hsize : W.lib.widthO images.head?.join < 2 ^ 32 ∧ W.lib.heightO images.head?.join < 2 ^ 32)
    (hone : c.imageType = .Image → images.length = 1) (hcube : c.imageType = .Cube → images.length = 6)
    (hcubes : c.imageType = .CubeArray → 6 ∣ images.length)
    (hkind : c.dimension = .Cube ↔ c.imageType = .Cube ∨ c.imageType = .CubeArray)
    (hcust : CustomFor W.lib c custom images.length)
    (h : run W none (jobOps W.lib c images custom) = .ok (outs ++ [.bool true], t')) :
    ∃ t, (∃ calls o, SafeHist W none calls ∧ run W none calls = .ok (o, t)) ∧
      t.convert W.feat W.hw W.enc c.format c.type c.quality c.alpha c.colorMask c.jobs = .ok (true, t') ∧
      ∀ j < images.length, ∃ g r, images[j]? = some (some g) ∧
        represent W.lib c.textureColorSpace g true = some r ∧
        t.getImage (toolPlace c.imageType j).1 0 (toolPlace c.imageType j).2.2 = .ok (some r) := by
  obtain ⟨t0, t, S⟩ := job_stages hL hn hne hsize hone hcube hcubes hkind hcust h
  refine ⟨t, S.hist, S.conv, fun j hj => ?_⟩
  obtain ⟨g, r, h1, h2, -, h3⟩ := S.first j hj
  exact ⟨g, r, h1, h2, h3⟩

theorem fullFile_unique {t : Tex Img} {ft : FileType} {a b : List UInt8} (ha : FullFile t ft a)
    (hb : FullFile t ft b) : a = b := by
  unfold FullFile at ha hb
  rw [ha] at hb
  simp only [Res.ok.injEq, Prod.mk.injEq, OStream.mk.injEq, true_and, and_true] at hb
  exact hb

/-- The place of an input image in a file. -/
theorem place_file {c : Cmd H} {j n : ℕ} (hj : j < n) (hone : c.imageType = .Image → n = 1)
    (hcube : c.imageType = .Cube → n = 6)
    (hkind : c.dimension = .Cube ↔ c.imageType = .Cube ∨ c.imageType = .CubeArray) :
    (if c.dimension = .Dim3D then 0 else (toolPlace c.imageType j).2.2) = layerOf c j ∧
    faceNumber (toolPlace c.imageType j).1 = faceOf c j ∧
    (if c.dimension = .Dim3D then (toolPlace c.imageType j).2.2 else 0) = sliceOf c j := by
  unfold layerOf faceOf sliceOf faceNumber
  cases hk : c.imageType with
  | Image => simp [toolPlace, CubeFace.toNat]
  | Array => simp [toolPlace, CubeFace.toNat]
  | Cube =>
    have hc := hkind.2 (.inl hk)
    have := hcube hk
    simp [toolPlace, hc, toNat_ofIndex j (by omega)]
  | CubeArray =>
    have hc := hkind.2 (.inr hk)
    simp [toolPlace, hc, toNat_ofIndex (j % 6) (Nat.mod_lt _ (by omega))]

/-- A place with an image exists in the converted texture. -/
theorem Spec.Conversion.addressable {X : Ext} {view : Img → FImg} {W : World Img} {t t' : Tex Img} {f : Format}
    {ty : TType} {face : Option CubeFace} {m d : ℕ} (hC : Conversion X view W t t' f ty) {g : Img}
    (hg : t.getImage face m d = .ok (some g)) : Addressable t' face m d := by
  obtain ⟨calls, outs, hs, hr⟩ := hC.hist
  obtain ⟨outs', t0, h1, hI⟩ := tinv_run hC.lawful calls (t := none) trivial hs
  rw [hr] at h1; simp only [Res.ok.injEq, Prod.mk.injEq] at h1
  obtain ⟨-, rfl⟩ := h1
  obtain ⟨-, h1, h2, h3⟩ := hC.effect
  unfold Addressable
  rw [h1, h2, (h3 m).2.2]
  cases t with
  | none => simp [Tex.getImage, Tex.depthAt] at hg
  | some i =>
    have hI : Inv W.lib i := hI
    by_cases hs : ∃ f', HasSlot i face m d f'
    · obtain ⟨f', s1, s2, s3⟩ := hs
      refine ⟨s1, ⟨_, by rw [depthAt_eq hI, if_pos s1], s2⟩, ?_⟩
      have hfi := faceIndex_addressed hI.faces face
      rw [s3] at hfi
      show (addressed i.dimension face).isSome = true
      cases ha : addressed i.dimension face with
      | none => rw [ha] at hfi; simp at hfi
      | some cf => rfl
    · rw [getImage_noSlot hI (fun f' hf => hs ⟨f', hf⟩)] at hg
      simp at hg

/-- A reader finds every surface of the texture in the file of a job. -/
theorem job_reads {W : World Img} {X : Ext} (hX : CodecSizes X) {view : Img → FImg} (hL : Lawful W.lib)
    (henc : W.enc = fun k a g => encodeImage X k a (view g))
    (hview : ∀ g, (view g).width = W.lib.width g ∧ (view g).height = W.lib.height g)
    {c : Cmd H} {images : List (Option Img)} {custom : CustomMips Img} {outs : List (Out Img)} {t' : Tex Img}
    {feat : Features} (hv : ValidJob feat c) (hl : images.length = c.images.length)
    (hn : c.images.length < 2 ^ 32)
    (hsize : W.lib.widthO images.head?.join < 2 ^ 32 ∧ W.lib.heightO images.head?.join < 2 ^ 32)
    (hcust : CustomFor W.lib c custom images.length)
    (hfit : Containable c images.length (W.lib.widthO images.head?.join) (W.lib.heightO images.head?.join))
    (h : run W none (jobOps W.lib c images custom) = .ok (outs ++ [.bool true], t'))
    {full : List UInt8} (hfull : FullFile t' c.fileType full) :
    ∃ t0 t, Stages W c images custom t0 t t' ∧ Conversion X view W t t' c.format c.type ∧
      t'.mipLevelCount = t.mipLevelCount ∧ t.dimension = c.dimension ∧
      ∀ face m d g, t.getImage face m d = .ok (some g) → ∃ bytes k,
        Surface view t t' face m d (view g) bytes ∧ createConverter W.feat c.format c.type = some k ∧
        encodeImage X k ⟨c.format, c.type, c.alpha, c.colorMask, c.textureColorSpace, c.quality,
          if c.jobs = allCores then W.hw else c.jobs⟩ (view g) = .ok bytes ∧
        inFile c.fileType full m (if c.dimension = .Dim3D then 0 else d) (faceNumber face)
          (if c.dimension = .Dim3D then d else 0) = some bytes := by
  have hne : images ≠ [] := by
    intro he
    rw [he] at hl
    exact hv.images (List.length_eq_zero_iff.1 hl.symm)
  have hn' : images.length < 2 ^ 32 := by rw [hl]; exact hn
  have hone := fun e => hl.trans (hv.one e)
  have hcube := fun e => hl.trans (hv.cube e)
  have hcubes : c.imageType = .CubeArray → 6 ∣ images.length := fun e => hl ▸ hv.cubes e
  obtain ⟨t0, t, S⟩ := job_stages hL hn' hne hsize hone hcube hcubes hv.kind hcust h
  obtain ⟨calls, o, hs, hr⟩ := S.hist
  have hc := S.conv
  have hC : Conversion X view W t t' c.format c.type :=
    ⟨hL, henc, hview, ⟨calls, o, hs, hr⟩, ⟨_, _, _, _, hc⟩⟩
  obtain ⟨-, q1, q2, q3, q4, q5, q6, q7, q8, q9, -⟩ := job_texture hn' hne hsize hone hcube hcubes hv.kind h
  obtain ⟨-, -, -, -, -, e1, e2, e3, -, e4, ⟨k, hk, e5⟩, -⟩ := C09_success_effect W hL calls hs o t hr _ _ _ _ _ _ t' hc
  refine ⟨t0, t, S, hC, e3, e1.symm.trans q5, ?_⟩
  have hpos : 0 < images.length := List.length_pos_iff.2 hne
  -- every container
  have hread : ∀ face m k', Addressable t' face m k' → ∃ data, t'.data face m k' = .ok (some data) ∧
      inFile c.fileType full m (if t'.dimension = .Dim3D then 0 else k') (faceNumber face)
        (if t'.dimension = .Dim3D then k' else 0) = some data := by
    have hsup := hv.supported
    unfold isFormatValidFile at hsup
    split at hsup
    · simp at hsup
    have hvW : isFormatValidFile W.feat c.format c.type c.fileType = true := by
      unfold isFormatValidFile
      rw [hC.valid]
      exact hsup
    cases hft : c.fileType with
    | Auto => exact absurd hft hv.file
    | KTX =>
      rw [hft] at hfull hvW
      have hk2 : max (layers c.imageType images.length) 1 * (if t'.isArray then t'.faceCount else 1) ≤
          images.length := by
        obtain ⟨w', h', d', L, hS⟩ := hC.shaped
        have hfc : t'.faceCount = if c.imageType = .Cube ∨ c.imageType = .CubeArray then 6 else 1 := by
          rw [hS.faces, q5]
          simp only [hv.kind]
        have : (if t'.isArray then t'.faceCount else 1) ≤ t'.faceCount := by
          split
          · exact le_refl _
          · rw [hfc]; split <;> omega
        refine le_trans (Nat.mul_le_mul_left _ this) ?_
        rw [hfc]
        unfold layers
        cases hk : c.imageType with
        | Image => simp; omega
        | Array => simp; omega
        | Cube => simp [hcube hk]
        | CubeArray =>
          obtain ⟨z, hz⟩ := hcubes hk
          simp [hz]; omega
      obtain ⟨bytes, file, f1, f2, -, -, -, -, -, -, f3⟩ := C20_ktx_partial X hX view W t t' c.format c.type hC hvW
        _ _ _ q7 q8 q9 hfit.pvrtc hfit.fits (fun e => hfit.row (q5.symm.trans e) (by rw [hft]; simp))
        (lt_of_le_of_lt (Nat.mul_le_mul_right _ hk2) (hfit.ktx hft))
      rw [fullFile_unique hfull f1]
      intro face m k' ha
      obtain ⟨data, d1, d2⟩ := f3 face m k' ha
      exact ⟨data, d1, by simp only [inFile, f2, Option.bind_some]; exact d2⟩
    | DDS =>
      rw [hft] at hfull hvW
      obtain ⟨bytes, file, f1, f2, -, -, -, -, -, -, -, f3⟩ := C21_dds_partial X hX view W t t' c.format c.type hC hvW
        _ _ _ q7 q8 q9 hfit.fits (fun e => hfit.row (q5.symm.trans e) (by rw [hft]; simp))
      rw [fullFile_unique hfull f1]
      intro face m k' ha
      obtain ⟨data, d1, d2⟩ := f3 face m k' ha
      exact ⟨data, d1, by simp only [inFile, f2, Option.bind_some]; exact d2⟩
    | PVR =>
      rw [hft] at hfull hvW
      obtain ⟨bytes, file, f1, f2, -, -, -, -, -, -, -, -, -, f3⟩ := C22_pvr_partial X hX view W t t' c.format c.type hC hvW
        _ _ _ q7 q8 q9 hfit.pvrtc hfit.fits
      rw [fullFile_unique hfull f1]
      intro face m k' ha
      obtain ⟨data, d1, d2⟩ := f3 face m k' ha
      exact ⟨data, d1, by simp only [inFile, f2, Option.bind_some]; exact d2⟩
  intro face m d g hg
  obtain ⟨bytes, b1, b2, b3⟩ := e5 _ _ _ _ hg
  rw [henc, ← e2, q6] at b1
  obtain ⟨x1, x2, x3, x4⟩ := hC.extents hg
  refine ⟨bytes, k, ⟨⟨g, hg, rfl⟩, b2, b3, x1, x2⟩, hk, b1, ?_⟩
  obtain ⟨data, d1, d2⟩ := hread face m d (hC.addressable hg)
  rw [b2] at d1
  simp only [Res.ok.injEq, Option.some.injEq] at d1
  subst d1
  rw [q5] at d2
  exact d2

/-- What a reader finds in the file of a job. -/
theorem job_file {W : World Img} {X : Ext} (hX : CodecSizes X) {view : Img → FImg} (hL : Lawful W.lib)
    (henc : W.enc = fun k a g => encodeImage X k a (view g))
    (hview : ∀ g, (view g).width = W.lib.width g ∧ (view g).height = W.lib.height g)
    {c : Cmd H} {images : List (Option Img)} {custom : CustomMips Img} {outs : List (Out Img)} {t' : Tex Img}
    {feat : Features} (hv : ValidJob feat c) (hl : images.length = c.images.length)
    (hn : c.images.length < 2 ^ 32)
    (hsize : W.lib.widthO images.head?.join < 2 ^ 32 ∧ W.lib.heightO images.head?.join < 2 ^ 32)
    (hcust : CustomFor W.lib c custom images.length)
    (hfit : Containable c images.length (W.lib.widthO images.head?.join) (W.lib.heightO images.head?.join))
    (h : run W none (jobOps W.lib c images custom) = .ok (outs ++ [.bool true], t'))
    {full : List UInt8} (hfull : FullFile t' c.fileType full) :
    ∃ t, Conversion X view W t t' c.format c.type ∧ ∀ j < images.length, ∃ g r bytes k,
      images[j]? = some (some g) ∧ represent W.lib c.textureColorSpace g true = some r ∧
      Surface view t t' (toolPlace c.imageType j).1 0 (toolPlace c.imageType j).2.2 (view r) bytes ∧
      createConverter W.feat c.format c.type = some k ∧
      encodeImage X k ⟨c.format, c.type, c.alpha, c.colorMask, c.textureColorSpace, c.quality,
        if c.jobs = allCores then W.hw else c.jobs⟩ (view r) = .ok bytes ∧
      inFile c.fileType full 0 (layerOf c j) (faceOf c j) (sliceOf c j) = some bytes := by
  obtain ⟨t0, t, S, hC, -, -, hr⟩ := job_reads hX hL henc hview hv hl hn hsize hcust hfit h hfull
  refine ⟨t, hC, ?_⟩
  intro j hj
  obtain ⟨g, r, i1, i2, -, i3⟩ := S.first j hj
  obtain ⟨bytes, k, r1, r2, r3, r4⟩ := hr _ _ _ _ i3
  refine ⟨g, r, bytes, k, i1, i2, r1, r2, r3, ?_⟩
  obtain ⟨p1, p2, p3⟩ := place_file hj (fun e => hl.trans (hv.one e)) (fun e => hl.trans (hv.cube e)) hv.kind
  rw [p1, p2, p3] at r4
  exact r4

end Cuttlefish
