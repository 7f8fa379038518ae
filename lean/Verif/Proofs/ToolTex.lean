import Verif.Proofs.ToolRun
/-
The texture that a job of the tool leaves behind.
-/
namespace Cuttlefish
open Spec
variable {Img H σ : Type}

theorem store_at_set {α : Type} {s s' : Store α} {m d f : ℕ} {a : α} (h : s.set m d f a = .ok s') :
    (s.at? m d f).isSome = true := by
  unfold Store.set at h
  unfold Store.at?
  split at h
  · simp at h
  rename_i ds h1
  split at h
  · simp at h
  rename_i fs h2
  split at h
  · rename_i hf
    rw [h1, Option.bind_some, h2, Option.bind_some, List.getElem?_eq_getElem hf]
    rfl
  · simp at h

/-- `setImage` touches only the slot it addresses, and if it fails the slot does not become filled. -/
theorem set_slot {L : ImageLib Img} {i : TexImpl Img} {img : Option Img} {mv : Bool}
    {face : Option CubeFace} {d : ℕ} {b : Bool} {t : Tex Img}
    (hr : Tex.setImage L (some i) img mv face 0 d = .ok (b, t)) :
    ∃ im : Store (Option Img), t = some { i with images := im } ∧
      (∀ d' f', (d', some f') ≠ (d, faceIndex i.faces face) → im.at? 0 d' f' = i.images.at? 0 d' f') ∧
      (b = false → ∀ f, i.images.at? 0 d f = some none → im.at? 0 d f = some none) := by
  unfold Tex.setImage at hr
  rw [Res.bind_eq_ok] at hr
  obtain ⟨d', -, hr⟩ := hr
  split at hr
  · simp at hr; exact ⟨i.images, hr.2.symm, fun _ _ _ => rfl, fun _ _ h => h⟩
  rw [Res.bind_eq_ok] at hr
  obtain ⟨w', -, hr⟩ := hr
  rw [Res.bind_eq_ok] at hr
  obtain ⟨h', -, hr⟩ := hr
  split at hr
  · simp at hr; exact ⟨i.images, hr.2.symm, fun _ _ _ => rfl, fun _ _ h => h⟩
  simp only at hr
  split at hr
  · simp at hr; exact ⟨i.images, hr.2.symm, fun _ _ _ => rfl, fun _ _ h => h⟩
  rename_i f hf
  rw [Res.bind_eq_ok] at hr
  obtain ⟨im, him, hr⟩ := hr
  simp only [Res.pure_eq, Res.ok.injEq, Prod.mk.injEq] at hr
  obtain ⟨s', h1, h2, -⟩ := Store.set_ok (a := _) (store_at_set him)
  rw [h1] at him
  simp only [Res.ok.injEq] at him
  subst him
  refine ⟨s', hr.2.symm, ?_, ?_⟩
  · intro d' f' hne
    rw [h2, if_neg]
    rintro ⟨-, rfl, rfl⟩
    exact hne (by rw [hf])
  · intro hb f' hat
    rw [h2]
    split
    · rw [hb] at hr
      simp only [Option.some.injEq]
      rw [← Option.not_isSome_iff_eq_none]
      simp [hr.1]
    · exact hat

/-- The calls that store the images, beginning with number `i`. -/
def putOps (k : ImageType) (i : ℕ) (gs : List (Option Img)) : List (Op Img) :=
  (gs.zipIdx i).map fun g => .setImage g.1 true (toolPlace k g.2).1 (toolPlace k g.2).2.1 (toolPlace k g.2).2.2

/-- The place of image number `i`. -/
def cell (faces : ℕ) (k : ImageType) (i : ℕ) : ℕ × Option ℕ := ((toolPlace k i).2.2, faceIndex faces (toolPlace k i).1)

theorem place_level (k : ImageType) (i : ℕ) : (toolPlace k i).2.1 = 0 := by cases k <;> rfl

/-- Storing several images: which slots are touched, and which stay empty. -/
theorem put_slots {W : World Img} {k : ImageType} : ∀ (gs : List (Option Img)) (n : ℕ) (i : TexImpl Img)
    (outs : List (Out Img)) (t : Tex Img), run W (some i) (putOps k n gs) = .ok (outs, t) →
    ∃ im : Store (Option Img), t = some { i with images := im } ∧ outs.length = gs.length ∧
      (∀ d f, (∀ j < gs.length, (d, some f) ≠ cell i.faces k (n + j)) → im.at? 0 d f = i.images.at? 0 d f) ∧
      ((∀ j < gs.length, ∀ j' < gs.length, cell i.faces k (n + j) = cell i.faces k (n + j') → j = j') →
        ∀ j < gs.length, ∀ d f, cell i.faces k (n + j) = (d, some f) → i.images.at? 0 d f = some none →
          im.at? 0 d f ≠ some none → outs[j]? = some (.bool true))
  | [], n, i, outs, t, h => by
    simp only [putOps, List.zipIdx_nil, List.map_nil, run, Res.ok.injEq, Prod.mk.injEq] at h
    refine ⟨i.images, h.2.symm, by rw [← h.1]; rfl, fun _ _ _ => rfl, fun _ j hj => ?_⟩
    simp at hj
  | g :: gs, n, i, outs, t, h => by
    simp only [putOps, List.zipIdx_cons, List.map_cons, run, Res.bind_eq_ok, call] at h
    obtain ⟨⟨o1, t1⟩, ⟨⟨b, t1'⟩, h1, h2⟩, ⟨o2, t2⟩, h3, h4⟩ := h
    simp only [Res.pure_eq, Res.ok.injEq, Prod.mk.injEq] at h2 h4
    obtain ⟨rfl, rfl⟩ := h2
    obtain ⟨rfl, rfl⟩ := h4
    rw [place_level] at h1
    obtain ⟨im1, rfl, hk1, hb1⟩ := set_slot h1
    obtain ⟨im, e, hl, hk, hb⟩ := put_slots gs (n + 1) { i with images := im1 } o2 t2 h3
    refine ⟨im, e, by simp [hl], ?_, ?_⟩
    · intro d f hne
      rw [hk d f, hk1 d f]
      · exact hne 0 (by simp)
      · intro j hj
        have := hne (j + 1) (by simpa using hj)
        rwa [show n + (j + 1) = n + 1 + j by omega] at this
    · intro hinj j hj d f hc hat hfin
      cases j with
      | zero =>
        simp only [List.getElem?_cons_zero, Option.some.injEq, Out.bool.injEq]
        by_contra hbf
        rw [Bool.not_eq_true] at hbf
        have hd : d = (toolPlace k n).2.2 := by
          have := congrArg Prod.fst hc
          exact this.symm
        subst hd
        have := hb1 hbf f hat
        apply hfin
        rw [hk _ f]
        · exact this
        · intro j hj hcj
          rw [← hc, show n + 1 + j = n + (j + 1) by omega] at hcj
          have := hinj 0 (by simp) (j + 1) (by simpa using hj) hcj
          omega
      | succ j =>
        simp only [List.getElem?_cons_succ]
        have hj' : j < gs.length := by simpa using hj
        rw [show n + (j + 1) = n + 1 + j by omega] at hc
        refine hb ?_ j hj' d f hc ?_ hfin
        · intro a ha b hb' hab
          have := hinj (a + 1) (by simpa using ha) (b + 1) (by simpa using hb')
            (by rw [show n + (a + 1) = n + 1 + a by omega, show n + (b + 1) = n + 1 + b by omega]; exact hab)
          omega
        · show im1.at? 0 d f = _
          rw [hk1 d f, hat]
          intro hcc
          have h0 : cell i.faces k (n + 0) = (d, some f) := hcc.symm
          have hc' : cell i.faces k (n + (j + 1)) = (d, some f) := by
            rw [show n + (j + 1) = n + 1 + j by omega]; exact hc
          have := hinj 0 (by simp) (j + 1) hj (h0.trans hc'.symm)
          omega

theorem toNat_ofIndex (i : ℕ) (h : i < 6) : (CubeFace.ofIndex i).toNat = i := by
  have key : ∀ i < 6, (CubeFace.ofIndex i).toNat = i := by decide
  exact key i h

/-- The places of a job exist in the texture and are distinct. -/
theorem cell_ok {k : ImageType} {n : ℕ} {faces : ℕ} (hf : faces = if k = .Cube ∨ k = .CubeArray then 6 else 1)
    (hone : k = .Image → n = 1) (hcube : k = .Cube → n = 6) (hcubes : k = .CubeArray → 6 ∣ n) :
    (∀ j < n, ∃ d f, cell faces k j = (d, some f) ∧ d < max (layers k n) 1 ∧ f < faces) ∧
    (∀ j < n, ∀ j' < n, cell faces k j = cell faces k j' → j = j') := by
  cases k with
  | Image =>
    have := hone rfl
    subst this
    simp only [reduceCtorEq, or_self, if_false] at hf
    subst hf
    refine ⟨fun j hj => ⟨0, 0, rfl, by simp [layers], by omega⟩, fun j hj j' hj' _ => by omega⟩
  | Array =>
    simp only [reduceCtorEq, or_self, if_false] at hf
    subst hf
    refine ⟨fun j hj => ⟨j, 0, rfl, by simp [layers]; omega, by omega⟩, fun j hj j' hj' h => ?_⟩
    exact congrArg Prod.fst h
  | Cube =>
    have := hcube rfl
    subst this
    simp only [true_or, if_true] at hf
    subst hf
    refine ⟨fun j hj => ⟨0, j, ?_, by simp [layers], by omega⟩, fun j hj j' hj' h => ?_⟩
    · simp [cell, toolPlace, faceIndex, toNat_ofIndex j hj]
    · simpa [cell, toolPlace, faceIndex, toNat_ofIndex j hj, toNat_ofIndex j' hj'] using h
  | CubeArray =>
    have := hcubes rfl
    simp only [or_true, if_true] at hf
    subst hf
    have h6 (j : ℕ) : j % 6 < 6 := Nat.mod_lt _ (by omega)
    refine ⟨fun j hj => ⟨j / 6, j % 6, ?_, by simp only [layers]; omega, h6 j⟩, fun j hj j' hj' h => ?_⟩
    · simp [cell, toolPlace, faceIndex, toNat_ofIndex _ (h6 j)]
    · simp only [cell, toolPlace, faceIndex, toNat_ofIndex _ (h6 _)] at h
      simp only [ne_eq, not_true_eq_false, false_and, if_false, Prod.mk.injEq, Option.some.injEq] at h
      omega

theorem run_none {W : World Img} : ∀ (os : List (Op Img)) (outs : List (Out Img)) (t : Tex Img),
    (∀ o ∈ os, (∃ g mv f m d, o = .setImage g mv f m d) ∨ (∃ f r c, o = .generateMipmaps f r c)) →
    run W none os = .ok (outs, t) → t = none
  | [], outs, t, _, h => by
    simp only [run, Res.ok.injEq, Prod.mk.injEq] at h
    exact h.2.symm
  | o :: os, outs, t, ho, h => by
    simp only [run, Res.bind_eq_ok] at h
    obtain ⟨⟨o1, t1⟩, h1, ⟨o2, t2⟩, h2, h3⟩ := h
    simp only [Res.pure_eq, Res.ok.injEq, Prod.mk.injEq] at h3
    obtain ⟨-, rfl⟩ := h3
    have ht1 : t1 = none := by
      rcases ho o (by simp) with ⟨g, mv, f, m, d, rfl⟩ | ⟨f, r, c, rfl⟩
      · simp only [call, Tex.setImage, Tex.depthAt, Res.ok_bind] at h1
        rw [if_pos (Nat.zero_le _)] at h1
        simp only [Res.pure_eq, Res.ok_bind, Res.ok.injEq, Prod.mk.injEq] at h1
        exact h1.2.symm
      · simp only [call, Tex.generateMipmaps, Res.ok_bind, Res.pure_eq, Res.ok.injEq, Prod.mk.injEq] at h1
        exact h1.2.symm
    subst ht1
    exact run_none os o2 t2 (fun o h => ho o (by simp [h])) h2

theorem complete_at {i : TexImpl Img} (h : Tex.imagesComplete (some i) = true) (d f : ℕ) :
    i.images.at? 0 d f ≠ some none := by
  intro hat
  obtain ⟨ds, fs, h1, h2, h3, -⟩ := Store.mem_of_at? hat
  simp only [Tex.imagesComplete, List.all_eq_true] at h
  have := h ds h1 fs h2 none h3
  simp at this

theorem convert_complete {c : Features} {hw : ℕ} {enc : Encoder Img} {t t' : Tex Img} {f : Format} {ty : TType}
    {q : Quality} {al : Alpha} {m : ColorMask} {th : ℕ} (h : t.convert c hw enc f ty q al m th = .ok (true, t')) :
    t.imagesComplete = true := by
  unfold Tex.convert at h
  split at h
  · simp at h
  · rename_i hc
    by_contra hn
    apply hc
    rw [Bool.not_eq_true] at hn
    rw [hn]
    rfl

/-- Mipmaps are generated as asked for, or were refused and nothing changed; the first level was complete or
is still incomplete. -/
theorem gen_levels {L : ImageLib Img} {i : TexImpl Img} {dim cs w h d} (hI : WInv i dim cs w h d)
    {filter : ResizeFilter} {r : ℕ} {custom : CustomMips Img} {b : Bool} {t : Tex Img}
    (hr : Tex.generateMipmaps L (some i) filter r custom = .ok (b, t)) :
    (t = some i ∧ ((∀ e ∈ custom, e.2.usable = true) → t.imagesComplete = false)) ∨
    ((∀ d f, i.images.at? 0 d f ≠ some none) ∧ ∃ im : Store (Option Img), t = some { i with
      mipLevels := min (max r 1) (maxMipmapLevels dim w h d), images := im }) := by
  unfold Tex.generateMipmaps at hr
  simp only at hr
  split at hr
  · simp at hr
  rename_i l0 hl0
  split at hr
  · rename_i hany
    simp only [Res.ok.injEq, Prod.mk.injEq] at hr
    left
    refine ⟨hr.2.symm, fun _ => ?_⟩
    rw [← hr.2]
    simp only [List.any_eq_true, Option.isNone_iff_eq_none] at hany
    obtain ⟨fs, hfs, g, hg, rfl⟩ := hany
    by_contra hn
    rw [Bool.not_eq_false] at hn
    simp only [Tex.imagesComplete, List.all_eq_true] at hn
    have := hn l0 (List.mem_of_getElem? hl0) fs hfs none hg
    simp at this
  rename_i hany
  split at hr
  · rename_i hc
    simp only [Res.ok.injEq, Prod.mk.injEq] at hr
    left
    refine ⟨hr.2.symm, fun hu => ?_⟩
    simp only [List.any_eq_true] at hc
    obtain ⟨e, he, hc⟩ := hc
    rw [hu e he] at hc
    simp at hc
  · right
    refine ⟨?_, ?_⟩
    · intro d' f' hat
      obtain ⟨ds, fs, -, h2, h3, h4, -⟩ := Store.mem_of_at? hat
      rw [hl0, Option.some.injEq] at h4
      subst h4
      exact hany (by
        simp only [List.any_eq_true, Option.isNone_iff_eq_none]
        exact ⟨fs, h2, none, h3, rfl⟩)
    · obtain ⟨hw, hh, hd⟩ := wAt hI 0
      have h0 : 0 < i.mipLevels := hI.mips.1
      have hmm : maxMipmapLevels i.dimension w h (depthExtent dim d 0) = maxMipmapLevels dim w h d := by
        rw [hI.edim]
        unfold maxMipmapLevels depthExtent
        by_cases h3 : dim = .Dim3D
        · simp only [h3, if_true]; rfl
        · simp only [h3, if_false]
      rw [hw, hh, hd] at hr
      simp only [Res.ok_bind, if_pos h0] at hr
      rw [show extent w 0 = w from rfl, show extent h 0 = h from rfl] at hr
      split at hr
      all_goals
        rw [Res.bind_eq_ok] at hr
        obtain ⟨p, -, hp⟩ := hr
        simp only [Res.pure_eq, Res.ok.injEq, Prod.mk.injEq] at hp
        exact ⟨_, by rw [← hp.2, ← hmm]⟩

/-- What the calls of a job leave behind, if the conversion succeeds. -/
theorem job_texture {W : World Img} {c : Cmd H} {images : List (Option Img)} {custom : CustomMips Img}
    {outs : List (Out Img)} {t : Tex Img} (hn : images.length < 2 ^ 32) (hne : images ≠ [])
    (hsize : W.lib.widthO images.head?.join < 2 ^ 32 ∧ W.lib.heightO images.head?.join < 2 ^ 32)
    (hone : c.imageType = .Image → images.length = 1) (hcube : c.imageType = .Cube → images.length = 6)
    (hcubes : c.imageType = .CubeArray → 6 ∣ images.length)
    (hkind : c.dimension = .Cube ↔ c.imageType = .Cube ∨ c.imageType = .CubeArray)
    (h : run W none (jobOps W.lib c images custom) = .ok (outs ++ [.bool true], t)) :
    (∀ j ≤ images.length, outs[j]? = some (.bool true)) ∧
    t.format = c.format ∧ t.type = c.type ∧ t.alphaType = c.alpha ∧ t.colorMask = c.colorMask ∧
    t.dimension = c.dimension ∧ t.colorSpace = c.textureColorSpace ∧
    t.widthAt 0 = .ok (W.lib.widthO images.head?.join) ∧ t.heightAt 0 = .ok (W.lib.heightO images.head?.join) ∧
    t.depthAt 0 = .ok (max (layers c.imageType images.length) 1) ∧
    ((∀ e ∈ custom, e.2.usable = true) → t.mipLevelCount = min (max c.mipLevels 1)
      (maxMipmapLevels c.dimension (W.lib.widthO images.head?.join) (W.lib.heightO images.head?.join)
        (layers c.imageType images.length))) := by
  obtain ⟨first, rest, rfl⟩ := List.exists_cons_of_ne_nil hne
  rw [jobOps_eq hn hcube hone] at h
  simp only [List.head?_cons, Option.join_some]
  have hdep : toolDepth c.imageType (first :: rest).length = layers c.imageType (first :: rest).length := by
    unfold layers toolDepth
    cases c.imageType <;> simp only [u32, pow32] <;> omega
  rw [hdep] at h
  generalize hN : (first :: rest).length = n at *
  have hwh : W.lib.widthO first < pow32 ∧ W.lib.heightO first < pow32 := by
    simpa using hsize
  have hd : layers c.imageType n < pow32 := by
    unfold layers pow32
    cases c.imageType <;> simp only <;> omega
  generalize W.lib.widthO first = w at *
  generalize W.lib.heightO first = hh at *
  generalize hD : layers c.imageType n = d at *
  rw [List.cons_append, List.cons_append] at h
  simp only [run, call, Res.ok_bind, Res.bind_eq_ok] at h
  obtain ⟨⟨ob, tb⟩, h, h'⟩ := h
  rw [run_append, Res.bind_eq_ok] at h
  obtain ⟨⟨oa, ta⟩, h1, h⟩ := h
  rw [Res.bind_eq_ok] at h
  obtain ⟨⟨oc, tc⟩, h2, h⟩ := h
  simp only [Res.ok.injEq, Prod.mk.injEq] at h
  obtain ⟨rfl, rfl⟩ := h
  simp only [Res.pure_eq, Res.ok.injEq, Prod.mk.injEq] at h'
  obtain ⟨h', rfl⟩ := h'
  simp only [run, call, Res.bind_eq_ok, Res.pure_eq] at h2
  obtain ⟨⟨oc1, tc1⟩, ⟨⟨cv, tc'⟩, h2, h3⟩, ⟨oe, te⟩, h4, h5⟩ := h2
  simp only [Res.ok.injEq, Prod.mk.injEq] at h3 h4 h5
  obtain ⟨rfl, rfl⟩ := h4
  obtain ⟨rfl, rfl⟩ := h3
  obtain ⟨rfl, rfl⟩ := h5
  rw [← List.cons_append] at h'
  obtain ⟨hoo, hcv⟩ := List.append_inj' h' rfl
  clear h'
  simp only [List.cons.injEq, Out.bool.injEq, and_true] at hcv
  subst hcv
  rw [run_append, Res.bind_eq_ok] at h1
  obtain ⟨⟨o1, t1⟩, h1, h6⟩ := h1
  rw [Res.bind_eq_ok] at h6
  obtain ⟨⟨o2, t2⟩, h6, h7⟩ := h6
  simp only [Res.ok.injEq, Prod.mk.injEq] at h7
  obtain ⟨rfl, rfl⟩ := h7
  have hcomp := convert_complete h2
  rcases winv_init (none : Tex Img) (dim := c.dimension) (m := 1) (cs := c.textureColorSpace)
    hwh.1 hwh.2 hd with ⟨i, e, hI, hm, -, -, -, -, him⟩ | ⟨e, -⟩
  · rw [e] at h1 hoo
    dsimp only at h1 hoo
    have hpos := maxMip_pos c.dimension w hh d hI.pw.1 hI.pw.2 hI.ph.1 hI.ph.2 (fun h3 => ⟨hI.pd.2 h3, hI.pd.1⟩)
    have hm1 : i.mipLevels = 1 := by rw [hm]; omega
    obtain ⟨im, rfl, hl, -, hs⟩ := put_slots _ _ _ _ _ h1
    rw [hN] at hl hs
    have hI1 : WInv { i with images := im } c.dimension c.textureColorSpace w hh d :=
      ⟨hI.pw, hI.ph, hI.pd, hI.mips, hI.faces, hI.edim, hI.ecs, hI.ew, hI.eh, hI.ed⟩
    have hfaces : i.faces = if c.imageType = .Cube ∨ c.imageType = .CubeArray then 6 else 1 := by
      rw [hI.faces]
      simp only [hkind]
    obtain ⟨hex, hinj⟩ := cell_ok hfaces hone hcube hcubes
    -- the first level is complete after the images are stored
    have key : (∀ d' f', im.at? 0 d' f' ≠ some none) ∧ ∃ i2, t2 = some i2 ∧
        WInv i2 c.dimension c.textureColorSpace w hh d ∧
        ((∀ e ∈ custom, e.2.usable = true) → i2.mipLevels = min (max c.mipLevels 1) (maxMipmapLevels c.dimension w hh d)) := by
      by_cases hml : 1 < c.mipLevels
      · rw [if_pos hml] at h6
        simp only [run, call, Res.bind_eq_ok, Res.pure_eq] at h6
        obtain ⟨⟨p1, p2⟩, ⟨⟨q1, q2⟩, hg, hq⟩, ⟨p3, p4⟩, hp, hfin⟩ := h6
        simp only [Res.ok.injEq, Prod.mk.injEq] at hq hp hfin
        obtain ⟨-, rfl⟩ := hq
        obtain ⟨-, rfl⟩ := hp
        obtain ⟨-, rfl⟩ := hfin
        rcases gen_levels hI1 hg with ⟨rfl, hu⟩ | ⟨hall, im2, rfl⟩
        · refine ⟨fun d' f' => complete_at hcomp d' f', _, rfl, hI1, fun hu' => ?_⟩
          rw [hu hu'] at hcomp
          simp at hcomp
        · refine ⟨hall, _, rfl, ⟨hI.pw, hI.ph, hI.pd, ⟨by simp only; omega, by simp only; omega⟩, hI.faces,
            hI.edim, hI.ecs, hI.ew, hI.eh, hI.ed⟩, fun _ => rfl⟩
      · rw [if_neg hml] at h6
        simp only [run, Res.ok.injEq, Prod.mk.injEq] at h6
        obtain ⟨-, rfl⟩ := h6
        refine ⟨fun d' f' => complete_at hcomp d' f', _, rfl, hI1, fun _ => ?_⟩
        show i.mipLevels = _
        rw [hm1]
        omega
    obtain ⟨hfull, i2, rfl, hI2, hmips⟩ := key
    obtain ⟨f1, f2, f3, f4, f5, f6, rfl⟩ := convert_weak h2
    have hdone := convert_done h2
    refine ⟨?_, ?_⟩
    · intro j hj
      rw [← hoo]
      cases j with
      | zero => rfl
      | succ j =>
        obtain ⟨d', f', hc, hd', hf'⟩ := hex j hj
        rw [List.getElem?_cons_succ, List.getElem?_append_left (by rw [hl]; exact hj)]
        refine hs (by simpa using hinj) j hj d' f' (by simpa using hc) ?_ (hfull d' f')
        rw [him, hm1]
        rw [hD] at hd'
        simp [Store.at?, hd', hf']
    · have hI3 : WInv { i2 with format := f1, type := f2, alphaType := f3, colorMask := f4, images := f5, textures := f6 } c.dimension c.textureColorSpace w hh d :=
        ⟨hI2.pw, hI2.ph, hI2.pd, hI2.mips, hI2.faces, hI2.edim, hI2.ecs, hI2.ew, hI2.eh, hI2.ed⟩
      obtain ⟨a1, a2, a3⟩ := wAt hI3 0
      have h0 : 0 < i2.mipLevels := hI2.mips.1
      rw [if_pos h0] at a1 a2 a3
      refine ⟨hdone.2.1, hdone.2.2.1, hdone.2.2.2.1, hdone.2.2.2.2.1, hI2.edim, hI2.ecs, a1, a2, ?_, hmips⟩
      rw [a3]
      unfold depthExtent extent
      congr 1
      by_cases h3 : c.dimension = .Dim3D
      · have := hI2.pd.2 h3
        rw [if_pos h3]
        omega
      · rw [if_neg h3]
        split <;> omega
  · exfalso
    rw [e] at h1
    have hops : ∀ o ∈ (((first :: rest).zipIdx 0).map fun g => Op.setImage g.1 true (toolPlace c.imageType g.2).1
        (toolPlace c.imageType g.2).2.1 (toolPlace c.imageType g.2).2.2),
        (∃ g mv f m d, o = .setImage g mv f m d) ∨ (∃ f r c, o = .generateMipmaps f r c) := by
      intro o ho
      obtain ⟨g, -, rfl⟩ := List.mem_map.1 ho
      exact .inl ⟨_, _, _, _, _, rfl⟩
    have e1 := run_none _ _ _ hops h1
    subst e1
    have e2 := run_none _ _ _ (by
      intro o ho
      split at ho
      · simp only [List.mem_singleton] at ho
        exact .inr ⟨_, _, _, ho⟩
      · simp at ho) h6
    subst e2
    simp [Tex.imagesComplete] at hcomp

end Cuttlefish
