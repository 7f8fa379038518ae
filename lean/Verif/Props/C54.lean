import Verif.Proofs.ToolLevels
import Verif.Props.C51
/-
C54: the mip levels in the file that the tool writes, generated ones and custom ones.
-/
namespace Cuttlefish
open Spec
variable {Img H σ : Type}

/-- A run with exit code 0, for the proofs below. -/
theorem wrote_stages (E : ToolEnv Img H σ) (X : Ext) (hX : CodecSizes X) (view : Img → FImg)
    (hL : Lawful E.world.lib) (henc : E.world.enc = fun k a g => encodeImage X k a (view g))
    (hview : ∀ g, (view g).width = E.world.lib.width g ∧ (view g).height = E.world.lib.height g)
    (hclose : ∀ s bytes, E.disk.close s bytes = bytes.length) (hsize : LoadsSmall E)
    (argv : List Str) (s s' : σ)
    (hcount : ∀ c, parseCommandLine E.cmd argv = .ok (some (some c)) → c.images.length < 2 ^ 32)
    (h : toolMain E argv s = .ok (some 0, s')) :
    ∃ c images custom full, Wrote E argv s' c images custom full ∧
      (Containable c images.length (E.world.lib.widthO images.head?.join)
          (E.world.lib.heightO images.head?.join) →
        CustomFor E.world.lib c custom images.length → GoodCustom E.world.lib c.mipFilter custom →
        ∃ t0 t t', Stages E.world c images custom t0 t t' ∧ Conversion X view E.world t t' c.format c.type ∧
          t.mipLevelCount = fileLevels c images.length (E.world.lib.widthO images.head?.join)
            (E.world.lib.heightO images.head?.join) ∧ t.dimension = c.dimension ∧
          (∀ m < t.mipLevelCount, t.depthAt m = .ok (if c.dimension = .Dim3D then
            extent (max (layers c.imageType images.length) 1) m else max (layers c.imageType images.length) 1)) ∧
          ∀ face m d g, t.getImage face m d = .ok (some g) →
            Found E X view c full m (if c.dimension = .Dim3D then 0 else d) (faceNumber face)
              (if c.dimension = .Dim3D then d else 0) g) := by
  have ho := C43_outcome_partial E argv s s' (some 0) hclose hsize hcount h
  generalize hcode : some 0 = code at ho
  cases ho with
  | exception => simp at hcode
  | usage => simp at hcode
  | notLoaded => simp at hcode
  | notConverted => simp at hcode
  | written c images custom outs t out ok s'' h1 h2 h3 h4 h5 =>
    cases ok with
    | false => simp at hcode
    | true =>
      have hl := loadImages_length h2
      dsimp only at hl
      have key : ∀ s0, Written E.disk t c.fileType out s0 true s' →
          ∃ full s1, FullFile t c.fileType full ∧ s' = E.disk.write s1 out full := by
        intro s0 hw
        cases hw with
        | complete full h1 h2 => exact ⟨full, s0, h2, rfl⟩
      obtain ⟨full, s1, hf, hs⟩ : ∃ full s1, FullFile t c.fileType full ∧ s' = E.disk.write s1 out full := by
        cases h5 with
        | first hw => exact key s (by assumption)
        | again s1 s2 => exact key s2 (by assumption)
      refine ⟨c, images, custom, full, ⟨h1, h2, hl, out, s1, h4, hs⟩, ?_⟩
      intro hcon hcus hgood
      have hv := C33_job _ _ _ h1
      obtain ⟨t0, t1, S, hC, hlev, hdim, hr⟩ := job_reads hX hL henc hview hv hl (hcount c h1)
        (loadImages_size hsize h2) hcus hcon h3 hf
      have hne : images ≠ [] := by
        intro he
        rw [he] at hl
        exact hv.images (List.length_eq_zero_iff.1 hl.symm)
      obtain ⟨-, -, -, -, -, -, -, -, -, hdep, hm⟩ := job_texture (by rw [hl]; exact hcount c h1) hne
        (loadImages_size hsize h2) (fun e => hl.trans (hv.one e)) (fun e => hl.trans (hv.cube e))
        (fun e => hl ▸ hv.cubes e) hv.kind h3
      refine ⟨t0, t1, t, S, hC, hlev.symm.trans (hm ?_), hdim, ?_, ?_⟩
      · intro e he
        obtain ⟨g, hg⟩ := hgood.ptr e he
        unfold CustomMip.usable
        rw [hg]
      · rw [(hC.effect.2.2.2 0).2.2] at hdep
        cases ht : t1 with
        | none =>
          rw [ht] at hdep
          simp only [Tex.depthAt, Res.ok.injEq] at hdep
          omega
        | some i =>
          have hI := hist_inv hL S.hist ht
          rw [ht] at hdep hdim
          have hdim : i.dimension = c.dimension := hdim
          rw [depthAt_eq hI, if_pos (show 0 < i.mipLevels from hI.mips.1)] at hdep
          simp only [Res.ok.injEq] at hdep
          intro m hm
          rw [depthAt_eq hI, if_pos (show m < i.mipLevels from hm)]
          congr 1
          by_cases h3 : c.dimension = .Dim3D
          · rw [if_pos h3, ← hdep]
            unfold depthExtent
            rw [hdim, if_pos h3, if_pos h3]
            rfl
          · rw [if_neg h3, ← hdep, depthExtent_flat (by rw [hdim]; exact h3), depthExtent_flat (by rw [hdim]; exact h3)]
      · intro face m d g hg
        obtain ⟨bytes, k, -, r1, r2, r3⟩ := hr face m d g hg
        exact ⟨k, bytes, r1, r2, r3⟩

/-- The number of slices of a job. -/
theorem slices_eq {c : Cmd H} {n : ℕ} (h3 : c.dimension = .Dim3D) (hn : 0 < n) (hone : c.imageType = .Image → n = 1)
    (hkind : c.dimension = .Cube ↔ c.imageType = .Cube ∨ c.imageType = .CubeArray) :
    max (layers c.imageType n) 1 = n := by
  unfold layers
  cases hk : c.imageType with
  | Image => rw [hone hk]; rfl
  | Array => simp only; omega
  | Cube => rw [hkind.2 (.inl hk)] at h3; simp at h3
  | CubeArray => rw [hkind.2 (.inr hk)] at h3; simp at h3

/-- The layer of an input image exists. -/
theorem place_layer {feat : Features} {c : Cmd H} {n j : ℕ} (hj : j < n) (hc : n = c.images.length)
    (hv : ValidJob feat c) : (toolPlace c.imageType j).2.2 < max (layers c.imageType n) 1 := by
  unfold layers toolPlace
  cases hk : c.imageType with
  | Image => simp
  | Array => simp; omega
  | Cube => simp
  | CubeArray =>
    obtain ⟨z, hz⟩ := hv.cubes hk
    simp only
    omega

/-- Exit code 0, and the texture has no slices: a reader of the file finds, at every mip level of every input image,
the encoding of that level of the chain (Verif/Spec/MipChain.lean) that starts from the input image and uses the
custom images given for its face and layer.  For all command lines, results of loading images, sizes, encoders and
file systems.

Partial: as in C51 the texture must be one that the containers can hold; the custom images must be usable; and no
other face or layer may have a custom image with `once` on the last level (`C54_fails_once`). -/
theorem C54_levels_partial (E : ToolEnv Img H σ) (X : Ext) (hX : CodecSizes X) (view : Img → FImg)
    (hL : Lawful E.world.lib) (henc : E.world.enc = fun k a g => encodeImage X k a (view g))
    (hview : ∀ g, (view g).width = E.world.lib.width g ∧ (view g).height = E.world.lib.height g)
    (hclose : ∀ s bytes, E.disk.close s bytes = bytes.length) (hsize : LoadsSmall E)
    (argv : List Str) (s s' : σ)
    (hcount : ∀ c, parseCommandLine E.cmd argv = .ok (some (some c)) → c.images.length < 2 ^ 32)
    (h : toolMain E argv s = .ok (some 0, s')) :
    ∃ c images custom full, Wrote E argv s' c images custom full ∧
      ∀ w h, w = E.world.lib.widthO images.head?.join → h = E.world.lib.heightO images.head?.join →
      Containable c images.length w h → c.dimension ≠ .Dim3D → GoodCustom E.world.lib c.mipFilter custom →
      ∀ j < images.length, ∀ cf, cf = CubeFace.ofIndex (faceOf c j) →
        NoOnceAtEnd custom (fileLevels c images.length w h) cf (layerOf c j) →
        ∃ g r, images[j]? = some (some g) ∧ represent E.world.lib c.textureColorSpace g true = some r ∧
        ∀ m < fileLevels c images.length w h, ∃ img,
          (chain E.world.lib c.mipFilter w h (fun m => CustomMips.find custom ⟨cf, m, layerOf c j⟩) r m).1 = some img ∧
          Found E X view c full m (layerOf c j) (faceOf c j) 0 img := by
  obtain ⟨c, images, custom, full, hW, hall⟩ := wrote_stages E X hX view hL henc hview hclose hsize argv s s' hcount h
  refine ⟨c, images, custom, full, hW, ?_⟩
  rintro w h rfl rfl hcon h3 hgood j hj cf rfl hlast
  obtain ⟨t0, t, t', S, hC, hlev, hdim, hdm, hr⟩ := hall hcon (fun e => absurd e h3) hgood
  have hv := C33_job _ _ _ hW.parsed
  have hcube := fun e => hW.count.trans (hv.cube e)
  obtain ⟨g, r, i1, i2, i3, -⟩ := S.first j hj
  refine ⟨g, r, i1, i2, ?_⟩
  intro m hm
  obtain ⟨p1, p2, p3⟩ := place_file hj (fun e => hW.count.trans (hv.one e)) hcube hv.kind
  have hp := place_addressed hj hcube hv.kind
  rw [if_neg h3] at p1 p3
  rw [← hlev] at hlast hm
  rw [← p1] at hlast ⊢
  have hch := stage_chain hL S hgood h3 hp i3 hlast hm
  have hlay := place_layer hj hW.count hv
  obtain ⟨img, himg⟩ := stage_present hC hm (hdm m hm) (by rw [if_neg h3]; exact hlay) (by rw [hdim, hp]; rfl)
  refine ⟨img, ?_, ?_⟩
  · rw [hch] at himg
    simpa using himg
  · have := hr _ _ _ _ himg
    rw [if_neg h3, if_neg h3, p2] at this
    exact this

/-- Exit code 0, and the texture has slices: a reader of the file finds, at every slice of every mip level, the
encoding of that slice of the chain (`Spec.chain3d`) that starts from the input images and uses the custom images.

Partial: as in C51; the custom images must be usable and complete for every level. -/
theorem C54_volume_partial (E : ToolEnv Img H σ) (X : Ext) (hX : CodecSizes X) (view : Img → FImg)
    (hL : Lawful E.world.lib) (henc : E.world.enc = fun k a g => encodeImage X k a (view g))
    (hview : ∀ g, (view g).width = E.world.lib.width g ∧ (view g).height = E.world.lib.height g)
    (hclose : ∀ s bytes, E.disk.close s bytes = bytes.length) (hsize : LoadsSmall E)
    (argv : List Str) (s s' : σ)
    (hcount : ∀ c, parseCommandLine E.cmd argv = .ok (some (some c)) → c.images.length < 2 ^ 32)
    (h : toolMain E argv s = .ok (some 0, s')) :
    ∃ c images custom full, Wrote E argv s' c images custom full ∧
      ∀ w h, w = E.world.lib.widthO images.head?.join → h = E.world.lib.heightO images.head?.join →
      Containable c images.length w h → c.dimension = .Dim3D → CustomFor E.world.lib c custom images.length →
      ∃ base : List Img, base.length = images.length ∧
        (∀ j < images.length, ∃ g, images[j]? = some (some g) ∧
          represent E.world.lib c.textureColorSpace g true = base[j]?) ∧
        ∀ m < fileLevels c images.length w h, ∀ k < extent images.length m, ∃ img,
          (chain3d E.world.lib c.mipFilter c.textureColorSpace w h images.length (CustomMips.find custom) base
            m).1[k]? = some (some img) ∧
          Found E X view c full m 0 0 k img := by
  obtain ⟨c, images, custom, full, hW, hall⟩ := wrote_stages E X hX view hL henc hview hclose hsize argv s s' hcount h
  refine ⟨c, images, custom, full, hW, ?_⟩
  rintro w h rfl rfl hcon h3 hcus
  obtain ⟨t0, t, t', S, hC, hlev, hdim, hdm, hr⟩ := hall hcon hcus (hcus h3).1
  have hv := C33_job _ _ _ hW.parsed
  have hpos : 0 < images.length := by
    rw [hW.count]
    exact List.length_pos_iff.2 hv.images
  have hsl := slices_eq h3 hpos (fun e => hW.count.trans (hv.one e)) hv.kind
  have hplace : ∀ j < images.length, (toolPlace c.imageType j).1 = none ∧ (toolPlace c.imageType j).2.2 = j := by
    intro j hj
    cases hk : c.imageType with
    | Image =>
      have := hW.count.trans (hv.one hk)
      exact ⟨rfl, by show 0 = j; omega⟩
    | Array => exact ⟨rfl, rfl⟩
    | Cube => rw [hv.kind.2 (.inl hk)] at h3; simp at h3
    | CubeArray => rw [hv.kind.2 (.inr hk)] at h3; simp at h3
  have hf : ∀ j < images.length, ∃ r g, images[j]? = some (some g) ∧
      represent E.world.lib c.textureColorSpace g true = some r ∧ t0.getImage none 0 j = .ok (some r) := by
    intro j hj
    obtain ⟨g, r, i1, i2, i3, -⟩ := S.first j hj
    rw [(hplace j hj).1, (hplace j hj).2] at i3
    exact ⟨r, g, i1, i2, i3⟩
  choose f hf using hf
  refine ⟨List.ofFn fun k : Fin images.length => f k.1 k.2, by simp, ?_, ?_⟩
  · intro j hj
    obtain ⟨g, i1, i2, -⟩ := hf j hj
    exact ⟨g, i1, by rw [i2]; simp [List.getElem?_ofFn, hj]⟩
  · intro m hm k hk
    rw [← hlev] at hm
    have hch := stage_volume hL S h3 (by rw [hsl]; exact hcus) (base := List.ofFn fun k : Fin images.length => f k.1 k.2)
      (by simp [hsl]) (by
        intro j hj
        simp only [List.length_ofFn] at hj
        obtain ⟨g, -, -, i3⟩ := hf j hj
        rw [i3]
        simp [List.getElem?_ofFn, hj]) hm k
    obtain ⟨img, himg⟩ := stage_present hC (face := none) hm (hdm m hm)
      (by rw [if_pos h3, hsl]; exact hk) (by rw [hdim, h3]; rfl)
    refine ⟨img, ?_, ?_⟩
    · rw [himg, hsl] at hch
      simp only [Res.ok.injEq] at hch
      exact Option.join_eq_some_iff.1 hch.symm
    · have := hr _ _ _ _ himg
      rw [if_pos h3, if_pos h3] at this
      exact this

/-- Exit code 0: every custom image of the command line is found in the file, at its own level, layer or slice and
face, resized to the size of the level.

Partial: as above; and a custom image for a layer that does not exist is dropped (`C54_fails_layer`). -/
theorem C54_custom_partial (E : ToolEnv Img H σ) (X : Ext) (hX : CodecSizes X) (view : Img → FImg)
    (hL : Lawful E.world.lib) (henc : E.world.enc = fun k a g => encodeImage X k a (view g))
    (hview : ∀ g, (view g).width = E.world.lib.width g ∧ (view g).height = E.world.lib.height g)
    (hclose : ∀ s bytes, E.disk.close s bytes = bytes.length) (hsize : LoadsSmall E) (hsized : LoadsSized E)
    (argv : List Str) (s s' : σ)
    (hcount : ∀ c, parseCommandLine E.cmd argv = .ok (some (some c)) → c.images.length < 2 ^ 32)
    (h : toolMain E argv s = .ok (some 0, s')) :
    ∃ c images custom full, Wrote E argv s' c images custom full ∧
      ∀ w h, w = E.world.lib.widthO images.head?.join → h = E.world.lib.heightO images.head?.join →
      Containable c images.length w h → CustomFor E.world.lib c custom images.length →
      GoodCustom E.world.lib c.mipFilter custom →
      ∀ e ∈ c.customMips, e.1.depth < mipDepth c e.1.mipLevel →
        ∃ g w' h' w'' h'' img, E.load c e.2.1 w' h' e.1.mipLevel = .ok (some (g, w'', h'')) ∧
          fit E.world.lib c.mipFilter ⟨some g, e.2.2⟩ (extent w e.1.mipLevel) (extent h e.1.mipLevel) = some img ∧
          Found E X view c full e.1.mipLevel (if c.dimension = .Dim3D then 0 else e.1.depth) e.1.cubeFace.toNat
            (if c.dimension = .Dim3D then e.1.depth else 0) img := by
  obtain ⟨c, images, custom, full, hW, hall⟩ := wrote_stages E X hX view hL henc hview hclose hsize argv s s' hcount h
  refine ⟨c, images, custom, full, hW, ?_⟩
  rintro w h rfl rfl hcon hcus hgood e he hdepth
  obtain ⟨t0, t, t', S, hC, hlev, hdim, hdm, hr⟩ := hall hcon hcus hgood
  have hv := C33_job _ _ _ hW.parsed
  obtain ⟨hnd, hin⟩ := C33_custom_partial _ _ _ hW.parsed
  obtain ⟨-, hl1, -⟩ := hin e he
  have hpos : 0 < images.length := by
    rw [hW.count]
    exact List.length_pos_iff.2 hv.images
  -- what was loaded
  obtain ⟨hkeys, hlevel, hface, g, w', h', w'', h'', hload, hmem⟩ : custom.map (·.1) = c.customMips.map (·.1) ∧
      e.1.mipLevel < t.mipLevelCount ∧ (e.1.cubeFace ≠ .PosX → c.dimension = .Cube) ∧
      ∃ g w h w' h', E.load c e.2.1 w h e.1.mipLevel = .ok (some (g, w', h')) ∧
        (e.1, (⟨some g, e.2.2⟩ : CustomMip Img)) ∈ custom := by
    have hld := hW.loaded
    unfold loadImages at hld
    rw [Res.bind_eq_ok] at hld
    obtain ⟨o, ho, hld⟩ := hld
    cases o with
    | none => simp at hld
    | some o =>
      simp only [Res.bind_eq_ok] at hld
      obtain ⟨q, hq, hld⟩ := hld
      cases q with
      | none => simp at hld
      | some q =>
        simp only [Res.ok.injEq, Option.some.injEq, Prod.mk.injEq] at hld
        obtain ⟨rfl, rfl⟩ := hld
        obtain ⟨k1, k2⟩ := loadCustom_loads hq
        obtain ⟨a1, a2, a3⟩ := k2 e he
        refine ⟨k1, ?_, a2, a3⟩
        obtain ⟨g, z1, z2, z3⟩ := loadMain_size hsized hv.images ho
        rw [List.getLast?_eq_getElem?] at z1
        obtain ⟨y1, y2⟩ := stage_sizes hL S z1
        rw [← z2, ← z3, y1, y2] at a1
        rw [hlev]
        unfold fileLevels
        have hp : 0 < fileLevels c o.1.length (E.world.lib.widthO o.1.head?.join) (E.world.lib.heightO o.1.head?.join) := by
          rw [← hlev, ← hC.effect.2.2.1]
          obtain ⟨_, _, _, L, hS⟩ := hC.shaped
          rw [hS.levels]
          exact hS.levelsPos
        unfold fileLevels at hp
        generalize E.world.lib.widthO o.1.head?.join = a at *
        generalize E.world.lib.heightO o.1.head?.join = b at *
        by_cases h3 : c.dimension = .Dim3D
        · have hu : u32 o.1.length = o.1.length := by
            unfold u32 pow32
            have := hcount c hW.parsed
            have := hW.count
            omega
          rw [hu] at a1
          cases hk : c.imageType with
          | Image =>
            rw [hW.count.trans (hv.one hk)] at a1
            rw [hk] at hp
            unfold maxMipmapLevels at a1 hp ⊢
            simp only [if_pos h3, layers] at a1 hp ⊢
            have e1 : 32 - clz 1 = 1 := by decide
            have e0 : 32 - clz 0 = 0 := by decide
            rw [e1] at a1
            rw [e0] at hp ⊢
            omega
          | Array =>
            rw [show layers ImageType.Array o.1.length = o.1.length from rfl]
            omega
          | Cube => rw [hv.kind.2 (.inl hk)] at h3; simp at h3
          | CubeArray => rw [hv.kind.2 (.inr hk)] at h3; simp at h3
        · unfold maxMipmapLevels at a1 ⊢
          simp only [if_neg h3] at a1 ⊢
          omega
  have hfind : CustomMips.find custom e.1 = some ⟨some g, e.2.2⟩ := find_own (by rw [hkeys]; exact hnd) hmem
  obtain ⟨face, hfa, hfn⟩ : ∃ face, addressed c.dimension face = some e.1.cubeFace ∧
      faceNumber face = e.1.cubeFace.toNat := by
    refine ⟨some e.1.cubeFace, ?_, rfl⟩
    show (if c.dimension = .Cube ∨ e.1.cubeFace = .PosX then some e.1.cubeFace else none) = some e.1.cubeFace
    rw [if_pos]
    by_cases hp : e.1.cubeFace = .PosX
    · exact .inr hp
    · exact .inl (hface hp)
  by_cases h3 : c.dimension = .Dim3D
  · have hsl := slices_eq h3 hpos (fun e => hW.count.trans (hv.one e)) hv.kind
    have hp : e.1.cubeFace = .PosX := by
      by_contra hp
      have := hface hp
      rw [h3] at this
      simp at this
    have hd : e.1.depth < extent images.length e.1.mipLevel := by
      unfold mipDepth at hdepth
      rw [h3, ← hW.count] at hdepth
      rw [extent_eq_max _ _ hpos, Nat.shiftRight_eq_div_pow]
      exact hdepth
    have hat : t.getImage none e.1.mipLevel e.1.depth = _ := stage_slice hL S h3 (by rw [hsl]; exact hcus) hl1 hlevel
      (by rw [hsl]; exact hd) (e := ⟨some g, e.2.2⟩) (by rw [← hp]; exact hfind)
    obtain ⟨img, himg⟩ := stage_present hC (face := none) hlevel (hdm _ hlevel)
      (by rw [if_pos h3, hsl]; exact hd) (by rw [hdim, h3]; rfl)
    refine ⟨g, w', h', w'', h'', img, hload, ?_, ?_⟩
    · rw [himg] at hat
      simpa using hat.symm
    · have := hr _ _ _ _ himg
      rw [hp]
      exact this
  · have hd : e.1.depth < max (layers c.imageType images.length) 1 := by
      unfold mipDepth at hdepth
      rw [← hW.count] at hdepth
      unfold layers
      split at hdepth
      · exact absurd (by assumption) h3
      · rename_i hcd
        rcases hv.kind.1 hcd with hk | hk
        · rw [hk]
          have := hW.count.trans (hv.cube hk)
          simp only
          omega
        · rw [hk]
          simp only
          omega
      · rename_i hnc
        cases hk : c.imageType with
        | Image =>
          have := hW.count.trans (hv.one hk)
          simp only
          omega
        | Array => simp only; omega
        | Cube => exact absurd (hv.kind.2 (.inl hk)) hnc
        | CubeArray => exact absurd (hv.kind.2 (.inr hk)) hnc
    have hat : t.getImage face e.1.mipLevel e.1.depth = _ := stage_custom hL S hgood h3 hfa hd hl1 hlevel hfind
    obtain ⟨img, himg⟩ := stage_present hC (face := face) hlevel (hdm _ hlevel)
      (by rw [if_neg h3]; exact hd) (by rw [hdim, hfa]; rfl)
    refine ⟨g, w', h', w'', h'', img, hload, ?_, ?_⟩
    · rw [himg] at hat
      simpa using hat.symm
    · have := hr _ _ _ _ himg
      rw [hfn] at this
      exact this

/-- In the small world loading reports the size of the input images. -/
example (dev : Device) : LoadsSized (Toy.names dev) := by
  intro c p w h g w' h' hl
  simp only [Toy.names, Res.ok.injEq, Option.some.injEq, Prod.mk.injEq] at hl
  obtain ⟨rfl, rfl, rfl⟩ := hl
  exact ⟨rfl, rfl⟩

/-- A custom image for face +y of layer 1 meets the conditions for every face and layer. -/
example : let custom : CustomMips Toy.Img := [(⟨.PosY, 1, 1⟩, ⟨some (some ⟨1, 1, true, .Linear, [122]⟩), .Continue⟩)]
    GoodCustom Toy.lib .CatmullRom custom ∧ (∀ cf d, NoOnceAtEnd custom 2 cf d) ∧
    fileLevels { Toy.cubes with mipLevels := 7 } 12 2 1 = 2 ∧ 1 < mipDepth { Toy.cubes with images := List.replicate 12 [] } 1 := by
  refine ⟨?_, ?_, by decide +kernel, by decide +kernel⟩
  · intro e he w h hw hh
    simp only [List.mem_singleton] at he
    subst he
    have h1 : (Toy.lib.resize ⟨1, 1, true, .Linear, [122]⟩ w h .CatmullRom).isSome = true :=
      Toy.lawful.resize_total _ _ _ _ rfl hw hh
    obtain ⟨r, hr⟩ := Option.isSome_iff_exists.1 h1
    have h2 := (Toy.lawful.resize _ _ _ _ _ hr).2.2
    unfold fit
    simp only [Option.join_some, Option.bind_some, hr]
    rw [if_pos (by rw [h2]; rfl)]
    rfl
  · intro cf d cf' d' c _ hc
    unfold CustomMips.find at hc
    simp only [List.find?_cons, List.find?_nil] at hc
    split at hc
    · simp only [Option.map_some, Option.some.injEq] at hc
      rw [← hc]
      simp
    · simp at hc

/-- The levels of an array of two cubes with a custom image for face +y of layer 1: it is there, and the neighbours
are generated from their own images. -/
example : let file := Toy.written (toolMain (Toy.names Device.perfect) [cstr "cuttlefish", cstr "-I",
      cstr "cube-array", cstr "l", cstr "-f", cstr "R8", cstr "-m", cstr "-M", cstr "1", cstr "1", cstr "+y", cstr "z",
      cstr "-o", cstr "a.pvr"] ⟨[[]], []⟩)
    inFile .PVR file 0 1 2 0 = some [105, 105] ∧ inFile .PVR file 1 1 1 0 = some [104] ∧
    inFile .PVR file 1 1 2 0 = some [122] ∧ inFile .PVR file 1 1 3 0 = some [106] := by
  decide +kernel

/-- The full claim is false: a custom image for layer 2 of an array of two cubes is accepted and dropped. -/
theorem C54_fails_layer : ∃ file, toolMain (Toy.names Device.perfect) [cstr "cuttlefish", cstr "-I",
      cstr "cube-array", cstr "l", cstr "-f", cstr "R8", cstr "-m", cstr "-M", cstr "1", cstr "2", cstr "+y", cstr "z",
      cstr "-o", cstr "a.pvr"] ⟨[[]], []⟩ = .ok (some 0, ⟨[[]], [(cstr "a.pvr", file)]⟩) ∧
    (∀ f : Fin 6, inFile .PVR file 1 2 f 0 = none) ∧
    ∀ (l : Fin 2) (f : Fin 6), inFile .PVR file 1 l f 0 = some [UInt8.ofNat (97 + 6 * l + f)] := by
  have h : (match toolMain (Toy.names Device.perfect) [cstr "cuttlefish", cstr "-I",
      cstr "cube-array", cstr "l", cstr "-f", cstr "R8", cstr "-m", cstr "-M", cstr "1", cstr "2", cstr "+y", cstr "z",
      cstr "-o", cstr "a.pvr"] ⟨[[]], []⟩ with
      | .ok (some 0, ⟨d, [(n, file)]⟩) => decide (d = [[]] ∧ n = cstr "a.pvr" ∧
        (∀ f : Fin 6, inFile .PVR file 1 2 f 0 = none) ∧
        ∀ (l : Fin 2) (f : Fin 6), inFile .PVR file 1 l f 0 = some [UInt8.ofNat (97 + 6 * l + f)])
      | _ => false) = true := by decide +kernel
  split at h
  · rename_i d n file hr
    simp only [decide_eq_true_eq] at h
    obtain ⟨rfl, rfl, h2⟩ := h
    exact ⟨file, hr, h2⟩
  · simp at h

/-- The full claim is false: after a custom image with `once` on the last level of face +x, the last level of face
-x is generated from the image of face +x (97) instead of its own (98). -/
theorem C54_fails_once : ∃ file, toolMain (Toy.names Device.perfect) [cstr "cuttlefish", cstr "-I",
      cstr "cube-array", cstr "l", cstr "-f", cstr "R8", cstr "-m", cstr "-M", cstr "1", cstr "0", cstr "+x", cstr "once",
      cstr "z", cstr "-o", cstr "a.pvr"] ⟨[[]], []⟩ = .ok (some 0, ⟨[[]], [(cstr "a.pvr", file)]⟩) ∧
    inFile .PVR file 0 0 1 0 = some [98, 98] ∧ inFile .PVR file 1 0 1 0 = some [97] := by
  have h : (match toolMain (Toy.names Device.perfect) [cstr "cuttlefish", cstr "-I",
      cstr "cube-array", cstr "l", cstr "-f", cstr "R8", cstr "-m", cstr "-M", cstr "1", cstr "0", cstr "+x", cstr "once",
      cstr "z", cstr "-o", cstr "a.pvr"] ⟨[[]], []⟩ with
      | .ok (some 0, ⟨d, [(n, file)]⟩) => decide (d = [[]] ∧ n = cstr "a.pvr" ∧
        inFile .PVR file 0 0 1 0 = some [98, 98] ∧ inFile .PVR file 1 0 1 0 = some [97])
      | _ => false) = true := by decide +kernel
  split at h
  · rename_i d n file hr
    simp only [decide_eq_true_eq] at h
    obtain ⟨rfl, rfl, h2⟩ := h
    exact ⟨file, hr, h2⟩
  · simp at h

end Cuttlefish
