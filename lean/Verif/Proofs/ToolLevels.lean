import Verif.Proofs.ToolFile
import Verif.Props.C12
/-
The mip levels of the texture of a job, and the custom images among them.
-/
namespace Cuttlefish
open Spec
variable {Img H σ : Type}

/-- A state that calls lead to, with its invariant. -/
theorem hist_inv {W : World Img} (hL : Lawful W.lib) {t : Tex Img} (hi : ∃ calls o, SafeHist W none calls ∧
    run W none calls = .ok (o, t)) {i : TexImpl Img} (ht : t = some i) : Inv W.lib i := by
  obtain ⟨calls, o, hs, hr⟩ := hi
  obtain ⟨outs', t0, h1, hI⟩ := tinv_run hL calls (t := none) trivial hs
  rw [hr] at h1
  simp only [Res.ok.injEq, Prod.mk.injEq] at h1
  obtain ⟨-, rfl⟩ := h1
  rw [ht] at hI
  exact hI

/-- Every place of a job that exists holds an image before the conversion. -/
theorem stage_present {X : Ext} {view : Img → FImg} {W : World Img} {t t' : Tex Img} {f : Format} {ty : TType}
    (hC : Conversion X view W t t' f ty) {face : Option CubeFace} {m d k : ℕ} (hm : m < t.mipLevelCount)
    (hk : t.depthAt m = .ok k) (hd : d < k) (hf : (addressed t.dimension face).isSome = true) :
    ∃ g, t.getImage face m d = .ok (some g) := by
  obtain ⟨calls, outs, hs, hr⟩ := hC.hist
  obtain ⟨-, hall⟩ := C08_complete_implies_present W hC.lawful calls hs outs t hr hC.complete
  exact hall face m d k hk hm hd hf

/-- Generating mipmaps succeeds in a job. -/
theorem stage_generated {W : World Img} (hL : Lawful W.lib) {c : Cmd H} {images : List (Option Img)}
    {custom : CustomMips Img} {t0 t t' : Tex Img} (S : Stages W c images custom t0 t t')
    (hgood : GoodCustom W.lib c.mipFilter custom) (hcust : CustomFor W.lib c custom (max (layers c.imageType images.length) 1))
    (hm : 1 < c.mipLevels) : t0.generateMipmaps W.lib c.mipFilter c.mipLevels custom = .ok (true, t) := by
  obtain ⟨b, hb⟩ := S.mips hm
  cases ht : t0 with
  | none => have := S.base; rw [ht] at this; simp [BasePresent] at this
  | some i =>
    have hI := hist_inv hL S.hist0 ht
    have hbase := S.base
    rw [ht] at hb hbase
    have hbok := (basePresent_iff hI).1 hbase
    by_cases h3 : i.dimension = .Dim3D
    · obtain ⟨base, b1, b2, b3⟩ := base3d hI hbok h3
      obtain ⟨ok, im, g1, -, -, g4, -⟩ := gen_3d hL hI (r := c.mipLevels) hgood hbok h3 b1 b2 b3
      have hdim : c.dimension = .Dim3D := by
        have := S.dim
        rw [ht] at this
        exact this.symm.trans h3
      have hd := S.depth
      rw [ht, depthAt_eq hI, if_pos (show 0 < i.mipLevels from hI.mips.1)] at hd
      simp only [Res.ok.injEq] at hd
      have hdep : depthExtent i.dimension i.depth 0 = i.depth := by
        unfold depthExtent; rw [if_pos h3]; rfl
      rw [hdep] at hd
      have : ok = true := g4.2 fun m h1 _ => by rw [hd]; exact (hcust hdim).2 m h1
      rw [g1] at hb
      simp only [Res.ok.injEq, Prod.mk.injEq] at hb
      rw [g1, this, hb.2]
    · obtain ⟨im, g1, -⟩ := gen_flat hL hI (r := c.mipLevels) hgood hbok h3
      rw [g1] at hb
      simp only [Res.ok.injEq, Prod.mk.injEq] at hb
      rw [g1, hb.2]

/-- The place of an input image is a face and layer of the texture. -/
theorem place_addressed {c : Cmd H} {n j : ℕ} (hj : j < n) (hcube : c.imageType = .Cube → n = 6)
    (hkind : c.dimension = .Cube ↔ c.imageType = .Cube ∨ c.imageType = .CubeArray) :
    addressed c.dimension (toolPlace c.imageType j).1 = some (CubeFace.ofIndex (faceOf c j)) := by
  unfold toolPlace addressed faceOf
  cases hk : c.imageType with
  | Image =>
    have : c.dimension ≠ .Cube := fun e => by rw [hkind] at e; simp [hk] at e
    simp [this, CubeFace.ofIndex]
  | Array =>
    have : c.dimension ≠ .Cube := fun e => by rw [hkind] at e; simp [hk] at e
    simp [this, CubeFace.ofIndex]
  | Cube => simp [hkind.2 (.inl hk)]
  | CubeArray => simp [hkind.2 (.inr hk)]

/-- Every level of the chain of an input image of a job without slices. -/
theorem stage_chain {W : World Img} (hL : Lawful W.lib) {c : Cmd H} {images : List (Option Img)}
    {custom : CustomMips Img} {t0 t t' : Tex Img} (S : Stages W c images custom t0 t t')
    (hgood : GoodCustom W.lib c.mipFilter custom) (h3 : c.dimension ≠ .Dim3D) {face : Option CubeFace}
    {cf : CubeFace} (hf : addressed c.dimension face = some cf) {d : ℕ} {r : Img}
    (hr : t0.getImage face 0 d = .ok (some r)) (hlast : NoOnceAtEnd custom t.mipLevelCount cf d)
    {m : ℕ} (hm : m < t.mipLevelCount) :
    t.getImage face m d = .ok (chain W.lib c.mipFilter (W.lib.widthO images.head?.join)
      (W.lib.heightO images.head?.join) (fun m => CustomMips.find custom ⟨cf, m, d⟩) r m).1 := by
  obtain ⟨calls, o, hs, hrun⟩ := S.hist0
  by_cases hml : 1 < c.mipLevels
  · have hgen := stage_generated hL S hgood (fun h => absurd h h3) hml
    exact C12_chain_partial W hL calls hs o t0 hrun (by rw [S.dim]; exact h3) S.plain S.base _ _ custom hgood t hgen _ _
      S.width S.height face cf (by rw [S.dim]; exact hf) d r hr hlast m hm
  · have e := S.one hml
    rw [e, S.single] at hm
    have : m = 0 := by omega
    subst this
    rw [e, hr]
    rfl

/-- A custom image of a job without slices is the image of its level. -/
theorem stage_custom {W : World Img} (hL : Lawful W.lib) {c : Cmd H} {images : List (Option Img)}
    {custom : CustomMips Img} {t0 t t' : Tex Img} (S : Stages W c images custom t0 t t')
    (hgood : GoodCustom W.lib c.mipFilter custom) (h3 : c.dimension ≠ .Dim3D) {face : Option CubeFace}
    {cf : CubeFace} (hf : addressed c.dimension face = some cf) {d m : ℕ} {e : CustomMip Img}
    (hd : d < max (layers c.imageType images.length) 1) (h1 : 1 ≤ m) (hm : m < t.mipLevelCount)
    (he : CustomMips.find custom ⟨cf, m, d⟩ = some e) :
    t.getImage face m d = .ok (fit W.lib c.mipFilter e (extent (W.lib.widthO images.head?.join) m)
      (extent (W.lib.heightO images.head?.join) m)) := by
  by_cases hml : 1 < c.mipLevels
  · have hgen := stage_generated hL S hgood (fun h => absurd h h3) hml
    cases ht : t0 with
    | none => have := S.base; rw [ht] at this; simp [BasePresent] at this
    | some i =>
      have hI := hist_inv hL S.hist0 ht
      have hbase := S.base
      have hw := S.width
      have hh := S.height
      have hdim := S.dim
      have hdep := S.depth
      rw [ht] at hgen hbase hw hh hdim hdep
      have hbok := (basePresent_iff hI).1 hbase
      have hm0 : 0 < i.mipLevels := hI.mips.1
      rw [widthAt_eq hI, if_pos hm0] at hw
      rw [heightAt_eq hI, if_pos hm0] at hh
      rw [depthAt_eq hI, if_pos hm0] at hdep
      simp only [Res.ok.injEq] at hw hh hdep
      have hdim : i.dimension = c.dimension := hdim
      have h3' : i.dimension ≠ .Dim3D := by rw [hdim]; exact h3
      obtain ⟨im, g1, g2, g3, g4⟩ := gen_flat hL hI (r := c.mipLevels) hgood hbok h3'
      rw [g1] at hgen
      simp only [Res.ok.injEq, Prod.mk.injEq, true_and] at hgen
      subst hgen
      have hI' := hist_inv hL S.hist rfl
      have hfi := faceIndex_addressed hI.faces face
      rw [hdim, hf, Option.map_some] at hfi
      have hff := faceIndex_lt hI hfi
      rw [depthExtent_flat h3'] at hdep
      obtain ⟨base, src0, -, -, -, c4⟩ := g4 d cf.toNat (by omega) hff
      have hm : m < genLevels i c.mipLevels := hm
      obtain ⟨g, hg, hres⟩ := getImage_slot hI' (face := face) (m := m) (d := d) (f := cf.toNat)
        ⟨hm, by show d < depthExtent i.dimension i.depth m; rw [depthExtent_flat h3']; omega, hfi⟩
      rw [hres]
      have hg : im.at? m d cf.toNat = some g := hg
      rw [c4 m h1 hm] at hg
      obtain ⟨m, rfl⟩ := Nat.exists_eq_succ_of_ne_zero (by omega : m ≠ 0)
      have hcu : custOf custom d cf.toNat (m + 1) = some e := by
        unfold custOf; rw [ofIndex_toNat]; exact he
      simp only [chainFrom, pick, Nat.succ_eq_add_one] at hg
      rw [hcu] at hg
      simp only [Option.some.injEq] at hg
      rw [← hg, ← hw, ← hh]
      rfl
  · have e := S.one hml
    rw [e, S.single] at hm
    omega

/-- Every level of a job with slices. -/
theorem stage_volume {W : World Img} (hL : Lawful W.lib) {c : Cmd H} {images : List (Option Img)}
    {custom : CustomMips Img} {t0 t t' : Tex Img} (S : Stages W c images custom t0 t t') (h3 : c.dimension = .Dim3D)
    (hcust : CustomFor W.lib c custom (max (layers c.imageType images.length) 1)) {base : List Img}
    (hlen : base.length = max (layers c.imageType images.length) 1)
    (hb : ∀ k < base.length, t0.getImage none 0 k = .ok base[k]?) {m : ℕ} (hm : m < t.mipLevelCount) (k : ℕ) :
    t.getImage none m k = .ok ((chain3d W.lib c.mipFilter c.textureColorSpace (W.lib.widthO images.head?.join)
      (W.lib.heightO images.head?.join) (max (layers c.imageType images.length) 1)
      (CustomMips.find custom) base m).1[k]?).join := by
  obtain ⟨calls, o, hs, hrun⟩ := S.hist0
  have hb' : ∀ k, t0.getImage none 0 k = .ok base[k]? := by
    intro k
    by_cases hk : k < base.length
    · exact hb k hk
    · rw [List.getElem?_eq_none (by omega)]
      cases ht : t0 with
      | none => simp [Tex.getImage, Tex.depthAt]
      | some i =>
        have hI := hist_inv hL S.hist0 ht
        have hdep := S.depth
        rw [ht, depthAt_eq hI, if_pos (show 0 < i.mipLevels from hI.mips.1)] at hdep
        simp only [Res.ok.injEq] at hdep
        exact getImage_noSlot hI (fun f hf => by
          have := hf.2.1
          omega)
  by_cases hml : 1 < c.mipLevels
  · have hgen := stage_generated hL S (hcust h3).1 hcust hml
    have := C12_chain_3d W hL calls hs o t0 hrun (by rw [S.dim]; exact h3) S.plain S.base _ _ custom (hcust h3).1 t hgen _ _ _
      S.width S.height S.depth base hlen hb' m hm k
    rw [S.space] at this
    exact this
  · have e := S.one hml
    rw [e, S.single] at hm
    have : m = 0 := by omega
    subst this
    rw [e, hb']
    simp only [chain3d, List.getElem?_map]
    cases base[k]? <;> rfl

/-- A custom image of a job with slices is the image of its slice. -/
theorem stage_slice {W : World Img} (hL : Lawful W.lib) {c : Cmd H} {images : List (Option Img)}
    {custom : CustomMips Img} {t0 t t' : Tex Img} (S : Stages W c images custom t0 t t') (h3 : c.dimension = .Dim3D)
    (hcust : CustomFor W.lib c custom (max (layers c.imageType images.length) 1)) {m d : ℕ} {e : CustomMip Img}
    (h1 : 1 ≤ m) (hm : m < t.mipLevelCount)
    (hd : d < extent (max (layers c.imageType images.length) 1) m)
    (he : CustomMips.find custom ⟨.PosX, m, d⟩ = some e) :
    t.getImage none m d = .ok (fit W.lib c.mipFilter e (extent (W.lib.widthO images.head?.join) m)
      (extent (W.lib.heightO images.head?.join) m)) := by
  have hbase : ∃ base : List Img, base.length = max (layers c.imageType images.length) 1 ∧
      ∀ k < base.length, t0.getImage none 0 k = .ok base[k]? := by
    generalize hn : max (layers c.imageType images.length) 1 = n
    have hdep := S.depth
    rw [hn] at hdep
    have key : ∀ k < n, ∃ g, t0.getImage none 0 k = .ok (some g) := fun k hk =>
      S.base.2 none k n hdep hk (by rw [S.dim, h3]; rfl)
    choose f hf using key
    refine ⟨List.ofFn fun k : Fin n => f k.1 k.2, by simp, ?_⟩
    intro k hk
    simp only [List.length_ofFn] at hk
    rw [hf k hk]
    simp [List.getElem?_ofFn, hk]
  obtain ⟨base, hlen, hb⟩ := hbase
  rw [stage_volume hL S h3 hcust hlen hb hm d]
  obtain ⟨m, rfl⟩ := Nat.exists_eq_succ_of_ne_zero (by omega : m ≠ 0)
  have hz : ∃ z, CustomMips.find custom ⟨.PosX, m + 1, 0⟩ = some z := by
    rcases (hcust h3).2 (m + 1) (by omega) with hnone | ⟨r, hall⟩
    · rw [hnone d hd] at he
      simp at he
    · obtain ⟨z, hz, -⟩ := hall 0 (lt_of_le_of_lt (Nat.zero_le d) hd)
      exact ⟨z, hz⟩
  obtain ⟨z, hz⟩ := hz
  simp only [chain3d, pick3d, Nat.succ_eq_add_one]
  rw [hz]
  simp only [List.getElem?_map, List.getElem?_range hd, Option.map_some, Option.join_some]
  have he : CustomMips.find custom ⟨.PosX, m + 1, d⟩ = some e := he
  rw [he]
  rfl

/-- What is loaded for the custom images of a job. -/
theorem loadCustom_loads {E : ToolEnv Img H σ} {c : Cmd H} {L : ℕ} : ∀ {es : CustomMipFiles} {w h : ℕ}
    {ms : CustomMips Img}, loadCustom E c L es w h = .ok (some ms) →
    ms.map (·.1) = es.map (·.1) ∧ ∀ e ∈ es, e.1.mipLevel < L ∧ (e.1.cubeFace ≠ .PosX → c.dimension = .Cube) ∧
      ∃ g w h w' h', E.load c e.2.1 w h e.1.mipLevel = .ok (some (g, w', h')) ∧ (e.1, ⟨some g, e.2.2⟩) ∈ ms
  | [], w, h, ms, hr => by
    simp only [loadCustom, Res.ok.injEq, Option.some.injEq] at hr
    rw [← hr]
    simp
  | e :: es, w, h, ms, hr => by
    unfold loadCustom at hr
    split at hr
    · simp at hr
    rename_i h1
    split at hr
    · simp at hr
    rename_i h2
    rw [Res.bind_eq_ok] at hr
    obtain ⟨o, ho, hr⟩ := hr
    cases o with
    | none => simp at hr
    | some o =>
      simp only [Res.bind_eq_ok] at hr
      obtain ⟨q, hq, hr⟩ := hr
      cases q with
      | none => simp at hr
      | some q =>
        simp only [Res.ok.injEq, Option.some.injEq] at hr
        obtain ⟨k1, k2⟩ := loadCustom_loads hq
        subst hr
        refine ⟨by simp [k1], ?_⟩
        intro e' he'
        rcases List.mem_cons.1 he' with rfl | he'
        · refine ⟨by omega, fun hf => ?_, o.1, w, h, o.2.1, o.2.2, ho, by simp⟩
          by_contra hc
          exact h2 ⟨hf, hc⟩
        · obtain ⟨a1, a2, g, w1, h1, w2, h2, a3, a4⟩ := k2 e' he'
          exact ⟨a1, a2, g, w1, h1, w2, h2, a3, by simp [a4]⟩

/-- The size that is reported after loading the images is that of the last one. -/
theorem loadMain_size {E : ToolEnv Img H σ} (hs : LoadsSized E) {c : Cmd H} : ∀ {ps : List Str} {w h : ℕ}
    {r : List (Option Img) × ℕ × ℕ}, ps ≠ [] → loadMain E c ps w h = .ok (some r) →
    ∃ g, r.1.getLast? = some g ∧ E.world.lib.widthO g = r.2.1 ∧ E.world.lib.heightO g = r.2.2
  | [], w, h, r, hne, hr => absurd rfl hne
  | p :: ps, w, h, r, _, hr => by
    simp only [loadMain, Res.bind_eq_ok] at hr
    obtain ⟨o, ho, hr⟩ := hr
    cases o with
    | none => simp at hr
    | some o =>
      simp only [Res.bind_eq_ok] at hr
      obtain ⟨q, hq, hr⟩ := hr
      cases q with
      | none => simp at hr
      | some q =>
        simp only [Res.ok.injEq, Option.some.injEq] at hr
        subst hr
        by_cases hp : ps = []
        · subst hp
          simp only [loadMain, Res.ok.injEq, Option.some.injEq] at hq
          subst hq
          obtain ⟨a1, a2⟩ := hs _ _ _ _ _ _ _ ho
          exact ⟨o.1, rfl, a1, a2⟩
        · obtain ⟨g, k1, k2, k3⟩ := loadMain_size hs hp hq
          refine ⟨g, ?_, k2, k3⟩
          cases hq1 : q.1 with
          | nil => rw [hq1] at k1; simp at k1
          | cons a as => rw [hq1] at k1; simpa using k1

theorem represent_size {L : ImageLib Img} (hL : Lawful L) {cs : ColorSpace} {g r : Img} {mv : Bool}
    (h : represent L cs g mv = some r) : L.width r = L.width g ∧ L.height r = L.height g := by
  unfold represent at h
  rw [Option.map_eq_some_iff] at h
  obtain ⟨x, hx, rfl⟩ := h
  obtain ⟨c1, c2, -, -⟩ := hL.changeColorSpace x cs
  rw [c1, c2]
  split at hx
  · simp only [Option.some.injEq] at hx
    rw [hx]
    exact ⟨rfl, rfl⟩
  · obtain ⟨t1, t2, -⟩ := hL.toRGBAF _ _ hx
    exact ⟨t1, t2⟩

/-- All images of a job that succeeds have the size of the first one. -/
theorem stage_sizes {W : World Img} (hL : Lawful W.lib) {c : Cmd H} {images : List (Option Img)}
    {custom : CustomMips Img} {t0 t t' : Tex Img} (S : Stages W c images custom t0 t t') {j : ℕ} {g : Option Img}
    (hg : images[j]? = some g) : W.lib.widthO g = W.lib.widthO images.head?.join ∧
      W.lib.heightO g = W.lib.heightO images.head?.join := by
  obtain ⟨hj, -⟩ := List.getElem?_eq_some_iff.1 hg
  obtain ⟨g', r, h1, h2, h3, -⟩ := S.first j hj
  rw [hg, Option.some.injEq] at h1
  subst h1
  obtain ⟨s1, s2⟩ := represent_size hL h2
  show W.lib.width g' = _ ∧ W.lib.height g' = _
  cases ht : t0 with
  | none => have := S.base; rw [ht] at this; simp [BasePresent] at this
  | some i =>
    have hI := hist_inv hL S.hist0 ht
    have hw := S.width
    have hh := S.height
    rw [ht] at h3 hw hh
    by_cases hs : ∃ f', HasSlot i (toolPlace c.imageType j).1 0 (toolPlace c.imageType j).2.2 f'
    · obtain ⟨f', hs⟩ := hs
      obtain ⟨x, hx, hres⟩ := getImage_slot hI hs
      rw [hres] at h3
      simp only [Res.ok.injEq] at h3
      subst h3
      obtain ⟨e1, e2, -⟩ := hI.imgs _ _ f' r hx
      rw [widthAt_eq hI, if_pos hs.1] at hw
      rw [heightAt_eq hI, if_pos hs.1] at hh
      simp only [Res.ok.injEq] at hw hh
      rw [← hw, ← hh, ← s1, ← s2, e1, e2]
      exact ⟨rfl, rfl⟩
    · rw [getImage_noSlot hI (fun f' hf => hs ⟨f', hf⟩)] at h3
      simp at h3

theorem find_own {custom : CustomMips Img} (hn : (custom.map (·.1)).Nodup) {e : ImageIndex × CustomMip Img}
    (he : e ∈ custom) : CustomMips.find custom e.1 = some e.2 := by
  unfold CustomMips.find
  induction custom with
  | nil => simp at he
  | cons x xs ih =>
    simp only [List.map_cons, List.nodup_cons] at hn
    rcases List.mem_cons.1 he with rfl | he
    · simp
    · have hx : ¬ (x.1 == e.1) = true := by
        intro h
        have h : x.1 = e.1 := by simpa using h
        exact hn.1 (h ▸ List.mem_map_of_mem he)
      rw [Bool.not_eq_true] at hx
      simp only [List.find?_cons, hx]
      exact ih hn.2 he

end Cuttlefish
