import Verif.Proofs.ToolSafe
import Verif.Spec.Defined
import Verif.Props.C33
/-
A run of the tool is defined: making the texture, converting it and saving it.
-/
namespace Cuttlefish
open Spec
variable {Img H σ : Type}

/-- The texture of a job before the conversion: the calls are safe, and the texture has the size of the first image. -/
theorem make_safe {W : World Img} {c : Cmd H} {first : Option Img} {rest : List (Option Img)}
    {custom : CustomMips Img} (hn : (first :: rest).length < 2 ^ 32)
    (hsize : W.lib.widthO first < 2 ^ 32 ∧ W.lib.heightO first < 2 ^ 32)
    (hkind : c.dimension = .Cube ↔ c.imageType = .Cube ∨ c.imageType = .CubeArray)
    (hcust : CustomFor W.lib c custom (first :: rest).length) :
    let ops := Op.initialize c.dimension (W.lib.widthO first) (W.lib.heightO first)
        (toolDepth c.imageType (first :: rest).length) 1 c.textureColorSpace :: putOps c.imageType 0 (first :: rest) ++
        (if 1 < c.mipLevels then [.generateMipmaps c.mipFilter c.mipLevels custom] else [])
    SafeHist W none ops ∧ ∀ outs i, run W none ops = .ok (outs, some i) →
      i.width = W.lib.widthO first ∧ i.height = W.lib.heightO first := by
  have hdep : toolDepth c.imageType (first :: rest).length = layers c.imageType (first :: rest).length := by
    unfold layers toolDepth
    cases c.imageType <;> simp only [u32, pow32] <;> omega
  rw [hdep]
  generalize hN : (first :: rest).length = n at *
  have hwh : W.lib.widthO first < pow32 ∧ W.lib.heightO first < pow32 := hsize
  have hd : layers c.imageType n < pow32 := by
    unfold layers pow32
    cases c.imageType <;> simp only <;> omega
  generalize hwe : W.lib.widthO first = w at *
  generalize hhe : W.lib.heightO first = hh at *
  generalize hD : layers c.imageType n = d at *
  have hputs : ∀ o ∈ putOps c.imageType 0 (first :: rest), ∃ g mv f m d, o = Op.setImage g mv f m d := by
    intro o ho
    obtain ⟨g, -, rfl⟩ := List.mem_map.1 ho
    exact ⟨_, _, _, _, _, rfl⟩
  -- the texture with its images
  have base (outs : List (Out Img)) (t : Tex Img)
      (hr : run W none (.initialize c.dimension w hh d 1 c.textureColorSpace :: putOps c.imageType 0 (first :: rest)) =
        .ok (outs, t)) : t = none ∨ ∃ i : TexImpl Img, t = some i ∧ WInv i c.dimension c.textureColorSpace w hh d ∧
          i.textures = [] ∧ (c.dimension = .Dim3D → 0 < d) := by
    simp only [run, call, Res.ok_bind, Res.bind_eq_ok] at hr
    obtain ⟨⟨o1, t1⟩, h1, h2⟩ := hr
    simp only [Res.pure_eq, Res.ok.injEq, Prod.mk.injEq] at h2
    obtain ⟨-, rfl⟩ := h2
    rcases winv_init (none : Tex Img) (dim := c.dimension) (m := 1) (cs := c.textureColorSpace)
      hwh.1 hwh.2 hd with ⟨i, e, hI, -, -, -, hd3, htex, -⟩ | ⟨e, -⟩
    · rw [e] at h1
      obtain ⟨im, rfl, -⟩ := put_slots _ _ _ _ _ h1
      exact .inr ⟨_, rfl, ⟨hI.pw, hI.ph, hI.pd, hI.mips, hI.faces, hI.edim, hI.ecs, hI.ew, hI.eh, hI.ed⟩, htex, hd3⟩
    · rw [e] at h1
      exact .inl (run_none _ _ _ (fun o ho => .inl (hputs o ho)) h1)
  refine ⟨?_, ?_⟩
  · refine safeHist_append _ _ _ ⟨⟨hwh.1, hwh.2, hd⟩, fun _ t' _ => safeHist_puts _ _ hputs⟩ ?_
    intro outs t hr
    split
    · refine ⟨?_, fun _ _ _ => trivial⟩
      rcases base outs t hr with rfl | ⟨i, rfl, hI, htex, hd3⟩
      · trivial
      · refine ⟨.inl htex, fun h3 => ?_⟩
        have h3 : c.dimension = .Dim3D := by rw [← hI.edim]; exact h3
        obtain ⟨hg, hco⟩ := hcust h3
        refine ⟨hg, .inr fun m hm1 _ => ?_⟩
        have hdn : i.depth = n := by
          rw [hI.ed, ← hD]
          have hp := hd3 h3
          rw [← hD] at hp
          cases hk : c.imageType with
          | Image => rw [hk] at hp; simp [layers] at hp
          | Array => rfl
          | Cube => rw [hkind.2 (.inl hk)] at h3; simp at h3
          | CubeArray => rw [hkind.2 (.inr hk)] at h3; simp at h3
        rw [hdn]
        exact hco m hm1
    · trivial
  · intro outs i hr
    rw [run_append, Res.bind_eq_ok] at hr
    obtain ⟨⟨o1, t1⟩, h1, hr⟩ := hr
    rw [Res.bind_eq_ok] at hr
    obtain ⟨⟨o2, t2⟩, h2, hr⟩ := hr
    simp only [Res.ok.injEq, Prod.mk.injEq] at hr
    obtain ⟨-, rfl⟩ := hr
    dsimp only at h2
    rcases base o1 t1 h1 with rfl | ⟨j, rfl, hI, -, -⟩
    · have := run_none _ _ _ (by
        intro o ho
        split at ho
        · rw [List.mem_singleton] at ho
          exact .inr ⟨_, _, _, ho⟩
        · simp at ho) h2
      cases this
    · split at h2
      · simp only [run, call, Res.bind_eq_ok, Res.pure_eq] at h2
        obtain ⟨⟨p1, p2⟩, ⟨⟨q1, q2⟩, hg, hq⟩, ⟨p3, p4⟩, hp, hfin⟩ := h2
        simp only [Res.ok.injEq, Prod.mk.injEq] at hq hp hfin
        obtain ⟨-, rfl⟩ := hq
        obtain ⟨-, rfl⟩ := hp
        obtain ⟨-, rfl⟩ := hfin
        rcases gen_weak hI hg with ⟨e, -⟩ | ⟨im, e⟩
        · cases e
          exact ⟨hI.ew, hI.eh⟩
        · cases e
          exact ⟨hI.ew, hI.eh⟩
      · simp only [run, Res.ok.injEq, Prod.mk.injEq, Option.some.injEq] at h2
        obtain ⟨-, rfl⟩ := h2
        exact ⟨hI.ew, hI.eh⟩

/-- Converting is defined if every image can be encoded. -/
theorem convert_defined {W : World Img} {X : Ext} (hX : CodecSizes X) {view : Img → FImg}
    (henc : W.enc = fun k a g => encodeImage X k a (view g))
    (hview : ∀ g, (view g).width = W.lib.width g ∧ (view g).height = W.lib.height g) {t : Tex Img}
    (hI : TInv W.lib t) {f : Format} {ty : TType} {q : Quality} {al : Alpha} {m : ColorMask} {th : ℕ}
    (hf : ∀ i, t = some i → Fits f i.width i.height) (hp : ∀ g, Stores t g → ImageFits f ty (view g)) :
    ∃ b t', t.convert W.feat W.hw W.enc f ty q al m th = .ok (b, t') := by
  by_cases h : t.imagesComplete = true ∧ isFormatValid W.feat f ty = true ∧
      (t.colorSpace = .Linear ∨ hasNativeSRGB f ty = true)
  · cases t with
    | none => simp [Tex.imagesComplete] at h
    | some i =>
      obtain ⟨h1, h2, h3⟩ := h
      obtain ⟨p1, p2, -⟩ := block_pos h2
      rw [valid_iff_converter] at h2
      obtain ⟨k, hk⟩ := Option.isSome_iff_exists.1 h2
      obtain ⟨textures, c1, -⟩ := convert_ok (W := W) (q := q) (al := al) (m := m) (th := th)
        h1 hk h3 (by
          intro ds hds fs hfs g hg
          obtain ⟨m', d', f', hat⟩ := Store.at?_of_mem hds hfs hg
          obtain ⟨e1, e2, -⟩ := Inv.imgs hI m' d' f' g hat
          have hI : Inv W.lib i := hI
          have hF : Fits f (view g).width (view g).height := by
            rw [(hview g).1, (hview g).2, e1, e2]
            exact Fits.mono ⟨p1, p2⟩ (hf i rfl) (extent_le _ _ hI.w.1) (extent_le _ _ hI.h.1) (extent_pos _ _ hI.w.1)
              (extent_pos _ _ hI.h.1)
          rw [henc]
          obtain ⟨bytes, e⟩ := encode_some hX hk ⟨f, ty, al, m, i.colorSpace, q, if th = allCores then W.hw else th⟩ rfl
            hF (hp g ⟨i, rfl, ds, hds, fs, hfs, hg⟩)
          simp only [e]
          simp)
      exact ⟨_, _, c1⟩
  · exact ⟨false, t, convert_reject h⟩

/-- Making, converting and saving the texture of a job is defined. -/
theorem saveTexture_defined {E : ToolEnv Img H σ} {X : Ext} (hX : CodecSizes X) {view : Img → FImg}
    (hL : Lawful E.world.lib) (henc : E.world.enc = fun k a g => encodeImage X k a (view g))
    (hview : ∀ g, (view g).width = E.world.lib.width g ∧ (view g).height = E.world.lib.height g)
    {c : Cmd H} (hv : ValidJob E.cmd.feat c) {images : List (Option Img)} {custom : CustomMips Img}
    (hl : images.length = c.images.length) (hn : images.length < 2 ^ 32)
    (hsize : E.world.lib.widthO images.head?.join < 2 ^ 32 ∧ E.world.lib.heightO images.head?.join < 2 ^ 32)
    (hcust : CustomFor E.world.lib c custom images.length)
    (hfit : 0 < E.world.lib.widthO images.head?.join → 0 < E.world.lib.heightO images.head?.join →
      Fits c.format (E.world.lib.widthO images.head?.join) (E.world.lib.heightO images.head?.join))
    (hpx : JobFits E.world view c images custom) (s : σ) : ∃ r, saveTexture E c images custom s = .ok r := by
  cases images with
  | nil =>
    have := hv.images
    exact absurd (List.length_eq_zero_iff.1 hl.symm) this
  | cons first rest =>
    have hcube := fun e => hl.trans (hv.cube e)
    have hone := fun e => hl.trans (hv.one e)
    have hcubes : c.imageType = .CubeArray → 6 ∣ (first :: rest).length := fun e => hl ▸ hv.cubes e
    simp only [List.head?_cons, Option.join_some] at hsize hfit
    obtain ⟨hsafe, hsz⟩ := make_safe (W := E.world) (c := c) (custom := custom) hn hsize hv.kind hcust
    have hops := jobOps_eq (L := E.world.lib) (c := c) (custom := custom) hn hcube hone
    obtain ⟨outs, t, hr, hI⟩ := tinv_run hL _ (t := none) trivial hsafe
    have hrun := hr
    rw [run_append, Res.bind_eq_ok] at hr
    obtain ⟨⟨o1, t1⟩, h1, hr⟩ := hr
    rw [Res.bind_eq_ok] at hr
    obtain ⟨⟨o2, t2⟩, h2, hr⟩ := hr
    simp only [Res.ok.injEq, Prod.mk.injEq] at hr
    obtain ⟨-, rfl⟩ := hr
    dsimp only at h2
    simp only [run, call, Res.ok_bind, Res.bind_eq_ok] at h1
    obtain ⟨⟨o3, t3⟩, h3, h4⟩ := h1
    simp only [Res.pure_eq, Res.ok.injEq, Prod.mk.injEq] at h4
    obtain ⟨-, rfl⟩ := h4
    obtain ⟨b, t', hc⟩ := convert_defined hX henc hview (q := c.quality) (al := c.alpha) (m := c.colorMask)
      (th := c.jobs) hI (f := c.format) (ty := c.type) (by
        intro i e
        subst e
        obtain ⟨a1, a2⟩ := hsz _ _ hrun
        rw [a1, a2]
        have hI : Inv E.world.lib i := hI
        exact hfit (a1 ▸ hI.w.1) (a2 ▸ hI.h.1))
      (fun g hg => hpx _ _ (by unfold makeOps; rw [hops, List.dropLast_concat]; exact hrun) g hg)
    have e1 := run_put (E := E) _ _ _ _ _ h3
    have e2 := run_mips (E := E) h2
    unfold saveTexture
    simp only [e1, e2, hc, Res.ok_bind]
    cases b with
    | false => exact ⟨_, rfl⟩
    | true =>
      rw [if_pos rfl]
      have hjob : run E.world none (jobOps E.world.lib c (first :: rest) custom) = .ok (outs ++ [.bool true], t') := by
        rw [hops, run_append]
        show (run E.world none (_ :: putOps c.imageType 0 (first :: rest) ++ _) >>= _) = _
        rw [hrun]
        simp only [Res.ok_bind, run, call, hc]
        rfl
      have hj := job_texture hn (by simp) (by simpa using hsize) hone hcube hcubes hv.kind hjob
      obtain ⟨-, -, -, -, -, -, -, w1, w2, -⟩ := hj
      refine saveAll_some (fun ft D => save_some hX ⟨hL, henc, hview, ⟨_, _, hsafe, hrun⟩, ⟨_, _, _, _, hc⟩⟩ ?_ D _) s
      intro _ w h hw hh
      rw [w1] at hw
      rw [w2] at hh
      cases hw
      cases hh
      have hcomp := convert_complete hc
      cases t2 with
      | none => simp [Tex.imagesComplete] at hcomp
      | some i =>
        obtain ⟨a1, a2⟩ := hsz _ _ hrun
        have hI : Inv E.world.lib i := hI
        exact hfit (a1 ▸ hI.w.1) (a2 ▸ hI.h.1)

end Cuttlefish
