import Verif.Proofs.UnitProcess
import Verif.Proofs.ToolDefined
import Verif.Proofs.TextureImages
import Verif.Props.C33
/-
The images of a job: they are valid, and custom mips of 3D textures are complete.
-/
namespace Cuttlefish
open Spec
variable {Lm : Libm} {FI : FreeImage Dbl} {σ : Type} {E : ToolEnv (Image Dbl) Dbl σ}

theorem load_alive (F : LawfulFI (Arith.ieee Lm) FI) (M : EnoughMemory FI)
    {read : Str → ColorSpace → Img? Dbl} (R : LoadsWell (Arith.ieee Lm) read)
    (hE : E.load = loadAndProcess (Arith.ieee Lm) FI read) {c : Cmd Dbl} (C : CanResize FI c.resizeFilter)
    (hn : c.normalMap = false) {p : Str} {w h l : ℕ} {r : Img? Dbl × ℕ × ℕ} (e : E.load c p w h l = .ok (some r)) :
    ∃ g, r.1 = some g ∧ g.format = .RGBAF := by
  rw [hE] at e
  unfold loadAndProcess at e
  cases hr : read p c.imageColorSpace with
  | none => rw [hr] at e; cases e
  | some i =>
    rw [hr] at e
    obtain ⟨o, eo, e⟩ := Res.bind_eq_ok.1 e
    cases e
    obtain ⟨h1, h2, h3⟩ := R _ _ _ hr
    have := processLoaded_alive (lawful_ieee Lm) F M C h1 h2 ⟨h3.1, h3.2.1⟩ (fun h => by rw [hn] at h; cases h) eo
    cases o with
    | none => exact absurd rfl this
    | some g =>
      obtain ⟨b1, -⟩ := processLoaded_shape (lawful_ieee Lm) F h1 h2 ⟨h3.1, h3.2.1⟩ eo
      refine ⟨g, rfl, b1.trans ?_⟩
      unfold lastFormat
      rw [hn]
      rfl

theorem loadCustom_alive (F : LawfulFI (Arith.ieee Lm) FI) (M : EnoughMemory FI)
    {read : Str → ColorSpace → Img? Dbl} (R : LoadsWell (Arith.ieee Lm) read)
    (hE : E.load = loadAndProcess (Arith.ieee Lm) FI read) {c : Cmd Dbl} (C : CanResize FI c.resizeFilter)
    (hn : c.normalMap = false) {m : ℕ} {ms : CustomMipFiles} {w h : ℕ} {r : CustomMips (Image Dbl)}
    (e : loadCustom E c m ms w h = .ok (some r)) :
    (∀ x ∈ r, ∃ g, x.2.image = some (some g) ∧ g.format = .RGBAF) ∧
    r.map (fun x => (x.1, x.2.replacement)) = ms.map (fun x => (x.1, x.2.2)) ∧
    (c.dimension ≠ .Cube → ∀ x ∈ ms, x.1.cubeFace = .PosX) := by
  induction ms generalizing w h r with
  | nil => cases e; exact ⟨by simp, rfl, by simp⟩
  | cons p ps ih =>
    unfold loadCustom at e
    split at e
    · cases e
    split at e
    · cases e
    rename_i hface
    simp only [Res.bind_eq_ok] at e
    obtain ⟨o, ho, e⟩ := e
    cases o with
    | none => simp at e
    | some o =>
      simp only [Res.bind_eq_ok] at e
      obtain ⟨q, hq, e⟩ := e
      cases q with
      | none => simp at e
      | some q =>
        simp only [Res.ok.injEq, Option.some.injEq] at e
        subst e
        obtain ⟨i1, i2, i3⟩ := ih hq
        refine ⟨fun x hx => ?_, ?_, fun hd x hx => ?_⟩
        · rcases List.mem_cons.1 hx with rfl | hx
          · obtain ⟨g, hg, hf⟩ := load_alive F M R hE C hn ho
            exact ⟨g, by rw [hg], hf⟩
          · exact i1 x hx
        · simp only [List.map_cons, i2]
        · rcases List.mem_cons.1 hx with rfl | hx
          · by_contra hc
            exact hface ⟨hc, hd⟩
          · exact i3 hd x hx

/-- The custom mips of a job of the tool are usable if all of one level of a 3D texture have the same mode. -/
theorem tool_customFor (F : LawfulFI (Arith.ieee Lm) FI) (M : EnoughMemory FI)
    {read : Str → ColorSpace → Img? Dbl} (R : LoadsWell (Arith.ieee Lm) read)
    (hE : E.load = loadAndProcess (Arith.ieee Lm) FI read) {argv : List Str} {c : Cmd Dbl}
    (hp : parseCommandLine E.cmd argv = .ok (some (some c))) (C : CanResize FI c.resizeFilter)
    (hn : c.normalMap = false) (hlen : c.images.length < 2 ^ 32) (hcl : c.customMips.length < 2 ^ 32)
    (hmode : c.dimension = .Dim3D → ∀ e ∈ c.customMips, ∀ e' ∈ c.customMips, e.1.mipLevel = e'.1.mipLevel → e.2.2 = e'.2.2)
    {images : List (Option (Image Dbl))} {custom : CustomMips (Image Dbl)}
    (el : loadImages E c = .ok (some (images, custom))) :
    CustomFor (imageLib (Arith.ieee Lm) FI) c custom images.length := by
  have hil := loadImages_length el
  simp only [loadImages, Res.bind_eq_ok] at el
  obtain ⟨o, ho, e⟩ := el
  cases o with
  | none => simp at e
  | some o =>
    simp only [Res.bind_eq_ok] at e
    obtain ⟨q, hq, e⟩ := e
    cases q with
    | none => simp at e
    | some q =>
      simp only [Res.ok.injEq, Option.some.injEq, Prod.mk.injEq] at e
      obtain ⟨e1, rfl⟩ := e
      obtain ⟨a1, a2, a3⟩ := loadCustom_alive F M R hE C hn hq
      intro hd
      have hx := a3 (by rw [hd]; simp)
      have hL := imageLib_lawful (Arith.ieee Lm) FI
      refine ⟨fun e he w h hw hh => ?_, fun m hm => ?_⟩
      · obtain ⟨g, hg, hf⟩ := a1 e he
        unfold fit
        rw [hg]
        have ht := hL.resize_total g w h c.mipFilter (by simp [imageLib, hf]) hw hh
        obtain ⟨r, hr⟩ := Option.isSome_iff_exists.1 ht
        have h3 := (hL.resize _ _ _ _ _ hr).2.2
        have h4 : (imageLib (Arith.ieee Lm) FI).isRGBAF g = true := by simp [imageLib, hf]
        simp only [Option.join_some, Option.bind_some, hr, h3, h4, if_true, Option.isSome_some]
      · by_cases hnone : ∀ d, d < extent images.length m → CustomMips.find q ⟨.PosX, m, d⟩ = none
        · exact Or.inl hnone
        right
        push Not at hnone
        obtain ⟨d0, hd0, hne⟩ := hnone
        obtain ⟨c0, hc0⟩ := Option.ne_none_iff_exists'.1 hne
        have mem0 := find_mem hc0
        have back {ix : ImageIndex} {k : CustomMip (Image Dbl)} (h : (ix, k) ∈ q) :
            ∃ f, (ix, f, k.replacement) ∈ c.customMips := by
          have : (ix, k.replacement) ∈ c.customMips.map (fun x => (x.1, x.2.2)) := by
            rw [← a2]
            exact List.mem_map.2 ⟨_, h, rfl⟩
          obtain ⟨⟨i, f, r⟩, hm, he⟩ := List.mem_map.1 this
          cases he
          exact ⟨f, hm⟩
        obtain ⟨f0, hf0⟩ := back mem0
        refine ⟨c0.replacement, fun d hd' => ?_⟩
        have hpos : 0 < c.images.length := List.length_pos_iff.2 (C33_job _ _ _ hp).images
        have hdep : mipDepth c m = extent images.length m := by
          unfold mipDepth
          rw [hd, hil, extent_eq_max _ _ hpos, Nat.shiftRight_eq_div_pow]
        obtain ⟨e', he', hix⟩ := C33_slices _ _ _ hp hd hx hlen hcl _ hf0 d (by
          show d < mipDepth c m
          rw [hdep]
          exact hd')
        have hin : (e'.1, e'.2.2) ∈ q.map (fun x => (x.1, x.2.replacement)) := by
          rw [a2]
          exact List.mem_map.2 ⟨_, he', rfl⟩
        obtain ⟨x, hx1, hx2⟩ := List.mem_map.1 hin
        have hfind : ∃ k, CustomMips.find q ⟨.PosX, m, d⟩ = some k := by
          unfold CustomMips.find
          have : (List.find? (fun e => e.1 == (⟨.PosX, m, d⟩ : ImageIndex)) q).isSome = true := by
            rw [List.find?_isSome]
            refine ⟨x, hx1, ?_⟩
            have : x.1 = e'.1 := (Prod.mk.inj hx2).1
            rw [this, hix]
            simp
          obtain ⟨k, hk⟩ := Option.isSome_iff_exists.1 this
          rw [hk]
          exact ⟨_, rfl⟩
        obtain ⟨k, hk⟩ := hfind
        obtain ⟨f1, hf1⟩ := back (find_mem hk)
        exact ⟨k, hk, hmode hd _ hf1 _ hf0 rfl⟩

/-- The sizes of the images of the texture of a job. -/
theorem job_sizes {Img H : Type} {W : World Img} (hL : Lawful W.lib) {feat : Features} {c : Cmd H} (hv : ValidJob feat c)
    {images : List (Option Img)} {custom : CustomMips Img} (hl : images.length = c.images.length)
    (hn : images.length < 2 ^ 32)
    (hsize : W.lib.widthO images.head?.join < 2 ^ 32 ∧ W.lib.heightO images.head?.join < 2 ^ 32)
    (hcust : CustomFor W.lib c custom images.length) {outs : List (Out Img)} {t : Tex Img}
    (e : run W none (makeOps W.lib c images custom) = .ok (outs, t)) {g : Img} (hg : Stores t g) :
    W.lib.width g ≤ W.lib.widthO images.head?.join ∧ W.lib.height g ≤ W.lib.heightO images.head?.join := by
  cases images with
  | nil =>
    have := hv.images
    exact absurd (List.length_eq_zero_iff.1 hl.symm) this
  | cons first rest =>
    have hcube := fun e => hl.trans (hv.cube e)
    have hone := fun e => hl.trans (hv.one e)
    simp only [List.head?_cons, Option.join_some] at hsize ⊢
    obtain ⟨hsafe, hsz⟩ := make_safe (W := W) (c := c) (custom := custom) hn hsize hv.kind hcust
    have hops := jobOps_eq (L := W.lib) (c := c) (custom := custom) hn hcube hone
    unfold makeOps at e
    rw [hops, List.dropLast_concat] at e
    obtain ⟨outs', t', hr, hI⟩ := tinv_run hL _ (t := none) trivial hsafe
    have := hr.symm.trans e
    cases this
    obtain ⟨i, rfl, level, h1, slice, h2, h3⟩ := hg
    have hI : Inv W.lib i := hI
    obtain ⟨m, hm⟩ := List.mem_iff_getElem?.1 h1
    obtain ⟨d, hd⟩ := List.mem_iff_getElem?.1 h2
    obtain ⟨f, hf⟩ := List.mem_iff_getElem?.1 h3
    obtain ⟨w1, w2, -⟩ := hI.imgs m d f g (by simp [Store.at?, hm, hd, hf])
    obtain ⟨s1, s2⟩ := hsz _ _ e
    have le (n m : ℕ) (hn : 0 < n) : extent n m ≤ n := by
      rw [extent_eq_max n m hn, Nat.shiftRight_eq_div_pow]
      exact max_le (Nat.div_le_self _ _) hn
    rw [w1, w2, ← s1, ← s2]
    exact ⟨le _ _ hI.w.1, le _ _ hI.h.1⟩

end Cuttlefish
