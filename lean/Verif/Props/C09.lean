import Verif.Proofs.TexSafe
import Verif.Spec.Toy
/-
C09: the contract of `convert()` and its failure atomicity.
-/
namespace Cuttlefish
open Spec
variable {Img : Type}

/-- The conditions under which `convert()` is supposed to succeed. -/
def Convertible (c : Features) (t : Tex Img) (f : Format) (ty : TType) : Prop :=
  t.imagesComplete = true ∧ isFormatValid c f ty = true ∧
    (t.colorSpace = .sRGB → hasNativeSRGB f ty = true)

theorem convertible_iff {c : Features} {t : Tex Img} {f : Format} {ty : TType} :
    Convertible c t f ty ↔ t.imagesComplete = true ∧ isFormatValid c f ty = true ∧
      (t.colorSpace = .Linear ∨ hasNativeSRGB f ty = true) := by
  unfold Convertible
  cases h : t.colorSpace <;> simp

/-- `convert()` returns true exactly when all images are present, the pair is valid and sRGB is
supported (for images on which the encoders are defined). -/
theorem C09_success_iff (W : World Img) (t : Tex Img) (f : Format) (ty : TType) (q : Quality)
    (al : Alpha) (mask : ColorMask) (threads : Nat) (henc : SafeConv W t f ty) :
    ∃ b t', t.convert W.feat W.hw W.enc f ty q al mask threads = .ok (b, t') ∧
      (b = true ↔ Convertible W.feat t f ty) := by
  by_cases h : Convertible W.feat t f ty
  · have h' := convertible_iff.1 h
    cases t with
    | none => simp [Tex.imagesComplete] at h'
    | some i =>
      obtain ⟨h1, h2, h3⟩ := h'
      rw [valid_iff_converter] at h2
      obtain ⟨k, hk⟩ := Option.isSome_iff_exists.1 h2
      obtain ⟨textures, c1, -, -⟩ := convert_ok (W := W) (q := q) (al := al) (m := mask) (th := threads)
        h1 hk h3 (fun ds hds fs hfs g hg => henc k _ hk ds hds fs hfs g hg)
      exact ⟨_, _, c1, by simp [h]⟩
  · exact ⟨false, t, convert_reject (fun hc => h (convertible_iff.2 hc)), by simp [h]⟩

/-- A `convert()` call that fails leaves the texture exactly as it was, whatever its state. -/
theorem C09_failure_atomic (W : World Img) (t : Tex Img) (f : Format) (ty : TType) (q : Quality)
    (al : Alpha) (mask : ColorMask) (threads : Nat) (t' : Tex Img)
    (hfail : t.convert W.feat W.hw W.enc f ty q al mask threads = .ok (false, t')) : t' = t := by
  by_cases h : Convertible W.feat t f ty
  · have h' := convertible_iff.1 h
    cases t with
    | none => simp [Tex.imagesComplete] at h'
    | some i =>
      obtain ⟨h1, h2, h3⟩ := h'
      rw [valid_iff_converter] at h2
      obtain ⟨k, hk⟩ := Option.isSome_iff_exists.1 h2
      -- with a converter the loops can only be undefined or succeed
      exfalso
      unfold Tex.convert at hfail
      rw [if_neg (by rw [valid_iff_converter, hk, h1]; simp)] at hfail
      simp only at hfail
      rw [if_neg (by rcases h3 with h | h
                     · have h : i.colorSpace = .Linear := h
                       simp [h]
                     · simp [h])] at hfail
      rw [Res.bind_eq_ok] at hfail
      obtain ⟨p, hp, hq⟩ := hfail
      have key := (convMips_inv (enc := W.enc) (a := ⟨f, ty, al, mask, i.colorSpace, q,
        if threads = allCores then W.hw else threads⟩) hk i.images hp).1
      simp [key] at hq
  · have := convert_reject (W := W) (q := q) (al := al) (m := mask) (th := threads)
      (fun hc => h (convertible_iff.2 hc))
    rw [this] at hfail
    simp only [Res.ok.injEq, Prod.mk.injEq, true_and] at hfail
    exact hfail.symm

/-- A successful `convert()` on a texture with consistent storage records the arguments, keeps the
shape, encodes the image of every slot into the data of that slot and consumes all images, so an
immediate second `convert()` fails and changes nothing. -/
theorem C09_success_effect (W : World Img) (hL : Lawful W.lib) (calls : List (Op Img))
    (hsafe : SafeHist W none calls) (outs : List (Out Img)) (t : Tex Img)
    (hrun : run W none calls = .ok (outs, t))
    (f : Format) (ty : TType) (q : Quality) (al : Alpha) (mask : ColorMask) (threads : Nat)
    (t' : Tex Img) (hok : t.convert W.feat W.hw W.enc f ty q al mask threads = .ok (true, t')) :
    t'.converted = true ∧ t'.format = f ∧ t'.type = ty ∧ t'.alphaType = al ∧ t'.colorMask = mask ∧
    t'.dimension = t.dimension ∧ t'.colorSpace = t.colorSpace ∧
    t'.mipLevelCount = t.mipLevelCount ∧ (t'.faceCount = t.faceCount ∧ t'.isArray = t.isArray) ∧
    (∀ m, t'.widthAt m = t.widthAt m ∧ t'.heightAt m = t.heightAt m ∧ t'.depthAt m = t.depthAt m) ∧
    (∃ k, createConverter W.feat f ty = some k ∧ ∀ face m d g, t.getImage face m d = .ok (some g) →
      ∃ bytes, W.enc k ⟨f, ty, al, mask, t.colorSpace, q,
          if threads = allCores then W.hw else threads⟩ g = .ok bytes ∧
        t'.data face m d = .ok (some bytes) ∧ t'.dataSize face m d = .ok bytes.length) ∧
    (∀ face m d, t'.getImage face m d = .ok none) ∧
    (∀ f2 ty2 q2 al2 mask2 threads2,
      t'.convert W.feat W.hw W.enc f2 ty2 q2 al2 mask2 threads2 = .ok (false, t')) := by
  obtain ⟨outs', t0, h1, hI⟩ := tinv_run hL calls (t := none) trivial hsafe
  rw [hrun] at h1; simp only [Res.ok.injEq, Prod.mk.injEq] at h1
  obtain ⟨-, rfl⟩ := h1
  have hconv : Convertible W.feat t f ty := by
    by_contra hc
    have := convert_reject (W := W) (q := q) (al := al) (m := mask) (th := threads)
      (fun h => hc (convertible_iff.2 h))
    rw [this] at hok; simp at hok
  have h' := convertible_iff.1 hconv
  cases t with
  | none => simp [Tex.imagesComplete] at h'
  | some i =>
    have hI : Inv W.lib i := hI
    obtain ⟨h1, h2, h3⟩ := h'
    rw [valid_iff_converter] at h2
    obtain ⟨k, hk⟩ := Option.isSome_iff_exists.1 h2
    have hdef : ∀ ds ∈ i.images, ∀ fs ∈ ds, ∀ g, some g ∈ fs → W.enc k ⟨f, ty, al, mask,
        i.colorSpace, q, if threads = allCores then W.hw else threads⟩ g ≠ .ub := by
      unfold Tex.convert at hok
      rw [if_neg (by rw [valid_iff_converter, hk, h1]; simp)] at hok
      simp only at hok
      rw [if_neg (by rcases h3 with h | h
                     · have h : i.colorSpace = .Linear := h
                       simp [h]
                     · simp [h])] at hok
      rw [Res.bind_eq_ok] at hok
      obtain ⟨p, hp, -⟩ := hok
      exact (convMips_inv hk i.images hp).2
    obtain ⟨textures, c1, c2, c3⟩ := convert_ok (W := W) (q := q) (al := al) (m := mask)
      (th := threads) h1 hk h3 hdef
    rw [c1] at hok
    simp only [Res.ok.injEq, Prod.mk.injEq, true_and] at hok
    subst hok
    have hI' := inv_converted hI (f := f) (t := ty) (al := al) (m := mask) c2
    have hlen : i.images ≠ [] := by
      intro h; have := hI.len; have := hI.mips.1; rw [h] at *; simp at *; omega
    have hne : textures ≠ [] := by
      intro h; rw [h] at c2; simp at c2; exact hlen c2
    have hcv : Tex.converted (Img := Img) (some { i with
        format := f, type := ty, alphaType := al, colorMask := mask
        images := List.map (List.map (fun fs => List.replicate fs.length none)) i.images
        textures }) = true := by
      simp [Tex.converted, hne]
    have hgone : ∀ face m d, Tex.getImage (Img := Img) (some { i with
        format := f, type := ty, alphaType := al, colorMask := mask
        images := List.map (List.map (fun fs => List.replicate fs.length none)) i.images
        textures }) face m d = .ok none := by
      intro face m d
      by_cases hs : ∃ f', HasSlot (Img := Img) { i with
        format := f, type := ty, alphaType := al, colorMask := mask
        images := List.map (List.map (fun fs => List.replicate fs.length none)) i.images
        textures } face m d f'
      · obtain ⟨f', hs⟩ := hs
        obtain ⟨g, hg, hres⟩ := getImage_slot hI' hs
        rw [hres]
        obtain ⟨ds, fs, e1, e2, e3, -⟩ := Store.mem_of_at? hg
        simp only [List.mem_map] at e1
        obtain ⟨ds0, -, rfl⟩ := e1
        simp only [List.mem_map] at e2
        obtain ⟨fs0, -, rfl⟩ := e2
        rw [List.mem_replicate] at e3
        rw [e3.2]
      · exact getImage_noSlot hI' (fun f' hf => hs ⟨f', hf⟩)
    refine ⟨hcv, rfl, rfl, rfl, rfl, rfl, rfl, rfl, ⟨rfl, rfl⟩, fun m => ⟨rfl, rfl, rfl⟩, ⟨k, hk, ?_⟩, hgone,
      ?_⟩
    · intro face m d g hg
      by_cases hs : ∃ f', HasSlot i face m d f'
      · obtain ⟨f', hs⟩ := hs
        obtain ⟨g', hg', hres⟩ := getImage_slot hI hs
        rw [hres] at hg; simp only [Res.ok.injEq] at hg; subst hg
        obtain ⟨b, hb1, hb2⟩ := c3 m d f' g hg'
        obtain ⟨b', hb3, hb4⟩ := data_slot hI' hcv hs
        have : b' = b := by
          rw [show Store.at? textures m d f' = some b from hb1] at hb3
          simpa using hb3.symm
        subst this
        exact ⟨b', hb2, hb4, by simp only [Tex.dataSize, hb4]; rfl⟩
      · rw [getImage_noSlot hI (fun f' hf => hs ⟨f', hf⟩)] at hg
        simp at hg
    · intro f2 ty2 q2 al2 mask2 threads2
      apply convert_reject
      rintro ⟨hc, -⟩
      obtain ⟨ds, h00, hl, hfs⟩ := images0 hI
      have hpos := depthExtent_pos i.dimension i.depth 0 hI.d.2
      rw [imagesComplete_iff] at hc
      have hd0 : 0 < ds.length := by omega
      have hmem : ds[0]'hd0 ∈ ds := List.getElem_mem hd0
      have hfl := hfs _ hmem
      have hf0 : 0 < i.faces := by have := hI.faces; split at this <;> omega
      obtain ⟨x, hx⟩ := hc (ds.map (fun fs => List.replicate fs.length none))
        (List.mem_map_of_mem (List.mem_of_getElem? h00))
        (List.replicate (ds[0]'hd0).length none)
        (List.mem_map_of_mem (f := fun fs : List (Option Img) => List.replicate fs.length none) hmem)
        none (by rw [List.mem_replicate]; exact ⟨by omega, rfl⟩)
      simp at hx

/-- A history that meets the hypotheses: a 2x1 texture with one level, converted to R8G8B8A8. -/
example : SafeHist Toy.world none [.initialize .Dim2D 2 1 0 1 .Linear, Toy.put 2 1 7 none 0 0] ∧
    ∃ outs t t', run Toy.world none [.initialize .Dim2D 2 1 0 1 .Linear, Toy.put 2 1 7 none 0 0] =
      .ok (outs, t) ∧ t.convert Toy.world.feat Toy.world.hw Toy.world.enc .R8G8B8A8 .UNorm .Normal
        .Standard {} 1 = .ok (true, t') ∧ t'.data none 0 0 = .ok (some [7]) := by
  refine ⟨by simp [SafeHist, SafeCall, Toy.put], _, _, _, rfl, rfl, ?_⟩
  decide

end Cuttlefish
