import Verif.Proofs.Encode
import Verif.Proofs.Stored
import Verif.Spec.Converted
import Verif.Props.C08
import Verif.Props.C09
/-
From the contract of `convert()` to the bytes of each surface.
-/
namespace Cuttlefish
open Spec
variable {Img : Type} {X : Ext} {view : Img → FImg} {W : World Img} {t t' : Tex Img} {f : Format}
  {ty : TType} {face : Option CubeFace} {m d : Nat} {img : FImg} {bytes : List UInt8}

/-- The texture before the conversion. -/
theorem Spec.Conversion.complete (hC : Conversion X view W t t' f ty) : t.imagesComplete = true := by
  obtain ⟨q, al, mask, th, hc⟩ := hC.conv
  by_contra h
  have := convert_reject (W := W) (t := t) (f := f) (ty := ty) (q := q) (al := al) (m := mask)
    (th := th) (fun hcv => h hcv.1)
  rw [this] at hc; simp at hc

theorem Spec.Conversion.effect (hC : Conversion X view W t t' f ty) :
    (∃ k a, createConverter W.feat f ty = some k ∧ a.format = f ∧ a.type = ty ∧
      ∀ face m d g, t.getImage face m d = .ok (some g) →
      ∃ bytes, encodeImage X k a (view g) = .ok bytes ∧
        t'.data face m d = .ok (some bytes) ∧ t'.dataSize face m d = .ok bytes.length) ∧
    t'.dimension = t.dimension ∧ t'.mipLevelCount = t.mipLevelCount ∧
    (∀ m, t'.widthAt m = t.widthAt m ∧ t'.heightAt m = t.heightAt m ∧ t'.depthAt m = t.depthAt m) := by
  obtain ⟨calls, outs, hs, hr⟩ := hC.hist
  obtain ⟨q, al, mask, th, hc⟩ := hC.conv
  obtain ⟨-, -, -, -, -, h1, -, h2, -, h3, ⟨k, hk, h4⟩, -⟩ :=
    C09_success_effect W hC.lawful calls hs outs t hr f ty q al mask th t' hc
  refine ⟨⟨k, ⟨f, ty, al, mask, t.colorSpace, q, if th = allCores then W.hw else th⟩, hk, rfl, rfl,
    fun face m d g hg => ?_⟩, h1, h2, h3⟩
  obtain ⟨bytes, b1, b2, b3⟩ := h4 face m d g hg
  rw [hC.enc] at b1
  exact ⟨bytes, b1, b2, b3⟩

/-- The image in a slot has the extents of its level. -/
theorem Spec.Conversion.extents (hC : Conversion X view W t t' f ty) {g : Img}
    (hg : t.getImage face m d = .ok (some g)) :
    t'.widthAt m = .ok (view g).width ∧ t'.heightAt m = .ok (view g).height ∧ 0 < (view g).width ∧
      0 < (view g).height := by
  obtain ⟨calls, outs, hs, hr⟩ := hC.hist
  obtain ⟨outs', t0, h1, hI⟩ := tinv_run hC.lawful calls (t := none) trivial hs
  rw [hr] at h1; simp only [Res.ok.injEq, Prod.mk.injEq] at h1
  obtain ⟨-, rfl⟩ := h1
  obtain ⟨-, -, -, h3⟩ := hC.effect
  rw [(h3 m).1, (h3 m).2.1, (hC.size g).1, (hC.size g).2]
  cases t with
  | none => simp [Tex.getImage, Tex.depthAt] at hg
  | some i =>
    have hI : Inv W.lib i := hI
    by_cases hs : ∃ f', HasSlot i face m d f'
    · obtain ⟨f', hs⟩ := hs
      obtain ⟨g', hg', hres⟩ := getImage_slot hI hs
      rw [hres] at hg; simp only [Res.ok.injEq] at hg; subst hg
      obtain ⟨e1, e2, -⟩ := hI.imgs m d f' g hg'
      rw [widthAt_eq hI, heightAt_eq hI, if_pos hs.1, if_pos hs.1, e1, e2]
      exact ⟨rfl, rfl, extent_pos _ _ hI.w.1, extent_pos _ _ hI.h.1⟩
    · rw [getImage_noSlot hI (fun f' hf => hs ⟨f', hf⟩)] at hg
      simp at hg

/-- Every addressable surface exists. -/
theorem Spec.Conversion.surface (hC : Conversion X view W t t' f ty) (ha : Addressable t' face m d) :
    ∃ img bytes, Surface view t t' face m d img bytes := by
  obtain ⟨calls, outs, hs, hr⟩ := hC.hist
  obtain ⟨-, hall⟩ := C08_complete_implies_present W hC.lawful calls hs outs t hr hC.complete
  obtain ⟨⟨k, a, hk, ha1, ha2, h1⟩, h2, h3, h4⟩ := hC.effect
  obtain ⟨hm, ⟨n, hn, hd⟩, hf⟩ := ha
  obtain ⟨g, hg⟩ := hall face m d n (by rw [← (h4 m).2.2]; exact hn) (by rw [← h3]; exact hm) hd
    (by rw [← h2]; exact hf)
  obtain ⟨bytes, -, b2, b3⟩ := h1 face m d g hg
  obtain ⟨e1, e2, -, -⟩ := hC.extents hg
  exact ⟨view g, bytes, ⟨g, hg, rfl⟩, b2, b3, e1, e2⟩

/-- The bytes of a surface are the encoding of its image. -/
theorem Spec.Surface.encoded (hC : Conversion X view W t t' f ty)
    (hS : Surface view t t' face m d img bytes) :
    0 < img.width ∧ 0 < img.height ∧
    ∃ k a, createConverter W.feat f ty = some k ∧ a.format = f ∧ a.type = ty ∧
      encodeImage X k a img = .ok bytes := by
  obtain ⟨⟨g, hg, rfl⟩, h1, -, -, -⟩ := hS
  obtain ⟨⟨k, a, hk, ha1, ha2, h2⟩, -, -, -⟩ := hC.effect
  obtain ⟨b, b1, b2, -⟩ := h2 face m d g hg
  rw [h1] at b2
  simp only [Res.ok.injEq, Option.some.injEq] at b2
  subst b2
  obtain ⟨-, -, p1, p2⟩ := hC.extents hg
  exact ⟨p1, p2, k, a, hk, ha1, ha2, b1⟩

/-- The texel of an uncompressed surface is the encoding of its pixel. -/
theorem Spec.Surface.texel (hC : Conversion X view W t t' f ty)
    (hS : Surface view t t' face m d img bytes) {cs : List (Chan × Nat)} (hl : layout f = some cs)
    (hf : Fits f img.width img.height) :
    ∃ k, createConverter W.feat f ty = some k ∧
      bytes.length = img.width * img.height * blockSize f ∧
      ∀ x y, x < img.width → y < img.height →
        texelBytes X k (img.px x y) = .ok (texelAt bytes (blockSize f) img.width x y) := by
  obtain ⟨-, -, k, a, hk, -, -, he⟩ := hS.encoded hC
  obtain ⟨h1, rfl⟩ := (std_surface X hk hl a img hf bytes).1 he
  obtain ⟨-, h2, -⟩ := conv_std hk hl
  have hlen : ∀ x y, x < img.width → y < img.height →
      (texelEnc X k (img.px x y)).length = blockSize f ∧
      texelBytes X k (img.px x y) = .ok (texelEnc X k (img.px x y)) := by
    intro x y hx hy
    have := h1 x y hx hy
    unfold texelEnc
    cases ht : texelBytes X k (img.px x y) with
    | ub => exact absurd ht this
    | ok bs => exact ⟨by rw [← h2]; exact texel_len X hk hl _ _ ht, rfl⟩
  refine ⟨k, hk, rowMajor_length (fun x y hx hy => (hlen x y hx hy).1), ?_⟩
  intro x y hx hy
  rw [rowMajor_slice hx hy (fun x y hx hy => (hlen x y hx hy).1)]
  exact (hlen x y hx hy).2

/-- The fields of a texel. -/
theorem Spec.Surface.fields (hC : Conversion X view W t t' f ty)
    (hS : Surface view t t' face m d img bytes) {cs : List (Chan × Nat)} (hl : layout f = some cs)
    (hf : Fits f img.width img.height) (ht : ty ≠ .UFloat) (ht2 : ty = .Float → ∀ e ∈ cs, e.2 = 32)
    {x y : Nat} (hx : x < img.width) (hy : y < img.height)
    (hst : ∀ e ∈ cs, Storable ty e.2 (e.1.of (img.px x y))) :
    texelFields cs (texelAt bytes (blockSize f) img.width x y) =
      cs.map (fun e => (e.1, quantQ ty e.2 (e.1.of (img.px x y)))) ∧
    8 * (texelAt bytes (blockSize f) img.width x y).length = bitsOf cs := by
  obtain ⟨k, hk, -, h2⟩ := hS.texel hC hl hf
  obtain ⟨bs, b1, b2, b3⟩ := texel_fields X hk hl ht ht2 (img.px x y) hst
  rw [h2 x y hx hy] at b1
  simp only [Res.ok.injEq] at b1
  rw [b1]
  exact ⟨b3, b2⟩

/-- The field of one channel. -/
theorem Spec.Surface.field (hC : Conversion X view W t t' f ty)
    (hS : Surface view t t' face m d img bytes) {cs : List (Chan × Nat)} (hl : layout f = some cs)
    (hf : Fits f img.width img.height) (ht : ty ≠ .UFloat) (ht2 : ty = .Float → ∀ e ∈ cs, e.2 = 32)
    {x y : Nat} (hx : x < img.width) (hy : y < img.height)
    (hst : ∀ e ∈ cs, Storable ty e.2 (e.1.of (img.px x y))) {ch : Chan} {n : Nat}
    (he : (ch, n) ∈ cs) (v : Nat) :
    FieldIs f bytes img.width x y ch v ↔ v = quantQ ty n (ch.of (img.px x y)) := by
  unfold FieldIs
  have hfields := (hS.fields hC hl hf ht ht2 hx hy hst).1
  -- channel names are distinct
  have hnd : ∀ e ∈ cs, e.1 = ch → e.2 = n := by
    cases f <;> simp only [layout, Option.some.injEq, reduceCtorEq] at hl <;> subst hl <;>
      (intro e he' hch
       obtain ⟨e1, e2⟩ := e
       simp only at hch
       subst hch
       cases e1 <;> simp at he he' <;> omega)
  constructor
  · rintro ⟨cs', hcs', hv⟩
    rw [hl] at hcs'; simp only [Option.some.injEq] at hcs'; subst hcs'
    rw [hfields, List.mem_map] at hv
    obtain ⟨e, he1, he2⟩ := hv
    simp only [Prod.mk.injEq] at he2
    obtain ⟨rfl, rfl⟩ := he2
    rw [hnd e he1 rfl]
  · rintro rfl
    refine ⟨cs, hl, ?_⟩
    rw [hfields, List.mem_map]
    exact ⟨(ch, n), he, rfl⟩

end Cuttlefish
