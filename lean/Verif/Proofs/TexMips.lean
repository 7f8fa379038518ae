import Verif.Proofs.TexConvert
import Verif.Spec.MipChain
namespace Cuttlefish
open Spec
variable {Img : Type}

theorem forRes_range {σ : Type} (P : Nat → σ → Prop) (body : Nat → σ → Res σ) :
    ∀ (n k : Nat) (s : σ), P k s →
    (∀ j s, k ≤ j → j < k + n → P j s → ∃ s', body j s = .ok s' ∧ P (j+1) s') →
    ∃ s', forRes (List.range' k n) body s = .ok s' ∧ P (k+n) s'
  | 0, k, s, h, _ => ⟨s, by simp [forRes], by simpa using h⟩
  | n+1, k, s, h, hs => by
    obtain ⟨s1, h1, h2⟩ := hs k s (Nat.le_refl k) (by omega) h
    obtain ⟨s2, h3, h4⟩ := forRes_range P body n (k+1) s1 h2
      (fun j s hj hj' hP => hs j s (by omega) (by omega) hP)
    refine ⟨s2, ?_, ?_⟩
    · rw [List.range'_succ]; simp only [forRes, h1, Res.ok_bind, h3]
    · rw [show k + (n+1) = k + 1 + n by omega]; exact h4

theorem mipRange_eq (n : Nat) : mipRange n = List.range' 1 (n-1) := by
  unfold mipRange
  cases n with
  | zero => simp
  | succ n => rw [List.range_eq_range']; simp [List.range'_succ]

theorem find_mem {m : CustomMips Img} {i : ImageIndex} {c : CustomMip Img}
    (h : CustomMips.find m i = some c) : (i, c) ∈ m := by
  unfold CustomMips.find at h
  rw [Option.map_eq_some_iff] at h
  obtain ⟨e, he, rfl⟩ := h
  have h1 := List.mem_of_find?_eq_some he
  have h2 := List.find?_some he
  simp only [beq_iff_eq] at h2
  subst h2; exact h1

theorem customResult_eq (L : ImageLib Img) (filter : ResizeFilter) (c : CustomMip Img) (w h : Nat) :
    customResult L c w h filter = fit L filter c w h := by
  unfold customResult fit
  cases c.image with
  | none => simp
  | some i =>
    cases i with
    | none => simp [ImageLib.resizeO]
    | some g =>
      simp only [ImageLib.resizeO, Option.join_some, Option.bind_some]
      cases L.resize g w h filter <;> simp

theorem fit_ok {L : ImageLib Img} (hL : Lawful L) {filter : ResizeFilter} {c : CustomMip Img}
    {w h : Nat} {g : Img} (hg : fit L filter c w h = some g) :
    L.width g = w ∧ L.height g = h ∧ L.isRGBAF g = true := by
  unfold fit at hg
  simp only [Option.bind_eq_some_iff] at hg
  obtain ⟨g0, -, r, hr, hg⟩ := hg
  have h1 := hL.resize _ _ _ _ _ hr
  split at hg
  · rename_i hf
    simp only [Option.some.injEq] at hg; subst hg
    exact ⟨h1.1, h1.2.1, hf⟩
  · have h2 := hL.toRGBAF _ _ hg
    exact ⟨by rw [h2.1, h1.1], by rw [h2.2.1, h1.2.1], h2.2.2⟩

/-- `some` image of the given size in RGBAF. -/
def ImgOK (L : ImageLib Img) (w h : Nat) (o : Option Img) : Prop :=
  ∃ g, o = some g ∧ L.width g = w ∧ L.height g = h ∧ L.isRGBAF g = true

/-- The chain of the specification, but starting from `src0` instead of the level-0 image. -/
def chainFrom (L : ImageLib Img) (filter : ResizeFilter) (w h : Nat)
    (cust : Nat → Option (CustomMip Img)) (base src0 : Img) : Nat → Option Img × Option Img
  | 0 => (some base, some src0)
  | m + 1 => pick L filter (cust (m+1)) (extent w (m+1)) (extent h (m+1))
      ((chainFrom L filter w h cust base src0 m).2.bind fun g =>
        L.resize g (extent w (m+1)) (extent h (m+1)) filter)

theorem chainFrom_base (L : ImageLib Img) (filter : ResizeFilter) (w h : Nat)
    (cust : Nat → Option (CustomMip Img)) (base : Img) :
    ∀ m, chainFrom L filter w h cust base base m = chain L filter w h cust base m
  | 0 => rfl
  | m+1 => by simp only [chainFrom, chain, chainFrom_base L filter w h cust base m]

/-- Validity of the source image of the next level. -/
def SrcOK (L : ImageLib Img) (o : Option Img) : Prop := ∃ g, o = some g ∧ L.isRGBAF g = true

theorem chainFrom_ok {L : ImageLib Img} (hL : Lawful L) {filter : ResizeFilter} {w h : Nat}
    (hw : 0 < w) (hh : 0 < h) {cust : Nat → Option (CustomMip Img)} {base src0 : Img}
    (hc : ∀ m c, cust m = some c → ∀ w h, 0 < w → 0 < h → (fit L filter c w h).isSome = true)
    (hs : L.isRGBAF src0 = true) :
    ∀ m, SrcOK L (chainFrom L filter w h cust base src0 m).2 ∧
      (1 ≤ m → ImgOK L (extent w m) (extent h m) (chainFrom L filter w h cust base src0 m).1)
  | 0 => ⟨⟨src0, rfl, hs⟩, by omega⟩
  | m+1 => by
    obtain ⟨⟨g, hg, hgf⟩, -⟩ := chainFrom_ok (base := base) hL hw hh hc hs m
    have hew := extent_pos w (m+1) hw
    have heh := extent_pos h (m+1) hh
    obtain ⟨r, hr⟩ := Option.isSome_iff_exists.1 (hL.resize_total g _ _ filter hgf hew heh)
    have hr' := hL.resize _ _ _ _ _ hr
    have e : chainFrom L filter w h cust base src0 (m+1) =
        pick L filter (cust (m+1)) (extent w (m+1)) (extent h (m+1)) (some r) := by
      simp only [chainFrom, hg, Option.bind_some, hr]
    rw [e]
    unfold pick
    cases hcu : cust (m+1) with
    | none =>
      simp only
      exact ⟨⟨r, rfl, by rw [hr'.2.2, hgf]⟩, fun _ => ⟨r, rfl, hr'.1, hr'.2.1, by rw [hr'.2.2, hgf]⟩⟩
    | some c =>
      obtain ⟨s, hs'⟩ := Option.isSome_iff_exists.1 (hc _ _ hcu _ _ hew heh)
      have hf := fit_ok hL hs'
      simp only [hs']
      refine ⟨?_, fun _ => ⟨s, rfl, hf⟩⟩
      split
      · exact ⟨r, rfl, by rw [hr'.2.2, hgf]⟩
      · exact ⟨s, rfl, hf.2.2⟩

/-- The custom image of a level for one face and layer. -/
def custOf (custom : CustomMips Img) (d f : Nat) (m : Nat) : Option (CustomMip Img) :=
  CustomMips.find custom ⟨CubeFace.ofIndex f, m, d⟩

/-- `prevImage` after level `k`. -/
def prevAt (L : ImageLib Img) (filter : ResizeFilter) (w h : Nat)
    (cust : Nat → Option (CustomMip Img)) (base src0 : Img) (p : Option Img) : Nat → Option Img
  | 0 => p
  | k+1 => match cust (k+1) with
    | none => none
    | some c => if c.replacement = .Once then (chainFrom L filter w h cust base src0 (k+1)).2 else none

/-- Shape of the image storage inside `genMipsFlat`. -/
structure Shape (t : TexImpl Img) (images : Store (Option Img)) (levels depth : Nat) : Prop where
  len : images.length = levels
  ds : ∀ (m : Nat), m < levels → (images[m]? : Option _).map List.length = some depth
  fs : ∀ m d, m < levels → d < depth → images.facesAt m d = some t.faces

/-- One chain: the loop over levels. -/
theorem genChain {L : ImageLib Img} (hL : Lawful L) {t : TexImpl Img} {filter : ResizeFilter}
    {custom : CustomMips Img} (hgood : GoodCustom L filter custom)
    (hw : 0 < t.width) (hh : 0 < t.height) (hl1 : 1 ≤ t.mipLevels) (hl : t.mipLevels ≤ 32)
    {depth d f : Nat} (hd : d < depth) (hf : f < t.faces)
    {images : Store (Option Img)} (hs : Shape t images t.mipLevels depth)
    {base : Img} (hb : images.at? 0 d f = some (some base)) (hbf : L.isRGBAF base = true)
    {p : Option Img} (hp : ∀ g, p = some g → L.isRGBAF g = true) :
    let C := chainFrom L filter t.width t.height (custOf custom d f) base (p.getD base)
    let A := prevAt L filter t.width t.height (custOf custom d f) base (p.getD base) p
    ∃ st, forRes (mipRange t.mipLevels)
        (fun mip => genMipStep L t filter custom d f mip (CubeFace.ofIndex f)) (images, p) = .ok st ∧
      (∀ m' d' f', st.1.at? m' d' f' =
        if d' = d ∧ f' = f ∧ 1 ≤ m' ∧ m' < t.mipLevels then some (C m').1
        else images.at? m' d' f') ∧
      Shape t st.1 t.mipLevels depth ∧ st.2 = A (t.mipLevels - 1) := by
  intro C A
  have hsrc0 : L.isRGBAF (p.getD base) = true := by
    cases p with
    | none => exact hbf
    | some g => exact hp g rfl
  have hcust : ∀ m c, custOf custom d f m = some c → ∀ w h, 0 < w → 0 < h →
      (fit L filter c w h).isSome = true := fun m c hc => hgood _ (find_mem hc)
  have hC := chainFrom_ok hL hw hh hcust (base := base) hsrc0
  rw [mipRange_eq]
  obtain ⟨st, h1, h2⟩ := forRes_range
    (P := fun k st =>
      (∀ m' d' f', st.1.at? m' d' f' =
        if d' = d ∧ f' = f ∧ 1 ≤ m' ∧ m' < k then some (C m').1 else images.at? m' d' f') ∧
      Shape t st.1 t.mipLevels depth ∧ st.2 = A (k-1))
    (fun mip => genMipStep L t filter custom d f mip (CubeFace.ofIndex f))
    (t.mipLevels - 1) 1 (images, p)
    ⟨fun m' d' f' => by rw [if_neg (by omega)], hs, rfl⟩
    (by
      rintro k ⟨im, pr⟩ hk1 hk2 ⟨i1, i2, i3⟩
      simp only at i1 i2 i3
      have hkl : k < t.mipLevels := by omega
      -- extents
      have hew : Tex.widthAt (some t) k = .ok (extent t.width k) := by
        simp only [Tex.widthAt, ge_iff_le, Nat.not_le.2 hkl, if_false]
        exact mipExtent_ok _ _ hw (by omega)
      have heh : Tex.heightAt (some t) k = .ok (extent t.height k) := by
        simp only [Tex.heightAt, ge_iff_le, Nat.not_le.2 hkl, if_false]
        exact mipExtent_ok _ _ hh (by omega)
      obtain ⟨j, rfl⟩ : ∃ j, k = j + 1 := ⟨k - 1, by omega⟩
      -- the source image
      obtain ⟨⟨src, hsrc, hsrcf⟩, hst⟩ := hC j
      obtain ⟨r, hr⟩ := Option.isSome_iff_exists.1 (hL.resize_total src _ _ filter hsrcf
        (extent_pos t.width (j+1) hw) (extent_pos t.height (j+1) hh))
      have hget : genMipImage L im pr d f (j+1) (extent t.width (j+1)) (extent t.height (j+1))
          filter = .ok (some r) := by
        unfold genMipImage
        have hslot : im.at? j d f = some (C j).1 ∨ j = 0 := by
          cases j with
          | zero => right; rfl
          | succ j => left; rw [i1, if_pos (by omega)]
        cases j with
        | zero =>
          simp only [Nat.sub_self, Nat.add_sub_cancel] at i3
          have : pr = p := i3
          subst this
          cases pr with
          | none =>
            have : im.at? 0 d f = some (some base) := by rw [i1, if_neg (by omega), hb]
            simp only [Nat.add_sub_cancel, (Store.get_ok).2 this, Res.ok_bind]
            have : src = base := by
              have := hsrc; simp only [chainFrom, Option.getD_none, Option.some.injEq] at this
              exact this.symm
            subst this
            simp only [ImageLib.resizeO, hr, Res.pure_eq]
          | some g =>
            have : src = g := by
              have := hsrc; simp only [chainFrom, Option.getD_some, Option.some.injEq] at this
              exact this.symm
            subst this
            simp only [hr, Res.pure_eq]
        | succ j =>
          have hslot := hslot.resolve_right (by omega)
          simp only [Nat.add_sub_cancel] at i3
          have hA : A (j+1) = match custOf custom d f (j+1) with
            | none => none
            | some c => if c.replacement = .Once then (C (j+1)).2 else none := rfl
          have hCj : C (j+1) = chainFrom L filter t.width t.height (custOf custom d f) base
            (p.getD base) (j+1) := rfl
          rw [hA] at i3
          cases hcu : custOf custom d f (j+1) with
          | none =>
            rw [hcu] at i3; simp only at i3; subst i3
            have : (C (j+1)).1 = (C (j+1)).2 := by
              rw [hCj]; simp only [chainFrom, hcu, pick]
            simp only [Nat.add_sub_cancel, (Store.get_ok).2 hslot, Res.ok_bind]
            rw [this, hCj, hsrc]
            simp only [ImageLib.resizeO, hr, Res.pure_eq]
          | some c =>
            rw [hcu] at i3; simp only at i3
            by_cases ho : c.replacement = .Once
            · rw [if_pos ho, hCj, hsrc] at i3; subst i3
              simp only [hr, Res.pure_eq]
            · rw [if_neg ho] at i3; subst i3
              have : (C (j+1)).1 = (C (j+1)).2 := by
                rw [hCj]; simp only [chainFrom, hcu, if_neg ho, pick]
              simp only [Nat.add_sub_cancel, (Store.get_ok).2 hslot, Res.ok_bind]
              rw [this, hCj, hsrc]
              simp only [ImageLib.resizeO, hr, Res.pure_eq]
      -- the stored image
      have hslot : ∀ x, ∃ im', im.set (j+1) d f x = .ok im' ∧
          (∀ m' d' f', im'.at? m' d' f' =
            if m' = j+1 ∧ d' = d ∧ f' = f then some x else im.at? m' d' f') ∧
          Shape t im' t.mipLevels depth := by
        intro x
        obtain ⟨im', a1, a2, a3, a4, a5⟩ := Store.set_ok (s := im) (m := j+1) (d := d) (f := f)
          (a := x) (Store.at?_isSome.2 ⟨t.faces, i2.fs _ _ hkl hd, hf⟩)
        refine ⟨im', a1, a2, by rw [← i2.len]; exact a3, ?_, ?_⟩
        · intro m hm; rw [a4]; exact i2.ds m hm
        · intro m d hm hd; rw [a5]; exact i2.fs m d hm hd
      have hCs : C (j+1) = pick L filter (custOf custom d f (j+1)) (extent t.width (j+1))
          (extent t.height (j+1)) (some r) := by
        show chainFrom _ _ _ _ _ _ _ (j+1) = _
        simp only [chainFrom, hsrc, Option.bind_some, hr]
      have fin : ∀ x pr', x = (C (j+1)).1 → pr' = A (j+1) →
          ∃ s', (im.set (j+1) d f x >>= fun images' => pure (images', pr')) = Res.ok s' ∧
          (∀ m' d' f', s'.1.at? m' d' f' =
            if d' = d ∧ f' = f ∧ 1 ≤ m' ∧ m' < j + 1 + 1 then some (C m').1
            else images.at? m' d' f') ∧
          Shape t s'.1 t.mipLevels depth ∧ s'.2 = A (j + 1 + 1 - 1) := by
        rintro x pr' rfl rfl
        obtain ⟨im', b1, b2, b3⟩ := hslot (C (j+1)).1
        refine ⟨(im', A (j+1)), by rw [b1]; rfl, ?_, b3, rfl⟩
        intro m' d' f'
        simp only
        rw [b2, i1]
        by_cases e : m' = j+1 ∧ d' = d ∧ f' = f
        · obtain ⟨rfl, rfl, rfl⟩ := e
          simp
        · rw [if_neg e]
          have : (d' = d ∧ f' = f ∧ 1 ≤ m' ∧ m' < j+1) ↔ (d' = d ∧ f' = f ∧ 1 ≤ m' ∧ m' < j+1+1) := by
            constructor
            · rintro ⟨a, b, c, e⟩; exact ⟨a, b, c, by omega⟩
            · rintro ⟨a, b, c, e'⟩
              refine ⟨a, b, c, ?_⟩
              by_contra hx
              exact e ⟨by omega, a, b⟩
          simp only [this]
      unfold genMipStep
      simp only [hew, heh, Res.ok_bind]
      have hfind : CustomMips.find custom ⟨CubeFace.ofIndex f, j+1, d⟩ = custOf custom d f (j+1) := rfl
      rw [hfind]
      have hA : A (j+1) = match custOf custom d f (j+1) with
            | none => none
            | some c => if c.replacement = .Once then (C (j+1)).2 else none := rfl
      cases hcu : custOf custom d f (j+1) with
      | none =>
        simp only [hget, Res.ok_bind]
        exact fin (some r) none (by rw [hCs, hcu]; rfl) (by rw [hA, hcu])
      | some c =>
        by_cases ho : c.replacement = .Once
        · simp only [if_pos ho, hget, Res.ok_bind]
          refine fin (customResult L c (extent t.width (j+1)) (extent t.height (j+1)) filter)
            (some r) (by rw [hCs, hcu, customResult_eq]; rfl)
            (by rw [hA, hCs, hcu]; simp [ho, pick])
        · simp only [if_neg ho]
          refine fin (customResult L c (extent t.width (j+1)) (extent t.height (j+1)) filter)
            none (by rw [hCs, hcu, customResult_eq]; rfl)
            (by rw [hA, hcu]; simp [ho]))
  refine ⟨st, h1, ?_, h2.2.1, ?_⟩
  · intro m' d' f'
    rw [h2.1]
    rw [show 1 + (t.mipLevels - 1) = t.mipLevels by omega]
  · rw [h2.2.2, show 1 + (t.mipLevels - 1) - 1 = t.mipLevels - 1 by omega]

end Cuttlefish
