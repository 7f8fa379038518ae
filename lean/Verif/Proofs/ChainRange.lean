import Verif.Spec.MipColors
import Verif.Proofs.Shaped
import Verif.Proofs.ProcessAlive
import Verif.Proofs.TextureImages
import Verif.Props.C11
import Verif.Props.C12
/-
Ranges of the colours of mip levels, from the ranges of one resize and of one reduction along the depth, in any
arithmetic.
-/
namespace Cuttlefish
open Spec
variable {N : Type}

/-- What is needed of resizing and of the reduction along the depth: `P` holds for all images, `Q` for an image and
the size it is resized to, and `B n S d` says that the colour `d` is in the range of the colours `S` after `n` steps. -/
structure RangeLib (A : Arith N) (FI : FreeImage N) (L : ImageLib (Image N)) (cs : ColorSpace) (filter : ResizeFilter)
    (P : Image N → Prop) (Q : Image N → ℕ → ℕ → Prop) (depth : ℕ) (B : ℕ → (Color N → Prop) → Color N → Prop) : Prop where
  uses : UsesImages A FI L
  image : ∀ g, P g → FloatImage A cs g
  mono : ∀ n n' S T d, B n S d → n ≤ n' → (∀ c, S c → T c) → B n' T d
  trans : ∀ n n' S T d, B n T d → (∀ c, T c → B n' S c) → B (n' + n) S d
  self : ∀ g d, P g → ImageColors A g d → B 0 (ImageColors A g) d
  resize : ∀ g w h r, P g → 0 < w → 0 < h → Q g w h → L.resize g w h filter = some r →
    P r ∧ r.bmp.width = w ∧ r.bmp.height = h ∧ ∀ d, ImageColors A r d → B 1 (ImageColors A g) d
  slice : ∀ res w h d k, res ≠ [] → res.length ≤ depth → d ≤ depth → k < d → 0 < w → 0 < h →
    (∀ i ∈ res, P i ∧ i.bmp.width = w ∧ i.bmp.height = h) →
    P (L.mip3d res w h d k cs filter) ∧ (L.mip3d res w h d k cs filter).bmp.width = w ∧
      (L.mip3d res w h d k cs filter).bmp.height = h ∧
      ∀ c, ImageColors A (L.mip3d res w h d k cs filter) c → B 1 (fun c => ∃ i ∈ res, ImageColors A i c) c

variable {A : Arith N} {FI : FreeImage N} {L : ImageLib (Image N)} {cs : ColorSpace} {filter : ResizeFilter}
  {P : Image N → Prop} {Q : Image N → ℕ → ℕ → Prop} {depth : ℕ} {B : ℕ → (Color N → Prop) → Color N → Prop}

/-- Custom images that can be brought to every size up to the one of the texture. -/
def RangeCustom (P : Image N → Prop) (Q : Image N → ℕ → ℕ → Prop) (w h : ℕ) (custom : CustomMips (Image N)) : Prop :=
  ∀ e ∈ custom, ∃ g, e.2.image = some (some g) ∧ P g ∧ ∀ w' h', w' ≤ w → h' ≤ h → Q g w' h'

theorem find_range {w h : ℕ} {custom : CustomMips (Image N)} (hc : RangeCustom P Q w h custom) {ix : ImageIndex}
    {e : CustomMip (Image N)} (he : CustomMips.find custom ix = some e) :
    ∃ g, e.image = some (some g) ∧ P g ∧ ∀ w' h', w' ≤ w → h' ≤ h → Q g w' h' := hc _ (find_mem he)

/-- A custom image that is fitted to its level. -/
theorem fit_range (R : RangeLib A FI L cs filter P Q depth B) {c : CustomMip (Image N)} {g : Image N}
    (hi : c.image = some (some g)) (hg : P g) {w h : ℕ} (hw : 0 < w) (hh : 0 < h) (hq : Q g w h)
    {r : Image N} (e : fit L filter c w h = some r) :
    P r ∧ r.bmp.width = w ∧ r.bmp.height = h ∧ ∀ d, ImageColors A r d → B 1 (ImageColors A g) d := by
  unfold fit at e
  rw [hi] at e
  simp only [Option.join_some, Option.bind_some] at e
  obtain ⟨k, ek, e⟩ := Option.bind_eq_some_iff.1 e
  have := R.resize _ _ _ _ hg hw hh hq ek
  rw [if_pos (by rw [R.uses.format, (R.image _ this.1).format]; rfl)] at e
  cases e
  exact this

/-- The levels of a chain. -/
theorem chain_range (R : RangeLib A FI L cs filter P Q depth B) {base : Image N} (hb : P base) (hw : 0 < base.bmp.width)
    (hh : 0 < base.bmp.height)
    (hq : ∀ m g, P g → g.bmp.width = extent base.bmp.width m → g.bmp.height = extent base.bmp.height m →
      Q g (extent base.bmp.width (m + 1)) (extent base.bmp.height (m + 1)))
    {custom : CustomMips (Image N)} (hcust : RangeCustom P Q base.bmp.width base.bmp.height custom) (cf : CubeFace)
    (dp : ℕ) (m : ℕ) :
    ∀ g, (chain L filter base.bmp.width base.bmp.height (fun m => CustomMips.find custom ⟨cf, m, dp⟩) base m).1 = some g ∨
      (chain L filter base.bmp.width base.bmp.height (fun m => CustomMips.find custom ⟨cf, m, dp⟩) base m).2 = some g →
      P g ∧ g.bmp.width = extent base.bmp.width m ∧ g.bmp.height = extent base.bmp.height m ∧
        ∀ d, ImageColors A g d → B m (ChainColors A base custom cf dp m) d := by
  induction m with
  | zero =>
    intro g hg
    simp only [chain, or_self, Option.some.injEq] at hg
    subst hg
    refine ⟨hb, rfl, rfl, fun d hd => ?_⟩
    exact R.mono _ _ _ _ _ (R.self _ _ hb hd) le_rfl (fun c hc => Or.inl hc)
  | succ m ih =>
    have pw := extent_pos base.bmp.width (m + 1) hw
    have ph := extent_pos base.bmp.height (m + 1) hh
    have wider {k : ℕ} {c : Color N} (h : ChainColors A base custom cf dp k c) : ChainColors A base custom cf dp (k + 1) c := by
      rcases h with h | ⟨k', hk, e, g, h1, h2, h3⟩
      · exact Or.inl h
      · exact Or.inr ⟨k', by omega, e, g, h1, h2, h3⟩
    -- the generated image
    have gen {g : Image N} (hg : ((chain L filter base.bmp.width base.bmp.height
        (fun m => CustomMips.find custom ⟨cf, m, dp⟩) base m).2.bind fun g =>
          L.resize g (extent base.bmp.width (m + 1)) (extent base.bmp.height (m + 1)) filter) = some g) :
        P g ∧ g.bmp.width = extent base.bmp.width (m + 1) ∧ g.bmp.height = extent base.bmp.height (m + 1) ∧
          ∀ d, ImageColors A g d → B (m + 1) (ChainColors A base custom cf dp (m + 1)) d := by
      obtain ⟨p, hp, hr⟩ := Option.bind_eq_some_iff.1 hg
      obtain ⟨p1, p2, p3, p4⟩ := ih p (Or.inr hp)
      obtain ⟨q1, q2, q3, q4⟩ := R.resize _ _ _ _ p1 pw ph (hq m p p1 p2 p3) hr
      exact ⟨q1, q2, q3, fun d hd => R.mono _ _ _ _ _ (R.trans _ _ _ _ _ (q4 d hd) p4) le_rfl (fun c => wider)⟩
    -- the custom image
    have cust {e : CustomMip (Image N)} (he : CustomMips.find custom ⟨cf, m + 1, dp⟩ = some e) {g : Image N}
        (hg : fit L filter e (extent base.bmp.width (m + 1)) (extent base.bmp.height (m + 1)) = some g) :
        P g ∧ g.bmp.width = extent base.bmp.width (m + 1) ∧ g.bmp.height = extent base.bmp.height (m + 1) ∧
          ∀ d, ImageColors A g d → B (m + 1) (ChainColors A base custom cf dp (m + 1)) d := by
      obtain ⟨k, k1, k2, k3⟩ := find_range hcust he
      obtain ⟨q1, q2, q3, q4⟩ := fit_range R k1 k2 pw ph (k3 _ _ (extent_le _ _ hw) (extent_le _ _ hh)) hg
      exact ⟨q1, q2, q3, fun d hd => R.mono _ _ _ _ _ (q4 d hd) (by omega)
        (fun c hc => Or.inr ⟨m + 1, le_rfl, e, k, he, k1, hc⟩)⟩
    intro g hg
    simp only [chain, pick] at hg
    cases he : CustomMips.find custom ⟨cf, m + 1, dp⟩ with
    | none =>
      rw [he] at hg
      simp only [or_self] at hg
      exact gen hg
    | some e =>
      rw [he] at hg
      rcases hg with hg | hg
      · exact cust he hg
      · dsimp only at hg
        split at hg
        · exact gen hg
        · exact cust he hg

/-- The levels of a 3D texture. -/
theorem volume_range (R : RangeLib A FI L cs filter P Q depth B) (hL : Lawful L) {base : List (Image N)} {w h d : ℕ}
    (hb : ∀ g ∈ base, P g ∧ g.bmp.width = w ∧ g.bmp.height = h) (hw : 0 < w) (hh : 0 < h) (hd : 0 < d) (hd' : d ≤ depth)
    (hlen : base.length = d)
    (hq : ∀ m g, P g → g.bmp.width = extent w m → g.bmp.height = extent h m → Q g (extent w (m + 1)) (extent h (m + 1)))
    {custom : CustomMips (Image N)} (hcust : RangeCustom P Q w h custom)
    (hgood : GoodCustom L filter custom) (m : ℕ)
    (hcons : ∀ k, 1 ≤ k → k ≤ m → consistent3d (CustomMips.find custom) k (extent d k)) :
    ∀ g, some g ∈ (chain3d L filter cs w h d (CustomMips.find custom) base m).1 ∨
      some g ∈ (chain3d L filter cs w h d (CustomMips.find custom) base m).2 →
      P g ∧ g.bmp.width = extent w m ∧ g.bmp.height = extent h m ∧
        ∀ c, ImageColors A g c → B (2 * m) (VolumeColors A base custom m) c := by
  induction m with
  | zero =>
    intro g hg
    simp only [chain3d, or_self, List.mem_map, Option.some.injEq, exists_eq_right] at hg
    obtain ⟨h1, h2, h3⟩ := hb g hg
    exact ⟨h1, h2, h3, fun c hc => R.mono _ _ _ _ _ (R.self _ _ h1 hc) le_rfl (fun c hc => Or.inl ⟨g, hg, hc⟩)⟩
  | succ m ih =>
    have ih := ih (fun k h1 h2 => hcons k h1 (by omega))
    have pw := extent_pos w (m + 1) hw
    have ph := extent_pos h (m + 1) hh
    have wider {c : Color N} (h : VolumeColors A base custom m c) : VolumeColors A base custom (m + 1) c := by
      rcases h with h | ⟨k', hk, s, e, g, h1, h2, h3⟩
      · exact Or.inl h
      · exact Or.inr ⟨k', by omega, s, e, g, h1, h2, h3⟩
    -- the slices that the level is made from
    have prev : (chain3d L filter cs w h d (CustomMips.find custom) base m).2.length = extent d m ∧
        ∀ o ∈ (chain3d L filter cs w h d (CustomMips.find custom) base m).2, ∃ g, o = some g ∧ L.isRGBAF g = true := by
      by_cases hm : m = 0
      · subst hm
        simp only [chain3d, List.length_map, List.mem_map]
        refine ⟨hlen, ?_⟩
        rintro o ⟨g, hg, rfl⟩
        exact ⟨g, rfl, by rw [R.uses.format, (R.image _ (hb g hg).1).format]; rfl⟩
      · have := (chain3d_ok hL (cs := cs) (base := base) hw hh hd hgood m (by omega) (hcons m (by omega) (by omega))).2
        refine ⟨this.1, fun o ho => ?_⟩
        obtain ⟨g, h1, -, -, h4⟩ := this.2 o ho
        exact ⟨g, h1, h4⟩
    generalize hsrc : (chain3d L filter cs w h d (CustomMips.find custom) base m).2 = src at prev ih
    -- the resized slices
    generalize hres : (src.filterMap fun g => g.bind fun g => L.resize g (extent w (m + 1)) (extent h (m + 1)) filter) = res
    have rin {r : Image N} (hr : r ∈ res) : P r ∧ r.bmp.width = extent w (m + 1) ∧
        r.bmp.height = extent h (m + 1) ∧
        ∀ c, ImageColors A r c → B (2 * m + 1) (VolumeColors A base custom (m + 1)) c := by
      rw [← hres] at hr
      obtain ⟨o, ho, e⟩ := List.mem_filterMap.1 hr
      obtain ⟨g, rfl, e⟩ := Option.bind_eq_some_iff.1 e
      obtain ⟨p1, p2, p3, p4⟩ := ih g (Or.inr ho)
      obtain ⟨q1, q2, q3, q4⟩ := R.resize _ _ _ _ p1 pw ph (hq m g p1 p2 p3) e
      exact ⟨q1, q2, q3, fun c hc => R.mono _ _ _ _ _ (R.trans _ _ _ _ _ (q4 c hc) p4) le_rfl (fun c => wider)⟩
    have rlen : res.length ≤ extent d m := by
      rw [← prev.1, ← hres]
      exact List.length_filterMap_le _ _
    have rne : res ≠ [] := by
      have : 0 < src.length := by
        rw [prev.1]
        exact extent_pos d m hd
      obtain ⟨o, ho⟩ := List.exists_mem_of_length_pos this
      obtain ⟨g, rfl, hg⟩ := prev.2 o ho
      obtain ⟨r, hr⟩ := Option.isSome_iff_exists.1 (hL.resize_total g _ _ filter hg pw ph)
      refine List.ne_nil_of_mem (a := r) ?_
      rw [← hres]
      exact List.mem_filterMap.2 ⟨_, ho, hr⟩
    -- the generated slices
    have gen {g : Image N} (hg : some g ∈ gen3d L filter cs (extent w (m + 1)) (extent h (m + 1)) (extent d (m + 1)) src) :
        P g ∧ g.bmp.width = extent w (m + 1) ∧ g.bmp.height = extent h (m + 1) ∧
          ∀ c, ImageColors A g c → B (2 * (m + 1)) (VolumeColors A base custom (m + 1)) c := by
      unfold gen3d at hg
      rw [hres] at hg
      simp only [List.mem_map, List.mem_range, Option.some.injEq] at hg
      obtain ⟨k, hk, rfl⟩ := hg
      obtain ⟨j1, j2, j3, j4⟩ := R.slice res (extent w (m + 1)) (extent h (m + 1)) (extent d (m + 1)) k rne
        (rlen.trans ((extent_le d m hd).trans hd')) ((extent_le d (m + 1) hd).trans hd') hk pw ph
        (fun i hi => ⟨(rin hi).1, (rin hi).2.1, (rin hi).2.2.1⟩)
      refine ⟨j1, j2, j3, fun c hc => R.mono _ _ _ _ _ (R.trans _ (2 * m + 1) (VolumeColors A base custom (m + 1)) _ _
        (j4 c hc) ?_) (by omega) (fun c hc => hc)⟩
      rintro c ⟨i, hi, hc⟩
      exact (rin hi).2.2.2 c hc
    -- the custom slices
    have cust {g : Image N} (hg : some g ∈ (List.range (extent d (m + 1))).map fun i =>
        (CustomMips.find custom ⟨.PosX, m + 1, i⟩).bind fun c =>
          fit L filter c (extent w (m + 1)) (extent h (m + 1))) :
        P g ∧ g.bmp.width = extent w (m + 1) ∧ g.bmp.height = extent h (m + 1) ∧
          ∀ c, ImageColors A g c → B (2 * (m + 1)) (VolumeColors A base custom (m + 1)) c := by
      obtain ⟨i, -, hg⟩ := List.mem_map.1 hg
      obtain ⟨e, he, hg⟩ := Option.bind_eq_some_iff.1 hg
      obtain ⟨k, k1, k2, k3⟩ := find_range hcust he
      obtain ⟨q1, q2, q3, q4⟩ := fit_range R k1 k2 pw ph (k3 _ _ (extent_le _ _ hw) (extent_le _ _ hh)) hg
      exact ⟨q1, q2, q3, fun c hc => R.mono _ _ _ _ _ (q4 c hc) (by omega)
        (fun c hc => Or.inr ⟨m + 1, le_rfl, i, e, k, he, k1, hc⟩)⟩
    intro g hg
    simp only [chain3d, pick3d] at hg
    rw [hsrc] at hg
    split at hg
    · simp only [or_self] at hg
      exact gen hg
    · rcases hg with hg | hg
      · exact cust hg
      · dsimp only at hg
        split at hg
        · exact gen hg
        · exact cust hg

/-- Images of floats can be brought to every size. -/
theorem range_good (R : RangeLib A FI L cs filter P Q depth B) (hL : Lawful L) {w h : ℕ} {custom : CustomMips (Image N)}
    (hc : RangeCustom P Q w h custom) : GoodCustom L filter custom := by
  intro e he w h hw hh
  obtain ⟨g, h1, h2, -⟩ := hc e he
  have hf : L.isRGBAF g = true := by rw [R.uses.format, (R.image _ h2).format]; rfl
  obtain ⟨r, hr⟩ := Option.isSome_iff_exists.1 (hL.resize_total g w h filter hf hw hh)
  have := (hL.resize _ _ _ _ _ hr).2.2
  unfold fit
  rw [h1]
  simp only [Option.join_some, Option.bind_some, hr]
  rw [if_pos (by rw [this, hf])]
  rfl

/-- A texture has no empty images. -/
theorem size_positive (W : World (Image N)) (hL : Lawful W.lib) (calls : List (Op (Image N))) (hsafe : SafeHist W none calls)
    (outs : List (Out (Image N))) (t : Tex (Image N)) (hrun : run W none calls = .ok (outs, t)) (hbase : BasePresent t)
    {w h : ℕ} (hw : t.widthAt 0 = .ok w) (hh : t.heightAt 0 = .ok h) : 0 < w ∧ 0 < h := by
  obtain ⟨outs', t0, h1, hI⟩ := tinv_run hL calls (t := none) trivial hsafe
  rw [hrun] at h1; simp only [Res.ok.injEq, Prod.mk.injEq] at h1
  obtain ⟨-, rfl⟩ := h1
  cases t with
  | none => simp [BasePresent] at hbase
  | some i =>
    have hI : Inv W.lib i := hI
    have hm0 : 0 < i.mipLevels := hI.mips.1
    rw [widthAt_eq hI, if_pos hm0] at hw
    rw [heightAt_eq hI, if_pos hm0] at hh
    simp only [Res.ok.injEq] at hw hh
    exact ⟨by rw [← hw]; exact extent_pos _ _ hI.w.1, by rw [← hh]; exact extent_pos _ _ hI.h.1⟩

/-- 1D, 2D and cube textures. -/
theorem flat_range (W : World (Image N)) (hL : Lawful W.lib) (calls : List (Op (Image N))) (hsafe : SafeHist W none calls)
    (outs : List (Out (Image N))) (t : Tex (Image N)) (hrun : run W none calls = .ok (outs, t))
    (hdim : t.dimension ≠ .Dim3D) (hconv : t.converted = false) (hbase : BasePresent t)
    (R : RangeLib A FI W.lib t.colorSpace filter P Q depth B) (requested : ℕ)
    (custom : CustomMips (Image N)) (t' : Tex (Image N))
    (hgen : t.generateMipmaps W.lib filter requested custom = .ok (true, t'))
    (face : Option CubeFace) (cf : CubeFace) (hface : addressed t.dimension face = some cf)
    (d : ℕ) (base : Image N) (hb : t.getImage face 0 d = .ok (some base)) (hbf : P base) (hw : 0 < base.bmp.width)
    (hh : 0 < base.bmp.height) (hcust : RangeCustom P Q base.bmp.width base.bmp.height custom)
    (hq : ∀ m g, P g → g.bmp.width = extent base.bmp.width m → g.bmp.height = extent base.bmp.height m →
      Q g (extent base.bmp.width (m + 1)) (extent base.bmp.height (m + 1)))
    (hlast : NoOnceAtEnd custom t'.mipLevelCount cf d) (m : ℕ) (hm : m < t'.mipLevelCount) :
    ∃ g, t'.getImage face m d = .ok (some g) ∧ P g ∧
      g.bmp.width = extent base.bmp.width m ∧ g.bmp.height = extent base.bmp.height m ∧
      ∀ c, ImageColors A g c → B m (ChainColors A base custom cf d m) c := by
  have hgood := range_good R hL hcust
  have hsize : t.widthAt 0 = .ok base.bmp.width ∧ t.heightAt 0 = .ok base.bmp.height := by
    obtain ⟨outs', t0, h1, hI⟩ := tinv_run hL calls (t := none) trivial hsafe
    rw [hrun] at h1; simp only [Res.ok.injEq, Prod.mk.injEq] at h1
    obtain ⟨-, rfl⟩ := h1
    cases t with
    | none => simp [BasePresent] at hbase
    | some i =>
      have hI : Inv W.lib i := hI
      by_cases hs : ∃ f, HasSlot i face 0 d f
      · obtain ⟨f, hs⟩ := hs
        obtain ⟨g', hg', hr'⟩ := getImage_slot hI hs
        rw [hr'] at hb; simp only [Res.ok.injEq] at hb; subst hb
        have := hI.imgs _ _ _ _ hg'
        rw [R.uses.width, R.uses.height] at this
        rw [widthAt_eq hI, heightAt_eq hI, if_pos hs.1, if_pos hs.1]
        exact ⟨by rw [this.1], by rw [this.2.1]⟩
      · rw [getImage_noSlot hI (fun f hf => hs ⟨f, hf⟩)] at hb; simp at hb
  have key := C12_chain_partial W hL calls hsafe outs t hrun hdim hconv hbase filter requested custom hgood t' hgen
    _ _ hsize.1 hsize.2 face cf hface d base hb hlast m hm
  have hsome : ∃ g, (chain W.lib filter base.bmp.width base.bmp.height
      (fun m => CustomMips.find custom ⟨cf, m, d⟩) base m).1 = some g := by
    by_cases h0 : m = 0
    · subst h0
      exact ⟨base, rfl⟩
    · rw [← chainFrom_base]
      obtain ⟨g, hg, -⟩ := (chainFrom_ok hL hw hh (cust := fun m => CustomMips.find custom ⟨cf, m, d⟩)
        (base := base) (src0 := base) (filter := filter) (fun k c hc => hgood _ (find_mem hc))
        (by rw [R.uses.format, (R.image _ hbf).format]; rfl) m).2 (by omega)
      exact ⟨g, hg⟩
  obtain ⟨g, hg⟩ := hsome
  rw [hg] at key
  exact ⟨g, key, chain_range R hbf hw hh hq hcust cf d m g (Or.inl hg)⟩

/-- 3D textures. -/
theorem deep_range (W : World (Image N)) (hL : Lawful W.lib) (calls : List (Op (Image N))) (hsafe : SafeHist W none calls)
    (outs : List (Out (Image N))) (t : Tex (Image N)) (hrun : run W none calls = .ok (outs, t))
    (hdim : t.dimension = .Dim3D) (hconv : t.converted = false) (hbase : BasePresent t)
    (R : RangeLib A FI W.lib t.colorSpace filter P Q depth B) (requested : ℕ)
    (custom : CustomMips (Image N)) (t' : Tex (Image N))
    (hgen : t.generateMipmaps W.lib filter requested custom = .ok (true, t'))
    (w h d : ℕ) (hw : t.widthAt 0 = .ok w) (hh : t.heightAt 0 = .ok h) (hd : t.depthAt 0 = .ok d)
    (hcust : RangeCustom P Q w h custom) (hd' : d ≤ depth)
    (hq : ∀ m g, P g → g.bmp.width = extent w m → g.bmp.height = extent h m → Q g (extent w (m + 1)) (extent h (m + 1)))
    (base : List (Image N)) (hlen : base.length = d) (hb : ∀ k, t.getImage none 0 k = .ok base[k]?)
    (hbf : ∀ g ∈ base, P g) (m : ℕ) (hm : m < t'.mipLevelCount) (k : ℕ)
    (hk : k < extent d m) :
    ∃ g, t'.getImage none m k = .ok (some g) ∧ P g ∧
      g.bmp.width = extent w m ∧ g.bmp.height = extent h m ∧
      ∀ c, ImageColors A g c → B (2 * m) (VolumeColors A base custom m) c := by
  have hgood := range_good R hL hcust
  have key := C12_chain_3d W hL calls hsafe outs t hrun hdim hconv hbase filter requested custom hgood t' hgen
    w h d hw hh hd base hlen hb m hm k
  obtain ⟨b, t'', e, h1, h2⟩ := C11_3d_partial W hL calls hsafe outs t hrun hdim hconv hbase filter requested custom hgood
    w h d hw hh hd
  rw [hgen] at e
  cases e
  have hcons := h1.1 rfl
  rw [(h2 rfl).levels] at hm
  -- the sizes of the texture
  obtain ⟨pw, ph, pd, hs⟩ : 0 < w ∧ 0 < h ∧ 0 < d ∧ ∀ g ∈ base, g.bmp.width = w ∧ g.bmp.height = h := by
    obtain ⟨outs', t0, h1, hI⟩ := tinv_run hL calls (t := none) trivial hsafe
    rw [hrun] at h1; simp only [Res.ok.injEq, Prod.mk.injEq] at h1
    obtain ⟨-, rfl⟩ := h1
    cases t with
    | none => simp [BasePresent] at hbase
    | some i =>
      have hI : Inv W.lib i := hI
      have hm0 : 0 < i.mipLevels := hI.mips.1
      rw [widthAt_eq hI, if_pos hm0] at hw
      rw [heightAt_eq hI, if_pos hm0] at hh
      rw [depthAt_eq hI, if_pos hm0] at hd
      simp only [Res.ok.injEq] at hw hh hd
      refine ⟨by rw [← hw]; exact extent_pos _ _ hI.w.1, by rw [← hh]; exact extent_pos _ _ hI.h.1,
        by rw [← hd]; exact depthExtent_pos _ _ _ hI.d.2, fun g hg => ?_⟩
      obtain ⟨n, hn, rfl⟩ := List.getElem_of_mem hg
      have hgn := hb n
      rw [List.getElem?_eq_getElem hn] at hgn
      by_cases hs : ∃ f, HasSlot i none 0 n f
      · obtain ⟨f, hs⟩ := hs
        obtain ⟨g', hg', hr'⟩ := getImage_slot hI hs
        rw [hr'] at hgn; simp only [Res.ok.injEq] at hgn; subst hgn
        have := hI.imgs _ _ _ _ hg'
        rw [R.uses.width, R.uses.height] at this
        exact ⟨by rw [this.1, hw], by rw [this.2.1, hh]⟩
      · rw [getImage_noSlot hI (fun f hf => hs ⟨f, hf⟩)] at hgn; simp at hgn
  have hsome : ∃ g, (chain3d W.lib filter t.colorSpace w h d (CustomMips.find custom) base m).1[k]? = some (some g) := by
    by_cases h0 : m = 0
    · subst h0
      have : k < base.length := by rw [hlen]; exact hk
      exact ⟨base[k], by simp [chain3d, this]⟩
    · have := (chain3d_ok hL (cs := t.colorSpace) (base := base) pw ph pd hgood m (by omega)
        (hcons m (by omega) hm)).1
      obtain ⟨g, hg, -⟩ := this.2 _ (List.getElem_mem (show k < _ by rw [this.1]; exact hk))
      exact ⟨g, by rw [List.getElem?_eq_getElem (by rw [this.1]; exact hk), hg]⟩
  obtain ⟨g, hg⟩ := hsome
  rw [hg] at key
  exact ⟨g, key, volume_range R hL (fun g hg => ⟨hbf g hg, hs g hg⟩) pw ph pd hd' hlen hq hcust hgood m
    (fun k h1 h2 => hcons k h1 (by omega)) g (Or.inl (List.mem_of_getElem? hg))⟩

end Cuttlefish
