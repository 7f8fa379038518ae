import Verif.Proofs.ChainRange
import Verif.Props.C30
/-
C53: mip levels are made of the colours of the images they come from.

In exact arithmetic (`C53_flat_partial`, `C53_volume_partial`), and for linear textures also with the rounding of doubles
and singles (`C53_flat_rounded`, `C53_volume_rounded`).
-/
namespace Cuttlefish
open Spec

namespace Spec

theorem Between.mono {e e' : ℝ} {S T : Color ℝ → Prop} {d : Color ℝ} (h : Between e S d) (he : e ≤ e')
    (hs : ∀ c, S c → T c) : Between e' T d := by
  intro ch hch
  obtain ⟨⟨a, ha, h1⟩, b, hb, h2⟩ := h ch hch
  exact ⟨⟨a, hs a ha, by linarith⟩, b, hs b hb, by linarith⟩

theorem Between.trans {e e' : ℝ} {S T : Color ℝ → Prop} {d : Color ℝ} (h : Between e T d)
    (hs : ∀ c, T c → Between e' S c) : Between (e' + e) S d := by
  intro ch hch
  obtain ⟨⟨a, ha, h1⟩, b, hb, h2⟩ := h ch hch
  obtain ⟨⟨a', ha', h3⟩, -⟩ := hs a ha ch hch
  obtain ⟨-, b', hb', h4⟩ := hs b hb ch hch
  exact ⟨⟨a', ha', by linarith⟩, b', hb', by linarith⟩

theorem Between.self {S : Color ℝ → Prop} {d : Color ℝ} (h : S d) : Between 0 S d :=
  fun _ _ => ⟨⟨d, h, by simp⟩, d, h, by simp⟩

theorem drift_nonneg (cs : ColorSpace) : 0 ≤ drift cs := by
  cases cs
  · exact le_rfl
  · norm_num [drift]

end Spec

/-- One resize of an image of the texture. -/
theorem resize_drift {FI : FreeImage ℝ} (F : LawfulFI Arith.exact FI) {L : ImageLib (Image ℝ)}
    (U : UsesImages Arith.exact FI L) {cs : ColorSpace} {g : Image ℝ} (hg : FloatImage Arith.exact cs g) (hc : Spec.Countable g)
    {w h : ℕ} (hw : 0 < w) (hh : 0 < h) {filter : ResizeFilter} (avg : AverageFilter FI .RGBAF w h filter)
    {r : Image ℝ} (e : L.resize g w h filter = some r) :
    FloatImage Arith.exact cs r ∧ r.bmp.width = w ∧ r.bmp.height = h ∧
      ∀ d, Colors r d → Between (drift cs) (Colors g) d := by
  rw [← hg.format] at avg
  cases cs with
  | Linear =>
    obtain ⟨r', er, hr⟩ := C30_linear F hg.ok hc hg.space hw hh avg
    rw [U.resize _ _ _ _ _ ⟨hg.ok, hc.1, hc.2.1⟩ er] at e
    obtain ⟨h1, h2, h3, h4, h5, h6⟩ := hr r e
    exact ⟨⟨h1, h2.trans hg.format, h3.trans hg.space⟩, h4, h5, h6⟩
  | sRGB =>
    obtain ⟨r', er, hr⟩ := C30_srgb_partial F hg.ok hc (by rw [hg.format]; exact Or.inr (Or.inl rfl)) hg.space hw hh avg
    rw [U.resize _ _ _ _ _ ⟨hg.ok, hc.1, hc.2.1⟩ er] at e
    obtain ⟨h1, h2, h3, h4, h5, h6⟩ := hr r e
    exact ⟨⟨h1, h2.trans hg.format, h3.trans hg.space⟩, h4, h5, h6⟩

/-- A level of a countable image is countable. -/
theorem extent_countable {N : Type} {w h : ℕ} (hw : 0 < w) (hh : 0 < h) (hw' : w < 2 ^ 31) (hh' : h < 2 ^ 31)
    (hp : w * h < 2 ^ 32) {m : ℕ} {g : Image N} (h1 : g.bmp.width = extent w m) (h2 : g.bmp.height = extent h m) :
    Spec.Countable g := by
  have a := extent_pos w m hw
  have b := extent_pos h m hh
  have c : extent w m ≤ w := extent_le w m hw
  have d : extent h m ≤ h := extent_le h m hh
  unfold Spec.Countable
  rw [h1, h2]
  exact ⟨a, b, by omega, by omega, lt_of_le_of_lt (Nat.mul_le_mul c d) hp⟩

/-- Ranges in exact arithmetic. -/
theorem exact_range {FI : FreeImage ℝ} (F : LawfulFI Arith.exact FI) {L : ImageLib (Image ℝ)}
    (U : UsesImages Arith.exact FI L) (cs : ColorSpace) {filter : ResizeFilter}
    (avg : ∀ w h, AverageFilter FI .RGBAF w h filter) {depth : ℕ} (hd : depth = 0 ∨ depth < 2 ^ 31 ∧ EnoughMemory FI) :
    RangeLib Arith.exact FI L cs filter (FloatImage Arith.exact cs) (fun g _ _ => Spec.Countable g) depth
      (fun n S d => Between (n * drift cs) S d) where
  uses := U
  image := fun g hg => hg
  mono := fun n n' S T d h hn hs =>
    h.mono (mul_le_mul_of_nonneg_right (by exact_mod_cast hn) (drift_nonneg cs)) hs
  trans := fun n n' S T d h hs => (h.trans hs).mono (le_of_eq (by push_cast; ring)) (fun c hc => hc)
  self := fun g d _ hd => by
    rw [Nat.cast_zero, zero_mul]
    exact Between.self hd
  resize := fun g w h r hg hw hh hc e => by
    rw [Nat.cast_one, one_mul]
    exact resize_drift F U hg hc hw hh (avg _ _) e
  slice := fun res w h d k hne hlen hdep hk hw hh hres => by
    have hpos := List.length_pos_iff.2 hne
    obtain ⟨hd, M⟩ := hd.resolve_left (by omega)
    obtain ⟨j, ej, j1, j2, j3, j4, j5, j6⟩ := C30_depth_partial F hne (show res.length < 2 ^ 31 by omega) hk
      (fun i hi => ⟨(hres i hi).1.ok, (hres i hi).1.format, (hres i hi).2.1.ge, (hres i hi).2.2.ge⟩) cs filter
      (M.1 .RGBAF w h (by simp))
    rw [U.mip3d _ _ _ _ _ _ _ _ (fun i hi => ⟨(hres i hi).1.ok, by rw [(hres i hi).2.1]; exact hw, by
      rw [(hres i hi).2.2]; exact hh⟩) ej]
    refine ⟨⟨j1, j2, j3⟩, j4, j5, ?_⟩
    rintro c ⟨x, y, hc⟩
    have b := j6 x y c hc
    rw [show (if cs = .sRGB then 2 / 10 ^ 7 else 0 : ℝ) = drift cs by cases cs <;> simp [drift]] at b
    rw [Nat.cast_one, one_mul]
    exact b.mono le_rfl (fun c ⟨i, hi, hc⟩ => ⟨i, hi, x, y, hc⟩)

theorem exact_custom {cs : ColorSpace} {custom : CustomMips (Image ℝ)} (hc : FloatCustom Arith.exact cs custom) (w h : ℕ) :
    RangeCustom (FloatImage Arith.exact cs) (fun g _ _ => Spec.Countable g) w h custom := by
  intro e he
  obtain ⟨g, h1, h2, h3⟩ := hc e he
  exact ⟨g, h1, h2, fun _ _ _ _ => h3⟩

/-- Images of floats can be brought to every size. -/
theorem float_good {N : Type} {A : Arith N} {FI : FreeImage N} {L : ImageLib (Image N)} (hL : Lawful L)
    (U : UsesImages A FI L) {cs : ColorSpace} {custom : CustomMips (Image N)} (hc : FloatCustom A cs custom)
    (filter : ResizeFilter) : GoodCustom L filter custom := by
  intro e he w h hw hh
  obtain ⟨g, h1, h2, -⟩ := hc e he
  have hf : L.isRGBAF g = true := by rw [U.format, h2.format]; rfl
  obtain ⟨r, hr⟩ := Option.isSome_iff_exists.1 (hL.resize_total g w h filter hf hw hh)
  have := (hL.resize _ _ _ _ _ hr).2.2
  unfold fit
  rw [h1]
  simp only [Option.join_some, Option.bind_some, hr]
  rw [if_pos (by rw [this, hf])]
  rfl

/-- 1D, 2D and cube textures: after mip generation with the box or the linear filter, every level of a face and layer is
an image of floats in the colour space of the texture, and every channel of every pixel is in the range of this channel
in the base image and the custom images that the level comes from; exactly for linear textures, and up to 2e-7 for every
level for sRGB textures.

Partial: in exact arithmetic, and `FloatCustom`, `NoOnceAtEnd` are needed: see `C53_fails_space` and
`C12_fails_once_on_last_level`. -/
theorem C53_flat_partial {FI : FreeImage ℝ} (F : LawfulFI Arith.exact FI) (W : World (Image ℝ)) (hL : Lawful W.lib)
    (U : UsesImages Arith.exact FI W.lib) (calls : List (Op (Image ℝ))) (hsafe : SafeHist W none calls)
    (outs : List (Out (Image ℝ))) (t : Tex (Image ℝ)) (hrun : run W none calls = .ok (outs, t))
    (hdim : t.dimension ≠ .Dim3D) (hconv : t.converted = false) (hbase : BasePresent t)
    (filter : ResizeFilter) (avg : ∀ w h, AverageFilter FI .RGBAF w h filter) (requested : ℕ)
    (custom : CustomMips (Image ℝ)) (hcust : FloatCustom Arith.exact t.colorSpace custom) (t' : Tex (Image ℝ))
    (hgen : t.generateMipmaps W.lib filter requested custom = .ok (true, t'))
    (face : Option CubeFace) (cf : CubeFace) (hface : addressed t.dimension face = some cf)
    (d : ℕ) (base : Image ℝ) (hb : t.getImage face 0 d = .ok (some base)) (hbf : FloatImage Arith.exact t.colorSpace base)
    (hbc : Spec.Countable base) (hlast : NoOnceAtEnd custom t'.mipLevelCount cf d) (m : ℕ)
    (hm : m < t'.mipLevelCount) :
    ∃ g, t'.getImage face m d = .ok (some g) ∧ FloatImage Arith.exact t.colorSpace g ∧
      g.bmp.width = extent base.bmp.width m ∧ g.bmp.height = extent base.bmp.height m ∧
      ∀ c, Colors g c → Between (m * drift t.colorSpace) (ChainColors Arith.exact base custom cf d m) c := by
  obtain ⟨c1, c2, c3, c4, c5⟩ := hbc
  exact flat_range W hL calls hsafe outs t hrun hdim hconv hbase (exact_range F U _ avg (depth := 0) (.inl rfl)) requested
    custom t' hgen face cf hface d base hb hbf c1 c2 (exact_custom hcust _ _)
    (fun m g _ h1 h2 => extent_countable c1 c2 c3 c4 c5 h1 h2) hlast m hm

/-- 3D textures: the same, with the colours of all slices; twice 2e-7 for every level of an sRGB texture.

Partial: in exact arithmetic, there is enough memory (`C30_fails_memory`) and `FloatCustom` is needed. -/
theorem C53_volume_partial {FI : FreeImage ℝ} (F : LawfulFI Arith.exact FI) (M : EnoughMemory FI)
    (W : World (Image ℝ)) (hL : Lawful W.lib)
    (U : UsesImages Arith.exact FI W.lib) (calls : List (Op (Image ℝ))) (hsafe : SafeHist W none calls)
    (outs : List (Out (Image ℝ))) (t : Tex (Image ℝ)) (hrun : run W none calls = .ok (outs, t))
    (hdim : t.dimension = .Dim3D) (hconv : t.converted = false) (hbase : BasePresent t)
    (filter : ResizeFilter) (avg : ∀ w h, AverageFilter FI .RGBAF w h filter) (requested : ℕ)
    (custom : CustomMips (Image ℝ)) (hcust : FloatCustom Arith.exact t.colorSpace custom) (t' : Tex (Image ℝ))
    (hgen : t.generateMipmaps W.lib filter requested custom = .ok (true, t'))
    (w h d : ℕ) (hw : t.widthAt 0 = .ok w) (hh : t.heightAt 0 = .ok h) (hd : t.depthAt 0 = .ok d)
    (hw' : w < 2 ^ 31) (hh' : h < 2 ^ 31) (hp : w * h < 2 ^ 32) (hd' : d < 2 ^ 31)
    (base : List (Image ℝ)) (hlen : base.length = d) (hb : ∀ k, t.getImage none 0 k = .ok base[k]?)
    (hbf : ∀ g ∈ base, FloatImage Arith.exact t.colorSpace g) (m : ℕ) (hm : m < t'.mipLevelCount) (k : ℕ)
    (hk : k < extent d m) :
    ∃ g, t'.getImage none m k = .ok (some g) ∧ FloatImage Arith.exact t.colorSpace g ∧
      g.bmp.width = extent w m ∧ g.bmp.height = extent h m ∧
      ∀ c, Colors g c → Between (m * (2 * drift t.colorSpace)) (VolumeColors Arith.exact base custom m) c := by
  obtain ⟨pw, ph⟩ := size_positive W hL calls hsafe outs t hrun hbase hw hh
  obtain ⟨g, h1, h2, h3, h4, h5⟩ := deep_range W hL calls hsafe outs t hrun hdim hconv hbase
    (exact_range F U _ avg (depth := d) (.inr ⟨hd', M⟩)) requested custom t' hgen w h d hw hh hd (exact_custom hcust _ _) le_rfl
    (fun m g _ h1 h2 => extent_countable pw ph hw' hh' hp h1 h2) base hlen hb hbf m hm k hk
  refine ⟨g, h1, h2, h3, h4, fun c hc => (h5 c hc).mono (le_of_eq ?_) (fun c hc => hc)⟩
  push_cast
  ring

/-- A texture made of one colour without custom images has levels of this colour; an sRGB texture drifts by at most 2e-7 for
every level. -/
theorem C53_constant_partial {FI : FreeImage ℝ} (F : LawfulFI Arith.exact FI) (W : World (Image ℝ)) (hL : Lawful W.lib)
    (U : UsesImages Arith.exact FI W.lib) (calls : List (Op (Image ℝ))) (hsafe : SafeHist W none calls)
    (outs : List (Out (Image ℝ))) (t : Tex (Image ℝ)) (hrun : run W none calls = .ok (outs, t))
    (hdim : t.dimension ≠ .Dim3D) (hconv : t.converted = false) (hbase : BasePresent t)
    (filter : ResizeFilter) (avg : ∀ w h, AverageFilter FI .RGBAF w h filter) (requested : ℕ) (t' : Tex (Image ℝ))
    (hgen : t.generateMipmaps W.lib filter requested [] = .ok (true, t'))
    (face : Option CubeFace) (cf : CubeFace) (hface : addressed t.dimension face = some cf)
    (d : ℕ) (base : Image ℝ) (hb : t.getImage face 0 d = .ok (some base)) (hbf : FloatImage Arith.exact t.colorSpace base)
    (hbc : Spec.Countable base) (k : Color ℝ) (hk : ∀ c, Colors base c → c = k) (m : ℕ) (hm : m < t'.mipLevelCount) :
    ∃ g, t'.getImage face m d = .ok (some g) ∧ ∀ c, Colors g c →
      |c.r - k.r| ≤ m * drift t.colorSpace ∧ |c.g - k.g| ≤ m * drift t.colorSpace ∧
      |c.b - k.b| ≤ m * drift t.colorSpace ∧ |c.a - k.a| ≤ m * drift t.colorSpace := by
  obtain ⟨g, h1, -, -, -, h2⟩ := C53_flat_partial F W hL U calls hsafe outs t hrun hdim hconv hbase filter avg requested []
    (by simp [FloatCustom]) t' hgen face cf hface d base hb hbf hbc (by intro _ _ _ _ h; cases h) m hm
  refine ⟨g, h1, fun c hc => ?_⟩
  have key (ch : Color ℝ → ℝ) (hch : ch ∈ colorChannels) : |ch c - ch k| ≤ m * drift t.colorSpace := by
    obtain ⟨⟨a, ha, p1⟩, b, hb, p2⟩ := h2 c hc ch hch
    have one {a : Color ℝ} (ha : ChainColors Arith.exact base [] cf d m a) : a = k := by
      rcases ha with ha | ⟨_, _, _, _, h, _⟩
      · exact hk a ha
      · cases h
    rw [one ha] at p1
    rw [one hb] at p2
    exact abs_le.2 ⟨by linarith, by linarith⟩
  exact ⟨key Color.r (by simp [colorChannels]), key Color.g (by simp [colorChannels]),
    key Color.b (by simp [colorChannels]), key Color.a (by simp [colorChannels])⟩

namespace Spec

theorem BetweenDoubles.mono {S T : Color Dbl → Prop} {d : Color Dbl} (h : BetweenDoubles S d) (hs : ∀ c, S c → T c) :
    BetweenDoubles T d := by
  intro ch hch
  obtain ⟨lo, hi, q, e, l, u, ⟨a, ha, ea⟩, b, hb, eb⟩ := h ch hch
  exact ⟨lo, hi, q, e, l, u, ⟨a, hs a ha, ea⟩, b, hs b hb, eb⟩

theorem BetweenDoubles.trans {S T : Color Dbl → Prop} {d : Color Dbl} (h : BetweenDoubles T d)
    (hs : ∀ c, T c → BetweenDoubles S c) : BetweenDoubles S d := by
  intro ch hch
  obtain ⟨lo, hi, q, e, l, u, ⟨a, ha, ea⟩, b, hb, eb⟩ := h ch hch
  obtain ⟨lo', -, qa, e1, l1, -, h1, -⟩ := hs a ha ch hch
  obtain ⟨-, hi', qb, e2, -, u2, -, h2⟩ := hs b hb ch hch
  rw [ea] at e1
  cases e1
  rw [eb] at e2
  cases e2
  exact ⟨lo', hi', q, e, l1.trans l, u.trans u2, h1, h2⟩

theorem BetweenDoubles.self {S : Color Dbl → Prop} {d : Color Dbl} (h : S d) (hf : FiniteColor d) : BetweenDoubles S d := by
  intro ch hch
  obtain ⟨q, e⟩ := hf ch hch
  exact ⟨q, q, q, e, le_rfl, le_rfl, ⟨d, h, e⟩, d, h, e⟩

theorem BetweenDoubles.finite {S : Color Dbl → Prop} {d : Color Dbl} (h : BetweenDoubles S d) : FiniteColor d := by
  intro ch hch
  obtain ⟨-, -, q, e, -⟩ := h ch hch
  exact ⟨q, e⟩

end Spec

/-- A linear image of floats that are finite. -/
def FiniteFloats (Lm : Libm) (g : Image Dbl) : Prop :=
  FloatImage (Arith.ieee Lm) .Linear g ∧ ∀ c, DoubleColors Lm g c → FiniteColor c

/-- A resize that does not average too many pixels. -/
def FewPixels (g : Image Dbl) (w h : ℕ) : Prop :=
  Spec.Countable g ∧ windowPixels g w h ≤ 2 ^ 24 ∧ w < 2 ^ 32 ∧ h < 2 ^ 32

/-- Ranges with the rounding of doubles and singles. -/
theorem rounded_range {Lm : Libm} {FI : FreeImage Dbl} (F : LawfulFI (Arith.ieee Lm) FI) {L : ImageLib (Image Dbl)}
    (U : UsesImages (Arith.ieee Lm) FI L) {filter : ResizeFilter} (avg : ∀ w h, AverageDoubles Lm FI .RGBAF w h filter)
    {depth : ℕ} (hd : depth = 0 ∨ depth ≤ 2 ^ 24 ∧ EnoughMemory FI) :
    RangeLib (Arith.ieee Lm) FI L .Linear filter (FiniteFloats Lm) FewPixels depth (fun _ S d => BetweenDoubles S d) where
  uses := U
  image := fun g hg => hg.1
  mono := fun n n' S T d h _ hs => h.mono hs
  trans := fun n n' S T d h hs => h.trans hs
  self := fun g d hg hd => BetweenDoubles.self hd (hg.2 d hd)
  resize := fun g w h r hg hw hh ⟨hc, hsmall, hw', hh'⟩ e => by
    have avg := avg w h
    rw [← hg.1.format] at avg
    obtain ⟨r', er, hr⟩ : ∃ r, g.resize (Arith.ieee Lm) FI w h filter = .ok r ∧ ∀ j, r = some j →
        ∀ d, DoubleColors Lm j d → BetweenDoubles (DoubleColors Lm g) d := by
      rcases avg.1 with rfl | rfl
      · exact C30_box F hg.1.ok hc (by omega) hg.1.space (.inl hg.1.format) hw hh hw' hh' avg hg.2
      · exact C30_weighted F hg.1.ok hc hsmall hg.1.space (.inl hg.1.format) hw hh hw' hh' avg hg.2
    rw [U.resize _ _ _ _ _ ⟨hg.1.ok, hc.1, hc.2.1⟩ er] at e
    subst e
    obtain ⟨k1, k2, k3, k4, k5, -⟩ := resize_keep (lawful_ieee Lm) F hg.1.ok er
    exact ⟨⟨⟨k1, k2.trans hg.1.format, k3.trans hg.1.space⟩, fun c hc => (hr r rfl c hc).finite⟩, k4, k5, hr r rfl⟩
  slice := fun res w h d k hne hlen hdep hk hw hh hres => by
    have hpos := List.length_pos_iff.2 hne
    obtain ⟨hd, M⟩ := hd.resolve_left (by omega)
    obtain ⟨j, ej, j1, j2, j3, j4, j5, j6⟩ := C30_depth_rounded F hne (by omega) hk (by omega)
      (fun i hi => ⟨(hres i hi).1.1.ok, (hres i hi).1.1.format, (hres i hi).2.1.ge, (hres i hi).2.2.ge⟩)
      (fun i hi => (hres i hi).1.2) filter (M.1 .RGBAF w h (by simp))
    rw [U.mip3d _ _ _ _ _ _ _ _ (fun i hi => ⟨(hres i hi).1.1.ok, by rw [(hres i hi).2.1]; exact hw, by
      rw [(hres i hi).2.2]; exact hh⟩) ej]
    refine ⟨⟨⟨j1, j2, j3⟩, ?_⟩, j4, j5, ?_⟩
    · rintro c ⟨x, y, hc⟩
      exact (j6 x y c hc).finite
    · rintro c ⟨x, y, hc⟩
      exact (j6 x y c hc).mono (fun c ⟨i, hi, hc⟩ => ⟨i, hi, x, y, hc⟩)

/-- A level averages at most 81 pixels of the previous one. -/
theorem window_half {n : ℕ} (hn : 0 < n) (m : ℕ) : 2 * (extent n m / extent n (m + 1) + 1) + 1 ≤ 9 := by
  have := extent_pos n m hn
  have h : extent n (m + 1) = max (extent n m / 2) 1 := by
    show halve (extent n m) = _
    unfold halve
    split <;> omega
  have h3 : extent n m / extent n (m + 1) ≤ 3 := by
    rw [h]
    generalize extent n m = e at this
    rw [Nat.div_le_iff_le_mul_add_pred (by omega)]
    omega
  omega

theorem level_few {w h : ℕ} (hw : 0 < w) (hh : 0 < h) (hw' : w < 2 ^ 31) (hh' : h < 2 ^ 31)
    (hp : w * h < 2 ^ 32) {m : ℕ} {g : Image Dbl} (h1 : g.bmp.width = extent w m) (h2 : g.bmp.height = extent h m) :
    FewPixels g (extent w (m + 1)) (extent h (m + 1)) := by
  refine ⟨extent_countable hw hh hw' hh' hp h1 h2, ?_, lt_of_le_of_lt (extent_le _ _ hw) (by omega),
    lt_of_le_of_lt (extent_le _ _ hh) (by omega)⟩
  unfold windowPixels
  rw [h1, h2]
  refine (min_le_right _ _).trans ((Nat.mul_le_mul (window_half hh m) (window_half hw m)).trans (by norm_num))

theorem rounded_custom {Lm : Libm} {custom : CustomMips (Image Dbl)} (hc : FloatCustom (Arith.ieee Lm) .Linear custom)
    (hs : ∀ e ∈ custom, ∀ g, e.2.image = some (some g) → SmallDoubles Lm g) {w h : ℕ} (hw : w < 2 ^ 31) (hh : h < 2 ^ 31) :
    RangeCustom (FiniteFloats Lm) FewPixels w h custom := by
  intro e he
  obtain ⟨g, h1, h2, h3⟩ := hc e he
  obtain ⟨h4, h5⟩ := hs e he g h1
  exact ⟨g, h1, ⟨h2, h5⟩, fun w' h' hw' hh' => ⟨h3, (min_le_left _ _).trans h4, by omega, by omega⟩⟩

/-- With the rounding of doubles and singles: every level of a linear 1D, 2D or cube texture that is made with the box or
the linear filter is an image of floats, and every channel of every pixel is finite and in the range of this channel in the
base image and the custom images that the level comes from, exactly. -/
theorem C53_flat_rounded {Lm : Libm} {FI : FreeImage Dbl} (F : LawfulFI (Arith.ieee Lm) FI) (W : World (Image Dbl))
    (hL : Lawful W.lib) (U : UsesImages (Arith.ieee Lm) FI W.lib) (calls : List (Op (Image Dbl)))
    (hsafe : SafeHist W none calls) (outs : List (Out (Image Dbl))) (t : Tex (Image Dbl))
    (hrun : run W none calls = .ok (outs, t)) (hdim : t.dimension ≠ .Dim3D) (hconv : t.converted = false)
    (hbase : BasePresent t) (hlin : t.colorSpace = .Linear) (filter : ResizeFilter)
    (avg : ∀ w h, AverageDoubles Lm FI .RGBAF w h filter) (requested : ℕ) (custom : CustomMips (Image Dbl))
    (hcust : FloatCustom (Arith.ieee Lm) .Linear custom)
    (hsmall : ∀ e ∈ custom, ∀ g, e.2.image = some (some g) → SmallDoubles Lm g) (t' : Tex (Image Dbl))
    (hgen : t.generateMipmaps W.lib filter requested custom = .ok (true, t'))
    (face : Option CubeFace) (cf : CubeFace) (hface : addressed t.dimension face = some cf)
    (d : ℕ) (base : Image Dbl) (hb : t.getImage face 0 d = .ok (some base))
    (hbf : FloatImage (Arith.ieee Lm) .Linear base) (hfin : ∀ c, DoubleColors Lm base c → FiniteColor c)
    (hbc : Spec.Countable base) (hlast : NoOnceAtEnd custom t'.mipLevelCount cf d) (m : ℕ)
    (hm : m < t'.mipLevelCount) :
    ∃ g, t'.getImage face m d = .ok (some g) ∧ FloatImage (Arith.ieee Lm) .Linear g ∧
      g.bmp.width = extent base.bmp.width m ∧ g.bmp.height = extent base.bmp.height m ∧
      ∀ c, DoubleColors Lm g c → BetweenDoubles (ChainColors (Arith.ieee Lm) base custom cf d m) c := by
  obtain ⟨c1, c2, c3, c4, c5⟩ := hbc
  have R := rounded_range F U avg (depth := 0) (.inl rfl)
  rw [← hlin] at R
  obtain ⟨g, h1, h2, h3⟩ := flat_range W hL calls hsafe outs t hrun hdim hconv hbase R requested
    custom t' hgen face cf hface d base hb ⟨hbf, hfin⟩ c1 c2 (rounded_custom hcust hsmall c3 c4)
    (fun m g _ h1 h2 => level_few c1 c2 c3 c4 c5 h1 h2) hlast m hm
  exact ⟨g, h1, h2.1, h3⟩

/-- 3D textures with rounding: the same, with the colours of all slices, for up to 2^24 slices. -/
theorem C53_volume_rounded {Lm : Libm} {FI : FreeImage Dbl} (F : LawfulFI (Arith.ieee Lm) FI) (M : EnoughMemory FI)
    (W : World (Image Dbl)) (hL : Lawful W.lib) (U : UsesImages (Arith.ieee Lm) FI W.lib) (calls : List (Op (Image Dbl)))
    (hsafe : SafeHist W none calls) (outs : List (Out (Image Dbl))) (t : Tex (Image Dbl))
    (hrun : run W none calls = .ok (outs, t)) (hdim : t.dimension = .Dim3D) (hconv : t.converted = false)
    (hbase : BasePresent t) (hlin : t.colorSpace = .Linear) (filter : ResizeFilter)
    (avg : ∀ w h, AverageDoubles Lm FI .RGBAF w h filter) (requested : ℕ) (custom : CustomMips (Image Dbl))
    (hcust : FloatCustom (Arith.ieee Lm) .Linear custom)
    (hsmall : ∀ e ∈ custom, ∀ g, e.2.image = some (some g) → SmallDoubles Lm g) (t' : Tex (Image Dbl))
    (hgen : t.generateMipmaps W.lib filter requested custom = .ok (true, t'))
    (w h d : ℕ) (hw : t.widthAt 0 = .ok w) (hh : t.heightAt 0 = .ok h) (hd : t.depthAt 0 = .ok d)
    (hw' : w < 2 ^ 31) (hh' : h < 2 ^ 31) (hp : w * h < 2 ^ 32) (hd' : d ≤ 2 ^ 24)
    (base : List (Image Dbl)) (hlen : base.length = d) (hb : ∀ k, t.getImage none 0 k = .ok base[k]?)
    (hbf : ∀ g ∈ base, FloatImage (Arith.ieee Lm) .Linear g ∧ ∀ c, DoubleColors Lm g c → FiniteColor c)
    (m : ℕ) (hm : m < t'.mipLevelCount) (k : ℕ) (hk : k < extent d m) :
    ∃ g, t'.getImage none m k = .ok (some g) ∧ FloatImage (Arith.ieee Lm) .Linear g ∧
      g.bmp.width = extent w m ∧ g.bmp.height = extent h m ∧
      ∀ c, DoubleColors Lm g c → BetweenDoubles (VolumeColors (Arith.ieee Lm) base custom m) c := by
  obtain ⟨pw, ph⟩ := size_positive W hL calls hsafe outs t hrun hbase hw hh
  have R := rounded_range F U avg (depth := d) (.inr ⟨hd', M⟩)
  rw [← hlin] at R
  obtain ⟨g, h1, h2, h3⟩ := deep_range W hL calls hsafe outs t hrun hdim hconv hbase R requested custom t' hgen w h d hw hh hd
    (rounded_custom hcust hsmall hw' hh') le_rfl (fun m g _ h1 h2 => level_few pw ph hw' hh' hp h1 h2) base hlen hb hbf m hm k hk
  exact ⟨g, h1, h2.1, h3⟩

/-- So a linear texture of one colour without custom images has levels of the same colour, to the last bit. -/
theorem C53_constant_rounded {Lm : Libm} {FI : FreeImage Dbl} (F : LawfulFI (Arith.ieee Lm) FI) (W : World (Image Dbl))
    (hL : Lawful W.lib) (U : UsesImages (Arith.ieee Lm) FI W.lib) (calls : List (Op (Image Dbl)))
    (hsafe : SafeHist W none calls) (outs : List (Out (Image Dbl))) (t : Tex (Image Dbl))
    (hrun : run W none calls = .ok (outs, t)) (hdim : t.dimension ≠ .Dim3D) (hconv : t.converted = false)
    (hbase : BasePresent t) (hlin : t.colorSpace = .Linear) (filter : ResizeFilter)
    (avg : ∀ w h, AverageDoubles Lm FI .RGBAF w h filter) (requested : ℕ) (t' : Tex (Image Dbl))
    (hgen : t.generateMipmaps W.lib filter requested [] = .ok (true, t'))
    (face : Option CubeFace) (cf : CubeFace) (hface : addressed t.dimension face = some cf)
    (d : ℕ) (base : Image Dbl) (hb : t.getImage face 0 d = .ok (some base))
    (hbf : FloatImage (Arith.ieee Lm) .Linear base) (hbc : Spec.Countable base) (k : Color Dbl) (hk : FiniteColor k)
    (hconst : ∀ c, DoubleColors Lm base c → c = k) (m : ℕ) (hm : m < t'.mipLevelCount) :
    ∃ g, t'.getImage face m d = .ok (some g) ∧ g.bmp.width = extent base.bmp.width m ∧
      g.bmp.height = extent base.bmp.height m ∧ ∀ c, DoubleColors Lm g c → c = k := by
  obtain ⟨g, h1, -, h3, h4, h2⟩ := C53_flat_rounded F W hL U calls hsafe outs t hrun hdim hconv hbase hlin filter avg requested
    [] (by simp [FloatCustom]) (by simp) t' hgen face cf hface d base hb hbf (fun c hc => by rw [hconst c hc]; exact hk) hbc
    (by intro _ _ _ _ h; cases h) m hm
  refine ⟨g, h1, h3, h4, fun c hc => between_constant (fun d hd => ?_) (h2 c hc)⟩
  rcases hd with hd | ⟨_, _, _, _, h, _⟩
  · exact hconst d hd
  · cases h

namespace Spec

theorem CloseDoubles.mono {e e' : ℚ} {S T : Color Dbl → Prop} {d : Color Dbl} (h : CloseDoubles e S d) (he : e ≤ e')
    (hs : ∀ c, S c → T c) : CloseDoubles e' T d := by
  intro ch hch
  obtain ⟨lo, hi, q, e, l, u, ⟨a, ha, ea⟩, b, hb, eb⟩ := h ch hch
  exact ⟨lo, hi, q, e, by linarith, by linarith, ⟨a, hs a ha, ea⟩, b, hs b hb, eb⟩

theorem CloseDoubles.trans {e e' : ℚ} {S T : Color Dbl → Prop} {d : Color Dbl} (h : CloseDoubles e T d)
    (hs : ∀ c, T c → CloseDoubles e' S c) : CloseDoubles (e' + e) S d := by
  intro ch hch
  obtain ⟨lo, hi, q, e, l, u, ⟨a, ha, ea⟩, b, hb, eb⟩ := h ch hch
  obtain ⟨lo', -, qa, e1, l1, -, h1, -⟩ := hs a ha ch hch
  obtain ⟨-, hi', qb, e2, -, u2, -, h2⟩ := hs b hb ch hch
  rw [ea] at e1
  cases e1
  rw [eb] at e2
  cases e2
  exact ⟨lo', hi', q, e, by linarith, by linarith, h1, h2⟩

end Spec

/-- An sRGB image of floats from 0 to 1. -/
def UnitFloats (Lm : Libm) (g : Image Dbl) : Prop := FloatImage (Arith.ieee Lm) .sRGB g ∧ UnitImage Lm g

/-- Ranges of sRGB images with the rounding of doubles and singles. -/
theorem srgb_range {Lm : Libm} (P : AccuratePow Lm) {FI : FreeImage Dbl} (F : LawfulFI (Arith.ieee Lm) FI)
    {L : ImageLib (Image Dbl)} (U : UsesImages (Arith.ieee Lm) FI L) {filter : ResizeFilter}
    (avg : ∀ w h, AverageDoubles Lm FI .RGBAF w h filter) {depth : ℕ} (hd : depth = 0 ∨ depth ≤ 2 ^ 24 ∧ EnoughMemory FI) :
    RangeLib (Arith.ieee Lm) FI L .sRGB filter (UnitFloats Lm) FewPixels depth
      (fun n S d => CloseDoubles (n * (1 / 10 ^ 6)) S d) where
  uses := U
  image := fun g hg => hg.1
  mono := fun n n' S T d h hn hs => h.mono (mul_le_mul_of_nonneg_right (by exact_mod_cast hn) (by norm_num)) hs
  trans := fun n n' S T d h hs => (h.trans hs).mono (le_of_eq (by push_cast; ring)) (fun c hc => hc)
  self := fun g d hg hd => by
    rw [Nat.cast_zero, zero_mul, between_close]
    exact BetweenDoubles.self hd (unit_finite (hg.2 d hd))
  resize := fun g w h r hg hw hh ⟨hc, hsmall, hw', hh'⟩ e => by
    have avg := avg w h
    rw [← hg.1.format] at avg
    obtain ⟨r', er, hr⟩ := C30_srgb_rounded P F hg.1.ok hc hg.1.space (.inl hg.1.format) hg.2 hw hh hw' hh' hsmall avg
    rw [U.resize _ _ _ _ _ ⟨hg.1.ok, hc.1, hc.2.1⟩ er] at e
    subst e
    obtain ⟨k1, k2, k3, k4, k5, -⟩ := resize_keep (lawful_ieee Lm) F hg.1.ok er
    rw [Nat.cast_one, one_mul]
    exact ⟨⟨⟨k1, k2.trans hg.1.format, k3.trans hg.1.space⟩, (hr r rfl).1⟩, k4, k5, (hr r rfl).2⟩
  slice := fun res w h d k hne hlen hdep hk hw hh hres => by
    have hpos := List.length_pos_iff.2 hne
    obtain ⟨hd, M⟩ := hd.resolve_left (by omega)
    obtain ⟨j, ej, j1, j2, j3, j4, j5, j6⟩ := C30_srgb_depth_rounded P F hne (by omega) hk (by omega)
      (fun i hi => ⟨(hres i hi).1.1.ok, (hres i hi).1.1.format, (hres i hi).2.1.ge, (hres i hi).2.2.ge⟩)
      (fun i hi => (hres i hi).1.2) filter (M.1 .RGBAF w h (by simp))
    rw [U.mip3d _ _ _ _ _ _ _ _ (fun i hi => ⟨(hres i hi).1.1.ok, by rw [(hres i hi).2.1]; exact hw, by
      rw [(hres i hi).2.2]; exact hh⟩) ej, Nat.cast_one, one_mul]
    refine ⟨⟨⟨j1, j2, j3⟩, ?_⟩, j4, j5, ?_⟩
    · rintro c ⟨x, y, hc⟩
      exact (j6 x y c hc).2
    · rintro c ⟨x, y, hc⟩
      exact (j6 x y c hc).1.mono le_rfl (fun c ⟨i, hi, hc⟩ => ⟨i, hi, x, y, hc⟩)

theorem srgb_custom {Lm : Libm} {custom : CustomMips (Image Dbl)} (hc : FloatCustom (Arith.ieee Lm) .sRGB custom)
    (hs : ∀ e ∈ custom, ∀ g, e.2.image = some (some g) → g.bmp.width * g.bmp.height ≤ 2 ^ 24 ∧ UnitImage Lm g) {w h : ℕ}
    (hw : w < 2 ^ 31) (hh : h < 2 ^ 31) : RangeCustom (UnitFloats Lm) FewPixels w h custom := by
  intro e he
  obtain ⟨g, h1, h2, h3⟩ := hc e he
  obtain ⟨h4, h5⟩ := hs e he g h1
  exact ⟨g, h1, ⟨h2, h5⟩, fun w' h' hw' hh' => ⟨h3, (min_le_left _ _).trans h4, by omega, by omega⟩⟩

/-- With the rounding of doubles and singles, and a `pow` that is accurate to 50 bits: every level of an sRGB 1D, 2D or
cube texture of colours from 0 to 1 has such colours, and they are in the range of the base image and the custom images
that the level comes from, up to 1e-6 for every level. -/
theorem C53_flat_srgb_rounded {Lm : Libm} (P : AccuratePow Lm) {FI : FreeImage Dbl} (F : LawfulFI (Arith.ieee Lm) FI)
    (W : World (Image Dbl)) (hL : Lawful W.lib) (U : UsesImages (Arith.ieee Lm) FI W.lib) (calls : List (Op (Image Dbl)))
    (hsafe : SafeHist W none calls) (outs : List (Out (Image Dbl))) (t : Tex (Image Dbl))
    (hrun : run W none calls = .ok (outs, t)) (hdim : t.dimension ≠ .Dim3D) (hconv : t.converted = false)
    (hbase : BasePresent t) (hcs : t.colorSpace = .sRGB) (filter : ResizeFilter)
    (avg : ∀ w h, AverageDoubles Lm FI .RGBAF w h filter) (requested : ℕ) (custom : CustomMips (Image Dbl))
    (hcust : FloatCustom (Arith.ieee Lm) .sRGB custom)
    (hsmall : ∀ e ∈ custom, ∀ g, e.2.image = some (some g) → g.bmp.width * g.bmp.height ≤ 2 ^ 24 ∧ UnitImage Lm g)
    (t' : Tex (Image Dbl)) (hgen : t.generateMipmaps W.lib filter requested custom = .ok (true, t'))
    (face : Option CubeFace) (cf : CubeFace) (hface : addressed t.dimension face = some cf)
    (d : ℕ) (base : Image Dbl) (hb : t.getImage face 0 d = .ok (some base))
    (hbf : FloatImage (Arith.ieee Lm) .sRGB base) (hu : UnitImage Lm base)
    (hbc : Spec.Countable base) (hlast : NoOnceAtEnd custom t'.mipLevelCount cf d) (m : ℕ)
    (hm : m < t'.mipLevelCount) :
    ∃ g, t'.getImage face m d = .ok (some g) ∧ FloatImage (Arith.ieee Lm) .sRGB g ∧ UnitImage Lm g ∧
      g.bmp.width = extent base.bmp.width m ∧ g.bmp.height = extent base.bmp.height m ∧
      ∀ c, DoubleColors Lm g c → CloseDoubles (m / 10 ^ 6) (ChainColors (Arith.ieee Lm) base custom cf d m) c := by
  obtain ⟨c1, c2, c3, c4, c5⟩ := hbc
  have R := srgb_range P F U avg (depth := 0) (.inl rfl)
  rw [← hcs] at R
  obtain ⟨g, h1, h2, h3, h4, h5⟩ := flat_range W hL calls hsafe outs t hrun hdim hconv hbase R requested
    custom t' hgen face cf hface d base hb ⟨hbf, hu⟩ c1 c2 (srgb_custom hcust hsmall c3 c4)
    (fun m g _ h1 h2 => level_few c1 c2 c3 c4 c5 h1 h2) hlast m hm
  exact ⟨g, h1, h2.1, h2.2, h3, h4, fun c hc => (h5 c hc).mono (le_of_eq (by ring)) (fun c hc => hc)⟩

/-- 3D textures: the same, with the colours of all slices, for up to 2^24 slices, and twice 1e-6 for every level. -/
theorem C53_volume_srgb_rounded {Lm : Libm} (P : AccuratePow Lm) {FI : FreeImage Dbl} (F : LawfulFI (Arith.ieee Lm) FI)
    (M : EnoughMemory FI) (W : World (Image Dbl)) (hL : Lawful W.lib) (U : UsesImages (Arith.ieee Lm) FI W.lib)
    (calls : List (Op (Image Dbl))) (hsafe : SafeHist W none calls) (outs : List (Out (Image Dbl))) (t : Tex (Image Dbl))
    (hrun : run W none calls = .ok (outs, t)) (hdim : t.dimension = .Dim3D) (hconv : t.converted = false)
    (hbase : BasePresent t) (hcs : t.colorSpace = .sRGB) (filter : ResizeFilter)
    (avg : ∀ w h, AverageDoubles Lm FI .RGBAF w h filter) (requested : ℕ) (custom : CustomMips (Image Dbl))
    (hcust : FloatCustom (Arith.ieee Lm) .sRGB custom)
    (hsmall : ∀ e ∈ custom, ∀ g, e.2.image = some (some g) → g.bmp.width * g.bmp.height ≤ 2 ^ 24 ∧ UnitImage Lm g)
    (t' : Tex (Image Dbl)) (hgen : t.generateMipmaps W.lib filter requested custom = .ok (true, t'))
    (w h d : ℕ) (hw : t.widthAt 0 = .ok w) (hh : t.heightAt 0 = .ok h) (hd : t.depthAt 0 = .ok d)
    (hw' : w < 2 ^ 31) (hh' : h < 2 ^ 31) (hp : w * h < 2 ^ 32) (hd' : d ≤ 2 ^ 24)
    (base : List (Image Dbl)) (hlen : base.length = d) (hb : ∀ k, t.getImage none 0 k = .ok base[k]?)
    (hbf : ∀ g ∈ base, FloatImage (Arith.ieee Lm) .sRGB g ∧ UnitImage Lm g)
    (m : ℕ) (hm : m < t'.mipLevelCount) (k : ℕ) (hk : k < extent d m) :
    ∃ g, t'.getImage none m k = .ok (some g) ∧ FloatImage (Arith.ieee Lm) .sRGB g ∧ UnitImage Lm g ∧
      g.bmp.width = extent w m ∧ g.bmp.height = extent h m ∧
      ∀ c, DoubleColors Lm g c → CloseDoubles (2 * m / 10 ^ 6) (VolumeColors (Arith.ieee Lm) base custom m) c := by
  obtain ⟨pw, ph⟩ := size_positive W hL calls hsafe outs t hrun hbase hw hh
  have R := srgb_range P F U avg (depth := d) (.inr ⟨hd', M⟩)
  rw [← hcs] at R
  obtain ⟨g, h1, h2, h3, h4, h5⟩ := deep_range W hL calls hsafe outs t hrun hdim hconv hbase R requested custom t' hgen w h d
    hw hh hd (srgb_custom hcust hsmall hw' hh') le_rfl (fun m g _ h1 h2 => level_few pw ph hw' hh' hp h1 h2) base hlen hb hbf
    m hm k hk
  exact ⟨g, h1, h2.1, h2.2, h3, h4, fun c hc => (h5 c hc).mono (le_of_eq (by push_cast; ring)) (fun c hc => hc)⟩

/-- The full claim is false: a custom image is stored in its own colour space, here a linear image in an sRGB
texture. -/
theorem C53_fails_space :
    let custom : CustomMips Toy.Img := [(⟨.PosX, 1, 0⟩, ⟨some (some ⟨2, 2, true, .Linear, [9]⟩), .Continue⟩)]
    ∃ t, run Toy.world none [.initialize .Dim2D 4 4 0 1 .sRGB, Toy.put 4 4 1 none 0 0,
        .generateMipmaps .Box 2 custom] = .ok ([.bool true, .bool true, .bool true], t) ∧ t.colorSpace = .sRGB ∧
      (∃ g, t.getImage none 0 0 = .ok (some g) ∧ Toy.lib.colorSpace g = .sRGB) ∧
      ∃ g, t.getImage none 1 0 = .ok (some g) ∧ Toy.lib.colorSpace g = .Linear := by
  refine ⟨_, rfl, rfl, ⟨_, rfl, rfl⟩, _, rfl, rfl⟩

namespace Toy

/-- A FreeImage that resizes with the filters the code does not have (to the nearest pixel). -/
def rescaling {N : Type} (A : Arith N) : FreeImage N where
  __ := fi A true
  rescale b w h f := if f = .Box ∨ f = .Linear ∨ b.width = 0 ∨ b.height = 0 then none
    else some ⟨w, h, fun y x => b.px (y * b.height / h) (x * b.width / w)⟩

theorem rescaling_lawful {N : Type} {A : Arith N} (F : LawfulFI A (fi A true)) : LawfulFI A (rescaling A) :=
  { F with
    rescale := by
      intro b w h f b' e
      simp only [rescaling] at e
      split at e
      · cases e
      · rename_i hn
        cases e
        refine ⟨rfl, rfl, fun f hb y x hy hx => ?_⟩
        simp only at hy hx ⊢
        simp only [not_or] at hn
        refine hb _ _ ?_ ?_
        · exact Nat.div_lt_of_lt_mul (by nlinarith [Nat.pos_of_ne_zero hn.2.2.2])
        · exact Nat.div_lt_of_lt_mul (by nlinarith [Nat.pos_of_ne_zero hn.2.2.1]) }

theorem rescaling_exact : LawfulFI Arith.exact (rescaling Arith.exact) := rescaling_lawful (fi_exact true)

theorem rescaling_memory {N : Type} (A : Arith N) : EnoughMemory (rescaling A) := by
  refine ⟨fun f w h hf => ?_, fun b => ?_⟩
  · simp [rescaling, fi, hf]
  · simp [rescaling, fi]

theorem rescaling_can {N : Type} (A : Arith N) (f : ResizeFilter) : CanResize (rescaling A) f := by
  unfold CanResize
  by_cases h1 : f = .Box
  · exact Or.inl h1
  · by_cases h2 : f = .Linear
    · exact Or.inr (Or.inl h2)
    · refine Or.inr (Or.inr fun b w h hw hh => ?_)
      simp [rescaling, h1, h2, hw.ne', hh.ne']

/-- The modelled images in a texture. -/
noncomputable def realWorld : World (Image ℝ) :=
  ⟨imageLib Arith.exact (rescaling Arith.exact), world.feat, 1, fun _ _ _ => .ok []⟩

theorem realWorld_uses : UsesImages Arith.exact (rescaling Arith.exact) realWorld.lib :=
  imageLib_uses lawful_exact rescaling_exact (rescaling_memory _) (rescaling_can _)

/-- The same with the rounding of doubles and singles, and an accurate `pow`. -/
noncomputable def accurateWorld : World (Image Dbl) :=
  ⟨imageLib (Arith.ieee accurate) (rescaling (Arith.ieee accurate)), world.feat, 1, fun _ _ _ => .ok []⟩

theorem accurateWorld_uses : UsesImages (Arith.ieee accurate) (rescaling (Arith.ieee accurate)) accurateWorld.lib :=
  imageLib_uses (lawful_ieee accurate) (rescaling_lawful (fi_ieee accurate true)) (rescaling_memory _) (rescaling_can _)

/-- With the rounding of doubles and singles. -/
def ieeeWorld : World (Image Dbl) :=
  ⟨imageLib (Arith.ieee libm) (rescaling (Arith.ieee libm)), world.feat, 1, fun _ _ _ => .ok []⟩

theorem ieeeWorld_uses : UsesImages (Arith.ieee libm) (rescaling (Arith.ieee libm)) ieeeWorld.lib :=
  imageLib_uses (lawful_ieee libm) (rescaling_lawful (fi_ieee libm true)) (rescaling_memory _) (rescaling_can _)

/-- An image of 3 x 2 floats with the values 0 and 1 in its first channel. -/
def doubles3x2 (s : ℚ) : Image Dbl :=
  ⟨.RGBAF, .Linear, ⟨3, 2, fun _ x => .nums [if x = 0 then .fin 0 else .fin 1, .fin 1, .fin 3, .fin s]⟩⟩

/-- An image of 3 x 2 floats. -/
noncomputable def floats3x2 (cs : ColorSpace) (s : ℝ) : Image ℝ := ⟨.RGBAF, cs, ⟨3, 2, fun y x => .nums [x, y, s, 1]⟩⟩

end Toy

theorem floats_ok (cs : ColorSpace) (s : ℝ) : FloatImage Arith.exact cs (Toy.floats3x2 cs s) ∧ Spec.Countable (Toy.floats3x2 cs s) := by
  refine ⟨⟨?_, rfl, rfl⟩, by simp [Spec.Countable, Toy.floats3x2]⟩
  intro y x _ _
  simp [Toy.floats3x2, PxOk, Arith.exact]

theorem rescaling_average {filter : ResizeFilter} (hf : filter = .Box ∨ filter = .Linear) (w h : ℕ) :
    AverageFilter (Toy.rescaling Arith.exact) .RGBAF w h filter := by
  refine ⟨hf, Or.inr fun b b' cs e => ?_⟩
  simp only [Toy.rescaling] at e
  rw [if_pos (hf.elim Or.inl (fun h => Or.inr (Or.inl h)))] at e
  cases e

/-- An sRGB texture of 3 x 2 pixels that meets the hypotheses, with a custom image of another size. -/
example :
    let calls : List (Op (Image ℝ)) :=
      [.initialize .Dim2D 3 2 0 1 .sRGB, .setImage (some (Toy.floats3x2 .sRGB 0)) true none 0 0]
    let custom : CustomMips (Image ℝ) := [(⟨.PosX, 1, 0⟩, ⟨some (some (Toy.floats3x2 .sRGB 1)), .Continue⟩)]
    Lawful Toy.realWorld.lib ∧ SafeHist Toy.realWorld none calls ∧ ∃ outs t t',
      run Toy.realWorld none calls = .ok (outs, t) ∧ t.dimension ≠ .Dim3D ∧ t.converted = false ∧ BasePresent t ∧
      FloatCustom Arith.exact t.colorSpace custom ∧ t.generateMipmaps Toy.realWorld.lib .Linear 2 custom = .ok (true, t') ∧
      t'.mipLevelCount = 2 ∧ t.getImage none 0 0 = .ok (some (Toy.floats3x2 .sRGB 0)) ∧
      NoOnceAtEnd custom t'.mipLevelCount .PosX 0 := by
  intro calls custom
  have hL : Lawful Toy.realWorld.lib := imageLib_lawful _ _
  have hs : SafeHist Toy.realWorld none calls := ⟨by norm_num [SafeCall], fun _ _ _ => ⟨trivial, fun _ _ _ => trivial⟩⟩
  have hc : FloatCustom Arith.exact .sRGB custom := by
    intro e he
    simp only [custom, List.mem_cons, List.not_mem_nil, or_false] at he
    subst he
    exact ⟨_, rfl, floats_ok _ _⟩
  obtain ⟨outs, t, hr, h0, h2, h3, h4, h5, h6, h7, h8⟩ : ∃ outs t, run Toy.realWorld none calls = .ok (outs, t) ∧
      t.dimension = .Dim2D ∧ t.converted = false ∧ t.colorSpace = .sRGB ∧
      t.getImage none 0 0 = .ok (some (Toy.floats3x2 .sRGB 0)) ∧ BasePresent t ∧ t.widthAt 0 = .ok 3 ∧
      t.heightAt 0 = .ok 2 ∧ t.depthAt 0 = .ok 1 := by
    refine ⟨_, _, rfl, rfl, rfl, rfl, rfl, ⟨rfl, ?_⟩, rfl, rfl, rfl⟩
    intro face d k hk hd hf
    have : k = 1 := by
      have : (Res.ok 1 : Res ℕ) = .ok k := hk
      cases this
      rfl
    obtain rfl : d = 0 := by omega
    cases face with
    | none => exact ⟨_, rfl⟩
    | some f => cases f <;> first | exact ⟨_, rfl⟩ | exact absurd hf (by decide)
  have h1 : t.dimension ≠ .Dim3D := by rw [h0]; decide
  obtain ⟨t', e, hd⟩ := C11_flat_partial Toy.realWorld hL calls hs outs t hr h1 h2 h5 .Linear 2 custom
    (float_good hL Toy.realWorld_uses hc _) 3 2 1 h6 h7 h8
  refine ⟨hL, hs, outs, t, t', hr, h1, h2, h5, by rw [h3]; exact hc, e, ?_, h4, ?_⟩
  · rw [hd.levels, h0]
    decide
  · intro cf' d' c _ hf
    have := find_mem hf
    simp only [custom, List.mem_cons, List.not_mem_nil, or_false, Prod.mk.injEq] at this
    rw [this.2]
    decide

/-- A linear 3D texture of two slices that meets the hypotheses. -/
example :
    let calls : List (Op (Image ℝ)) := [.initialize .Dim3D 3 2 2 1 .Linear,
      .setImage (some (Toy.floats3x2 .Linear 0)) true none 0 0, .setImage (some (Toy.floats3x2 .Linear 1)) true none 0 1]
    SafeHist Toy.realWorld none calls ∧ ∃ outs t t',
      run Toy.realWorld none calls = .ok (outs, t) ∧ t.dimension = .Dim3D ∧ t.converted = false ∧ BasePresent t ∧
      t.generateMipmaps Toy.realWorld.lib .Box 2 [] = .ok (true, t') ∧ t'.mipLevelCount = 2 ∧
      (∀ k, t.getImage none 0 k = .ok [Toy.floats3x2 .Linear 0, Toy.floats3x2 .Linear 1][k]?) := by
  intro calls
  have hL : Lawful Toy.realWorld.lib := imageLib_lawful _ _
  have hs : SafeHist Toy.realWorld none calls :=
    ⟨by norm_num [SafeCall], fun _ _ _ => ⟨trivial, fun _ _ _ => ⟨trivial, fun _ _ _ => trivial⟩⟩⟩
  obtain ⟨outs, t, hr, h0, h2, h4, h5, h6, h7, h8⟩ : ∃ outs t, run Toy.realWorld none calls = .ok (outs, t) ∧
      t.dimension = .Dim3D ∧ t.converted = false ∧
      (∀ k, t.getImage none 0 k = .ok [Toy.floats3x2 .Linear 0, Toy.floats3x2 .Linear 1][k]?) ∧
      BasePresent t ∧ t.widthAt 0 = .ok 3 ∧ t.heightAt 0 = .ok 2 ∧ t.depthAt 0 = .ok 2 := by
    refine ⟨_, _, rfl, rfl, rfl, ?_, ⟨rfl, ?_⟩, rfl, rfl, rfl⟩
    · intro k
      match k with
      | 0 => rfl
      | 1 => rfl
      | k + 2 => rfl
    intro face d k hk hd hf
    have : k = 2 := by
      have : (Res.ok 2 : Res ℕ) = .ok k := hk
      cases this
      rfl
    subst this
    have hd : d = 0 ∨ d = 1 := by omega
    rcases hd with rfl | rfl <;>
    · cases face with
      | none => exact ⟨_, rfl⟩
      | some f => cases f <;> first | exact ⟨_, rfl⟩ | exact absurd hf (by decide)
  obtain ⟨b, t', e, hb, hd⟩ := C11_3d_partial Toy.realWorld hL calls hs outs t hr h0 h2 h5 .Box 2 []
    (float_good hL Toy.realWorld_uses (cs := .Linear) (by simp [FloatCustom]) _) 3 2 2 h6 h7 h8
  have hb : b = true := hb.2 (fun m _ _ => Or.inl (fun _ _ => rfl))
  subst hb
  refine ⟨hs, outs, t, t', hr, h0, h2, h5, e, ?_, h4⟩
  rw [(hd rfl).levels]
  decide

theorem doubles_ok {s : ℚ} (hs : Dbl.single (.fin s) = .fin s) :
    FloatImage (Arith.ieee Toy.libm) .Linear (Toy.doubles3x2 s) ∧ Spec.Countable (Toy.doubles3x2 s) ∧
      SmallDoubles Toy.libm (Toy.doubles3x2 s) := by
  refine ⟨⟨?_, rfl, rfl⟩, by simp [Spec.Countable, Toy.doubles3x2], by simp [Toy.doubles3x2], ?_⟩
  · intro y x _ _
    show Dbl.single (if x = 0 then .fin 0 else .fin 1) = (if x = 0 then .fin 0 else .fin 1) ∧ Dbl.single (.fin 1) = .fin 1 ∧
      Dbl.single (.fin 3) = .fin 3 ∧ Dbl.single (.fin s) = .fin s
    refine ⟨?_, by decide +kernel, by decide +kernel, hs⟩
    split <;> decide +kernel
  · rintro c ⟨x, y, e⟩
    obtain ⟨-, -, k⟩ := getPixel_some e
    cases k
    simp only [FiniteColor, doubleChannels, List.forall_mem_cons, List.not_mem_nil, IsEmpty.forall_iff, implies_true,
      and_true]
    refine ⟨?_, ⟨_, rfl⟩, ⟨_, rfl⟩, _, rfl⟩
    by_cases h : x = 0
    · exact ⟨0, if_pos h⟩
    · exact ⟨1, if_neg h⟩

theorem rescaling_doubles (Lm : Libm) {filter : ResizeFilter} (hf : filter = .Box ∨ filter = .Linear) (w h : ℕ) :
    AverageDoubles Lm (Toy.rescaling (Arith.ieee Lm)) .RGBAF w h filter := by
  refine ⟨hf, fun b b' cs e => ?_⟩
  simp only [Toy.rescaling] at e
  rw [if_pos (hf.elim Or.inl (fun h => Or.inr (Or.inl h)))] at e
  cases e

/-- A texture of 3 x 2 pixels that meets the hypotheses of `C53_flat_rounded`, with a custom image of another size; what
the code makes of the first pixel of the next level with and without the custom image. -/
example :
    let calls : List (Op (Image Dbl)) :=
      [.initialize .Dim2D 3 2 0 1 .Linear, .setImage (some (Toy.doubles3x2 0)) true none 0 0]
    let custom : CustomMips (Image Dbl) := [(⟨.PosX, 1, 0⟩, ⟨some (some (Toy.doubles3x2 1)), .Continue⟩)]
    Lawful Toy.ieeeWorld.lib ∧ SafeHist Toy.ieeeWorld none calls ∧ FloatCustom (Arith.ieee Toy.libm) .Linear custom ∧
    (∀ e ∈ custom, ∀ g, e.2.image = some (some g) → SmallDoubles Toy.libm g) ∧ ∃ outs t,
      run Toy.ieeeWorld none calls = .ok (outs, t) ∧ t.dimension ≠ .Dim3D ∧ t.converted = false ∧ BasePresent t ∧
      t.colorSpace = .Linear ∧ t.getImage none 0 0 = .ok (some (Toy.doubles3x2 0)) ∧
      (∃ t', t.generateMipmaps Toy.ieeeWorld.lib .Linear 2 custom = .ok (true, t') ∧ t'.mipLevelCount = 2 ∧
        NoOnceAtEnd custom t'.mipLevelCount .PosX 0 ∧
        Toy.firstPixel (t'.getImage none 1 0) = [.fin (11983726 / 2 ^ 24), .fin 1, .fin 3, .fin 1]) ∧
      ∃ t', t.generateMipmaps Toy.ieeeWorld.lib .Box 2 [] = .ok (true, t') ∧ t'.mipLevelCount = 2 ∧
        Toy.firstPixel (t'.getImage none 1 0) = [.fin (11184811 / 2 ^ 24), .fin 1, .fin 3, .fin 0] := by
  intro calls custom
  have one := doubles_ok (s := 1) (by decide +kernel)
  refine ⟨imageLib_lawful _ _, ⟨by norm_num [SafeCall], fun _ _ _ => ⟨trivial, fun _ _ _ => trivial⟩⟩, ?_, ?_, ?_⟩
  · intro e he
    simp only [custom, List.mem_cons, List.not_mem_nil, or_false] at he
    subst he
    exact ⟨_, rfl, one.1, one.2.1⟩
  · intro e he g hg
    simp only [custom, List.mem_cons, List.not_mem_nil, or_false] at he
    subst he
    cases hg
    exact one.2.2
  · refine ⟨_, _, rfl, by decide, rfl, ⟨rfl, ?_⟩, rfl, rfl, ⟨_, rfl, rfl, ?_, ?_⟩, _, rfl, rfl, ?_⟩
    · intro face d k hk hd hf
      have : k = 1 := by
        have : (Res.ok 1 : Res ℕ) = .ok k := hk
        cases this
        rfl
      obtain rfl : d = 0 := by omega
      cases face with
      | none => exact ⟨_, rfl⟩
      | some f => cases f <;> first | exact ⟨_, rfl⟩ | exact absurd hf (by decide)
    · intro cf' d' c _ hf
      have := find_mem hf
      simp only [custom, List.mem_cons, List.not_mem_nil, or_false, Prod.mk.injEq] at this
      rw [this.2]
      decide
    · decide +kernel
    · decide +kernel

/-- Two slices that meet the hypotheses of `C53_volume_rounded`, and the first pixel of the next level. -/
example :
    let calls : List (Op (Image Dbl)) := [.initialize .Dim3D 3 2 2 1 .Linear,
      .setImage (some (Toy.doubles3x2 0)) true none 0 0, .setImage (some (Toy.doubles3x2 1)) true none 0 1]
    EnoughMemory (Toy.rescaling (Arith.ieee Toy.libm)) ∧ SafeHist Toy.ieeeWorld none calls ∧ ∃ outs t,
      run Toy.ieeeWorld none calls = .ok (outs, t) ∧ t.dimension = .Dim3D ∧ t.converted = false ∧ BasePresent t ∧
      t.colorSpace = .Linear ∧ (∀ k, t.getImage none 0 k = .ok [Toy.doubles3x2 0, Toy.doubles3x2 1][k]?) ∧
      t.widthAt 0 = .ok 3 ∧ t.heightAt 0 = .ok 2 ∧ t.depthAt 0 = .ok 2 ∧
      (∃ t', t.generateMipmaps Toy.ieeeWorld.lib .Box 2 [] = .ok (true, t') ∧ t'.mipLevelCount = 2) ∧
      Toy.firstPixel ((t.generateMipmaps Toy.ieeeWorld.lib .Box 2 []).bind fun r => r.2.getImage none 1 0) =
        [.fin (11184811 / 2 ^ 24), .fin 1, .fin 3, .fin (1 / 2)] := by
  intro calls
  have hs : SafeHist Toy.ieeeWorld none calls :=
    ⟨by norm_num [SafeCall], fun _ _ _ => ⟨trivial, fun _ _ _ => ⟨trivial, fun _ _ _ => trivial⟩⟩⟩
  have hL : Lawful Toy.ieeeWorld.lib := imageLib_lawful _ _
  obtain ⟨outs, t, hr, h0, h2, h3, h4, h5, h6, h7, h8, h9⟩ : ∃ outs t, run Toy.ieeeWorld none calls = .ok (outs, t) ∧
      t.dimension = .Dim3D ∧ t.converted = false ∧ t.colorSpace = .Linear ∧
      (∀ k, t.getImage none 0 k = .ok [Toy.doubles3x2 0, Toy.doubles3x2 1][k]?) ∧
      BasePresent t ∧ t.widthAt 0 = .ok 3 ∧ t.heightAt 0 = .ok 2 ∧ t.depthAt 0 = .ok 2 ∧
      Toy.firstPixel ((t.generateMipmaps Toy.ieeeWorld.lib .Box 2 []).bind fun r => r.2.getImage none 1 0) =
        [.fin (11184811 / 2 ^ 24), .fin 1, .fin 3, .fin (1 / 2)] := by
    refine ⟨_, _, rfl, rfl, rfl, rfl, ?_, ⟨rfl, ?_⟩, rfl, rfl, rfl, ?_⟩
    · intro k
      match k with
      | 0 => rfl
      | 1 => rfl
      | k + 2 => rfl
    · intro face d k hk hd hf
      have : k = 2 := by
        have : (Res.ok 2 : Res ℕ) = .ok k := hk
        cases this
        rfl
      subst this
      have hd : d = 0 ∨ d = 1 := by omega
      rcases hd with rfl | rfl <;>
      · cases face with
        | none => exact ⟨_, rfl⟩
        | some f => cases f <;> first | exact ⟨_, rfl⟩ | exact absurd hf (by decide)
    · decide +kernel
  obtain ⟨b, t', e, hb, hd⟩ := C11_3d_partial Toy.ieeeWorld hL calls hs outs t hr h0 h2 h5 .Box 2 []
    (float_good hL Toy.ieeeWorld_uses (cs := .Linear) (by simp [FloatCustom]) _) 3 2 2 h6 h7 h8
  have hb : b = true := hb.2 (fun m _ _ => Or.inl (fun _ _ => rfl))
  subst hb
  refine ⟨Toy.rescaling_memory _, hs, outs, t, hr, h0, h2, h5, h3, h4, h6, h7, h8, ⟨t', e, ?_⟩, h9⟩
  rw [(hd rfl).levels]
  decide

/-- An sRGB texture of 3 x 2 pixels that meets the hypotheses of `C53_flat_srgb_rounded`, with a custom image; its next level
has colours from 0 to 1, and its second channel stays within 1e-6 of 1/2. -/
example :
    let calls : List (Op (Image Dbl)) :=
      [.initialize .Dim2D 3 2 0 1 .sRGB, .setImage (some Toy.srgb3x2) true none 0 0]
    let custom : CustomMips (Image Dbl) := [(⟨.PosX, 1, 0⟩, ⟨some (some Toy.srgb3x2), .Continue⟩)]
    ∃ outs t t' g, run Toy.accurateWorld none calls = .ok (outs, t) ∧
      t.generateMipmaps Toy.accurateWorld.lib .Linear 2 custom = .ok (true, t') ∧ t'.mipLevelCount = 2 ∧
      t'.getImage none 1 0 = .ok (some g) ∧ g.bmp.width = 1 ∧ UnitImage Toy.accurate g ∧
      ∀ c, DoubleColors Toy.accurate g c → ∃ q : ℚ, c.g = .fin q ∧ 1 / 2 - 1 / 10 ^ 6 ≤ q ∧ q ≤ 1 / 2 + 1 / 10 ^ 6 := by
  intro calls custom
  obtain ⟨i1, i2, i3⟩ := Toy.srgb3x2_ok Toy.accurate
  have hL : Lawful Toy.accurateWorld.lib := imageLib_lawful _ _
  have hs : SafeHist Toy.accurateWorld none calls := ⟨by norm_num [SafeCall], fun _ _ _ => ⟨trivial, fun _ _ _ => trivial⟩⟩
  have hc : FloatCustom (Arith.ieee Toy.accurate) .sRGB custom := by
    intro e he
    simp only [custom, List.mem_cons, List.not_mem_nil, or_false] at he
    subst he
    exact ⟨_, rfl, ⟨i1, rfl, rfl⟩, i2⟩
  have hsm : ∀ e ∈ custom, ∀ g, e.2.image = some (some g) → g.bmp.width * g.bmp.height ≤ 2 ^ 24 ∧
      UnitImage Toy.accurate g := by
    intro e he g hg
    simp only [custom, List.mem_cons, List.not_mem_nil, or_false] at he
    subst he
    cases hg
    exact ⟨by norm_num [Toy.srgb3x2], i3⟩
  obtain ⟨outs, t, hr, h0, h2, h3, h4, h5, h6, h7, h8⟩ : ∃ outs t, run Toy.accurateWorld none calls = .ok (outs, t) ∧
      t.dimension = .Dim2D ∧ t.converted = false ∧ t.colorSpace = .sRGB ∧
      t.getImage none 0 0 = .ok (some Toy.srgb3x2) ∧ BasePresent t ∧ t.widthAt 0 = .ok 3 ∧
      t.heightAt 0 = .ok 2 ∧ t.depthAt 0 = .ok 1 := by
    refine ⟨_, _, rfl, rfl, rfl, rfl, rfl, ⟨rfl, ?_⟩, rfl, rfl, rfl⟩
    intro face d k hk hd hf
    have : k = 1 := by
      have : (Res.ok 1 : Res ℕ) = .ok k := hk
      cases this
      rfl
    obtain rfl : d = 0 := by omega
    cases face with
    | none => exact ⟨_, rfl⟩
    | some f => cases f <;> first | exact ⟨_, rfl⟩ | exact absurd hf (by decide)
  have h1 : t.dimension ≠ .Dim3D := by rw [h0]; decide
  obtain ⟨t', e, hd⟩ := C11_flat_partial Toy.accurateWorld hL calls hs outs t hr h1 h2 h5 .Linear 2 custom
    (float_good hL Toy.accurateWorld_uses hc _) 3 2 1 h6 h7 h8
  have hlev : t'.mipLevelCount = 2 := by
    rw [hd.levels, h0]
    decide
  obtain ⟨g, g1, -, g2, g3, -, g4⟩ := C53_flat_srgb_rounded Toy.accurate_pow
    (Toy.rescaling_lawful (Toy.fi_ieee Toy.accurate true)) Toy.accurateWorld hL Toy.accurateWorld_uses calls hs outs t hr h1 h2
    h5 h3 .Linear (rescaling_doubles _ (.inr rfl)) 2 custom hc hsm t' e none .PosX (by rw [h0]; rfl) 0 _ h4 ⟨i1, rfl, rfl⟩ i3
    i2 (by
      intro cf' d' c _ hf
      have := find_mem hf
      simp only [custom, List.mem_cons, List.not_mem_nil, or_false, Prod.mk.injEq] at this
      rw [this.2]
      decide) 1 (by omega)
  refine ⟨outs, t, t', g, hr, e, hlev, g1, g3, g2, fun c hc => ?_⟩
  have own {a : Color Dbl} (ha : ChainColors (Arith.ieee Toy.accurate) Toy.srgb3x2 custom .PosX 0 1 a) : a.g = .fin (1 / 2) := by
    have img {a : Color Dbl} (ha : ImageColors (Arith.ieee Toy.accurate) Toy.srgb3x2 a) : a.g = .fin (1 / 2) := by
      obtain ⟨x, y, e⟩ := ha
      obtain ⟨-, -, k⟩ := getPixel_some e
      cases k
      rfl
    rcases ha with ha | ⟨k, -, e, g, he, hg, ha⟩
    · exact img ha
    · have := find_mem he
      simp only [custom, List.mem_cons, List.not_mem_nil, or_false, Prod.mk.injEq] at this
      rw [this.2] at hg
      cases hg
      exact img ha
  obtain ⟨lo, hi, q, eq, l, u, ⟨a, ha, ea⟩, b, hb, eb⟩ := g4 c hc Color.g (by simp [doubleChannels])
  rw [own ha] at ea
  rw [own hb] at eb
  cases ea
  cases eb
  exact ⟨q, eq, by linarith, by linarith⟩

end Cuttlefish
