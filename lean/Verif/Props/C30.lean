import Verif.Proofs.ResizeSafe
import Verif.Proofs.DepthIeee
import Verif.Proofs.SrgbResize
import Verif.Proofs.ProcessAlive
import Verif.Spec.ToyPow
import Verif.Proofs.Resize
import Verif.Proofs.ArithLaws
import Verif.Props.C29
/-
C30: resizing averages.

Stated in exact arithmetic (`Arith.exact`); that it is defined, and that averages do not grow beyond a power of two,
also with the rounding of doubles (`C30_defined`, `C30_rounded`); with this rounding the box filter, the linear filter
and the reduction of 3D textures keep the range of linear images of floats exactly (`C30_box`, `C30_weighted`,
`C30_depth_rounded`), and that of sRGB images of floats from 0 to 1 up to 1e-6 (`C30_srgb_rounded`,
`C30_srgb_depth_rounded`).  `Between`, `Colors`, `OwnFilter`, `AverageFilter`,
`Countable` and `SliceColors` are in `Verif/Spec/Resize.lean`.  A read outside the source, an overflowing conversion of
a window bound and an undefined store are `Res.ub` in the model, so a result `.ok` excludes them.
-/
namespace Cuttlefish
open Spec

/-- The result of a resize that meets the property up to `e`: the new size, the old format and colour
space, and no channel outside the range of the source. -/
def Spec.Averages (e : ℝ) (i : Image ℝ) (w h : Nat) (j : Image ℝ) : Prop :=
  ImgOk Arith.exact j ∧ j.format = i.format ∧ j.colorSpace = i.colorSpace ∧ j.bmp.width = w ∧ j.bmp.height = h ∧
    ∀ d, Colors j d → Between e (Colors i) d

/-- Resizing a linear image with the box or the linear filter, by the code or by a FreeImage that gives
averages, is defined, and either there is no memory or the result is made of averages. -/
theorem C30_linear {FI : FreeImage ℝ} (LF : LawfulFI Arith.exact FI) {i : Image ℝ} (hi : ImgOk Arith.exact i)
    (hcount : Countable i) (hlin : i.colorSpace = .Linear) {w h : Nat} (hw : 0 < w) (hh : 0 < h)
    {filter : ResizeFilter} (avg : AverageFilter FI i.format w h filter) :
    ∃ r, i.resize Arith.exact FI w h filter = .ok r ∧ ∀ j, r = some j → Averages 0 i w h j := by
  unfold Image.resize
  rw [if_neg (by omega)]
  by_cases hs : w = i.bmp.width ∧ h = i.bmp.height
  · rw [if_pos hs]
    refine ⟨_, rfl, ?_⟩
    intro j hj
    rw [show j = i from (copy_same LF hj)]
    exact ⟨hi, rfl, rfl, hs.1.symm, hs.2.symm, fun d hd ch _ => ⟨⟨d, hd, by linarith⟩, d, hd, by linarith⟩⟩
  · rw [if_neg hs, if_neg (by simp [hlin])]
    exact resizeLinear_between LF hi hcount avg

/-- A constant image stays constant. -/
theorem C30_constant {FI : FreeImage ℝ} (LF : LawfulFI Arith.exact FI) {i : Image ℝ} (hi : ImgOk Arith.exact i)
    (hcount : Countable i) (hlin : i.colorSpace = .Linear) {w h : Nat} (hw : 0 < w) (hh : 0 < h)
    {filter : ResizeFilter} (avg : AverageFilter FI i.format w h filter) {c : Color ℝ} (hc : ∀ d, Colors i d → d = c)
    {j : Image ℝ} (hj : i.resize Arith.exact FI w h filter = .ok (some j)) :
    ∀ x y, x < w → y < h → j.getPixel Arith.exact x y = .ok (some c) := by
  obtain ⟨r, e, ha⟩ := C30_linear LF hi hcount hlin hw hh avg
  rw [hj] at e
  cases e
  obtain ⟨j1, -, -, j4, j5, j6⟩ := ha j rfl
  intro x y hx hy
  obtain ⟨d, e1, e2⟩ := Image.get_ok j1 (show j.bmp.height - y - 1 < j.bmp.height by omega)
    (show x < j.bmp.width by omega)
  have hd : j.getPixel Arith.exact x y = .ok (some d) := by
    rw [getPixel_in (by omega) (by omega), e2]
    rfl
  rw [hd]
  have hb := j6 d ⟨x, y, hd⟩
  have ch (f : Color ℝ → ℝ) (hf : f ∈ colorChannels) : f d = f c := by
    obtain ⟨⟨a, ha, h1⟩, b, hb, h2⟩ := hb f hf
    rw [hc a ha] at h1
    rw [hc b hb] at h2
    linarith
  have : d = c := color_eq (ch Color.r (by simp [colorChannels])) (ch Color.g (by simp [colorChannels]))
    (ch Color.b (by simp [colorChannels])) (ch Color.a (by simp [colorChannels]))
  rw [this]

/-- `toSRGB` takes values between converted ones to values between the original ones, up to 2e-7. -/
theorem back_between {a d : ℝ} : (toLinear a ≤ d → a - 2 / 10 ^ 7 ≤ toSRGB d) ∧
    (d ≤ toLinear a → toSRGB d ≤ a + 2 / 10 ^ 7) := by
  have hn := abs_le.1 (toSRGB_toLinear_near a)
  constructor
  · intro h
    rcases h.eq_or_lt with h | h
    · rw [← h]
      linarith
    · have := toSRGB_almost h
      linarith
  · intro h
    rcases h.eq_or_lt with h | h
    · rw [h]
      linarith
    · have := toSRGB_almost h
      linarith

/-- Resizing a floating point sRGB image is done in linear space, and keeps the channels in the range of
the source up to 2e-7.  Missing: sRGB images with fixed steps, where it is false (`C30_fails_srgb`). -/
theorem C30_srgb_partial {FI : FreeImage ℝ} (LF : LawfulFI Arith.exact FI) {i : Image ℝ}
    (hi : ImgOk Arith.exact i) (hcount : Countable i) (hf : IsFloat i.format) (hcs : i.colorSpace = .sRGB)
    {w h : Nat} (hw : 0 < w) (hh : 0 < h) {filter : ResizeFilter} (avg : AverageFilter FI i.format w h filter) :
    ∃ r, i.resize Arith.exact FI w h filter = .ok r ∧ ∀ j, r = some j → Averages (2 / 10 ^ 7) i w h j := by
  unfold Image.resize
  rw [if_neg (by omega)]
  by_cases hs : w = i.bmp.width ∧ h = i.bmp.height
  · rw [if_pos hs]
    refine ⟨_, rfl, ?_⟩
    intro j hj
    rw [show j = i from (copy_same LF hj)]
    exact ⟨hi, rfl, rfl, hs.1.symm, hs.2.symm,
      fun d hd ch _ => ⟨⟨d, hd, by linarith⟩, d, hd, by linarith⟩⟩
  rw [if_neg hs, if_pos (by simp [hcs])]
  cases hcopy : i.copy FI with
  | none => exact ⟨none, rfl, by simp⟩
  | some i' =>
    rw [show i' = i from (copy_same LF hcopy)]
    obtain ⟨j, ej, j1, j2, j3, j4, j5, j6⟩ := C29_image hi .Linear (fun x y c _ => fitting_float hf _)
    have colj {c} (hc : Colors j c) : ∃ c', Colors i c' ∧ c = onColor toLinear c' := by
      obtain ⟨x, y, hc⟩ := hc
      obtain ⟨g1, g2, -⟩ := getPixel_some hc
      obtain ⟨c', e1, e2⟩ := Image.get_ok hi (show i.bmp.height - y - 1 < i.bmp.height by omega)
        (show x < i.bmp.width by omega)
      have hc' : i.getPixel Arith.exact x y = .ok (some c') := by
        rw [getPixel_in (by omega) (by omega), e2]
        rfl
      have := j6 x y c' hc'
      rw [stored_float hf (transfer_zero _ _) (exact_read hi hc').1, hc, hcs] at this
      cases this
      exact ⟨c', ⟨x, y, hc'⟩, rfl⟩
    obtain ⟨h1, h2, h3, h4, h5⟩ := hcount
    obtain ⟨r, er, hr⟩ := resizeLinear_between LF j1 (w := w) (h := h) (filter := filter)
      ⟨by omega, by omega, by omega, by omega, by rw [j4, j5]; exact h5⟩ (by rw [j2]; exact avg)
    simp only [ej, Res.ok_bind, er]
    cases r with
    | none => exact ⟨none, rfl, by simp⟩
    | some k =>
      obtain ⟨k1, k2, k3, k4, k5, k6⟩ := hr k rfl
      have hfk : IsFloat k.format := by rw [k2, j2]; exact hf
      obtain ⟨l, el, l1, l2, l3, l4, l5, l6⟩ := C29_image k1 i.colorSpace (fun x y c _ => fitting_float hfk _)
      refine ⟨some l, by simp only [el, Res.ok_bind], ?_⟩
      rintro _ ⟨⟩
      refine ⟨l1, l2.trans (k2.trans j2), l3, l4.trans k4, l5.trans k5, ?_⟩
      rintro d ⟨x, y, hd⟩
      obtain ⟨g1, g2, -⟩ := getPixel_some hd
      obtain ⟨c, e1, e2⟩ := Image.get_ok k1 (show k.bmp.height - y - 1 < k.bmp.height by omega)
        (show x < k.bmp.width by omega)
      have hc : k.getPixel Arith.exact x y = .ok (some c) := by
        rw [getPixel_in (by omega) (by omega), e2]
        rfl
      have := l6 x y c hc
      rw [stored_float hfk (transfer_zero _ _) (exact_read k1 hc).1, hd, k3, j3, hcs] at this
      cases this
      have hb := k6 c ⟨x, y, hc⟩
      intro ch hch
      obtain ⟨⟨a, ha, b1⟩, b, hb, b2⟩ := hb ch hch
      obtain ⟨a', ha', rfl⟩ := colj ha
      obtain ⟨b', hb', rfl⟩ := colj hb
      refine ⟨⟨a', ha', ?_⟩, b', hb', ?_⟩ <;>
        simp only [colorChannels, List.mem_cons, List.not_mem_nil, or_false] at hch <;>
        rcases hch with rfl | rfl | rfl | rfl <;> simp only [onColor, transfer, sub_zero, add_zero] at b1 b2 ⊢
      · exact back_between.1 b1
      · exact back_between.1 b1
      · exact back_between.1 b1
      · linarith
      · exact back_between.2 b2
      · exact back_between.2 b2
      · exact back_between.2 b2
      · linarith

/-- One pixel of the 3D reduction, converted back, is between the source pixels. -/
theorem slice_between {prev : List (Image ℝ)} {y x : Nat} {cs : ColorSpace} {lo hi c : Color ℝ}
    (clo : ∀ ch ∈ colorChannels, ∃ c, SliceColors prev y x c ∧ ch c = ch lo)
    (chi : ∀ ch ∈ colorChannels, ∃ c, SliceColors prev y x c ∧ ch c = ch hi)
    (h1 : Below (linearSource Arith.exact cs lo) c) (h2 : Below c (linearSource Arith.exact cs hi)) :
    Between (if cs = .sRGB then 2 / 10 ^ 7 else 0) (SliceColors prev y x) (storedResult Arith.exact cs c) := by
  intro ch hch
  obtain ⟨a, ha, ea⟩ := clo ch hch
  obtain ⟨b, hb, eb⟩ := chi ch hch
  refine ⟨⟨a, ha, ?_⟩, b, hb, ?_⟩
  · rw [ea]
    obtain ⟨p1, p2, p3, p4⟩ := h1
    cases cs with
    | Linear =>
      simp only [colorChannels, List.mem_cons, List.not_mem_nil, or_false] at hch
      rcases hch with rfl | rfl | rfl | rfl <;>
        simp only [linearSource, storedResult, reduceCtorEq, if_false, sub_zero] at p1 p2 p3 p4 ⊢ <;>
        assumption
    | sRGB =>
      simp only [linearSource, storedResult, if_true, exact_toLinear, exact_toSRGB] at p1 p2 p3 p4 ⊢
      simp only [colorChannels, List.mem_cons, List.not_mem_nil, or_false] at hch
      rcases hch with rfl | rfl | rfl | rfl
      · exact back_between.1 p1
      · exact back_between.1 p2
      · exact back_between.1 p3
      · exact le_trans (by norm_num) p4
  · rw [eb]
    obtain ⟨p1, p2, p3, p4⟩ := h2
    cases cs with
    | Linear =>
      simp only [colorChannels, List.mem_cons, List.not_mem_nil, or_false] at hch
      rcases hch with rfl | rfl | rfl | rfl <;>
        simp only [linearSource, storedResult, reduceCtorEq, if_false, add_zero] at p1 p2 p3 p4 ⊢ <;>
        assumption
    | sRGB =>
      simp only [linearSource, storedResult, if_true, exact_toLinear, exact_toSRGB] at p1 p2 p3 p4 ⊢
      simp only [colorChannels, List.mem_cons, List.not_mem_nil, or_false] at hch
      rcases hch with rfl | rfl | rfl | rfl
      · exact back_between.2 p1
      · exact back_between.2 p2
      · exact back_between.2 p3
      · exact le_trans p4 (by norm_num)

theorem linearSource_mono {cs : ColorSpace} {c d : Color ℝ} (h : Below c d) :
    Below (linearSource Arith.exact cs c) (linearSource Arith.exact cs d) := by
  have mono {a b : ℝ} (h : a ≤ b) : toLinear a ≤ toLinear b := by
    rcases h.eq_or_lt with rfl | h
    · exact le_rfl
    · exact (toLinear_strict h).le
  obtain ⟨h1, h2, h3, h4⟩ := h
  cases cs with
  | Linear => exact ⟨h1, h2, h3, h4⟩
  | sRGB =>
    simp only [linearSource, if_true, exact_toLinear]
    exact ⟨mono h1, mono h2, mono h3, h4⟩

/-- The reduction of a 3D texture along its depth: if the new slice can be allocated, it is computed
without reading outside of the source slices, and every channel of every pixel is between those of the
source slices at the same place, exactly for linear and up to 2e-7 for sRGB textures.  Missing: a slice
that cannot be allocated is written through a null pointer (`C30_fails_memory`). -/
theorem C30_depth_partial {FI : FreeImage ℝ} (LF : LawfulFI Arith.exact FI) {prev : List (Image ℝ)} (hne : prev ≠ [])
    (hlen : prev.length < 2 ^ 31) {w h depth d : Nat} (hd : d < depth)
    (hok : ∀ i ∈ prev, ImgOk Arith.exact i ∧ i.format = .RGBAF ∧ w ≤ i.bmp.width ∧ h ≤ i.bmp.height)
    (cs : ColorSpace) (filter : ResizeFilter) (hmem : FI.alloc .RGBAF w h ≠ none) :
    ∃ j, mipSlice3d Arith.exact FI prev w h depth cs filter d = .ok j ∧ ImgOk Arith.exact j ∧
      j.format = .RGBAF ∧ j.colorSpace = cs ∧ j.bmp.width = w ∧ j.bmp.height = h ∧
      ∀ x y c, j.getPixel Arith.exact x y = .ok (some c) →
        Between (if cs = .sRGB then 2 / 10 ^ 7 else 0) (SliceColors prev y x) c := by
  unfold mipSlice3d
  cases hn : Image.new FI .RGBAF w h cs with
  | none =>
    unfold Image.new at hn
    rw [if_neg (by simp), Option.map_eq_none_iff] at hn
    exact absurd hn hmem
  | some dst =>
    obtain ⟨n1, n2, n3, n4, -⟩ := new_ok LF hn
    have px (y x : Nat) (hy : y < h) (hx : x < w) : ∃ c : Color ℝ,
        pixel3d Arith.exact prev depth cs filter d y x = .ok c ∧
        Between (if cs = .sRGB then 2 / 10 ^ 7 else 0) (SliceColors prev y x) c := by
      have hok' : ∀ i ∈ prev, ImgOk Arith.exact i ∧ y < i.bmp.height ∧ x < i.bmp.width := by
        intro i hi
        obtain ⟨h1, -, h2, h3⟩ := hok i hi
        exact ⟨h1, by omega, by omega⟩
      obtain ⟨lo, hi, hb, clo, chi⟩ := slice_bounds hne hok'
      obtain ⟨⟨c1, e1, p1, q1⟩, c2, e2, p2, q2⟩ := sum3d hne hlen hd hok' (cs := cs)
        (lo := linearSource Arith.exact cs lo) (hi := linearSource Arith.exact cs hi)
        (fun c hc => ⟨linearSource_mono (hb c hc).1, linearSource_mono (hb c hc).2⟩)
      unfold pixel3d
      by_cases hf : filter = .Box
      · rw [if_pos hf]
        exact ⟨_, e1, slice_between clo chi p1 q1⟩
      · rw [if_neg hf]
        exact ⟨_, e2, slice_between clo chi p2 q2⟩
    obtain ⟨j, e, h1, h2, h3, h4, h5⟩ := write_grid (dst := dst) (h := h) (w := w)
      (q := fun y x => (h - y - 1, x))
      (P := fun y x p => ∃ c, p = .nums [c.r, c.g, c.b, c.a] ∧
        Between (if cs = .sRGB then 2 / 10 ^ 7 else 0) (SliceColors prev y x) c)
      (body := fun y x dst => do
        let c ← pixel3d Arith.exact prev depth cs filter d y x
        dst.put (dst.bmp.height - y - 1) x (.nums [c.r, c.g, c.b, c.a])) (by
        intro y hy x hx D df dw dh dp
        obtain ⟨c, ec, b⟩ := px y x hy hx
        refine ⟨_, ⟨c, rfl, b⟩, ?_⟩
        rw [ec, Res.ok_bind, dh, n4]
        exact Image.put_ok (i := D) (y := h - y - 1) (x := x) (by omega) (by omega) _)
      (by
        intro y hy x hx y' hy' x' hx' h
        simp only [Prod.mk.injEq] at h
        omega)
    have px' {y x : Nat} (hy : y < h) (hx : x < w) := h5 (h - y - 1) (by omega) x hx
    refine ⟨j, e, ?_, h1.trans n1, h2.trans n2, h3.trans n3, h4.trans n4, ?_⟩
    · intro y x hy hx
      obtain ⟨c, ec, -⟩ := px' (show y < h by omega) (show x < w by omega)
      rw [show h - (h - y - 1) - 1 = y by omega] at ec
      rw [ec, h1, n1]
      simp [PxOk, Arith.exact]
    · intro x y c hc
      obtain ⟨g1, g2, g3⟩ := getPixel_some hc
      obtain ⟨c', ec, b⟩ := h5 y (by omega) x (by omega)
      rw [show j.bmp.height - y - 1 = h - y - 1 by omega, h1, n1, ec] at g3
      cases g3
      exact b

/-- A slice that cannot be allocated is undefined behaviour. -/
theorem C30_fails_memory : ∃ (FI : FreeImage ℝ), LawfulFI Arith.exact FI ∧
    ∀ prev depth cs filter d, mipSlice3d Arith.exact FI prev 1 1 depth cs filter d = .ub := by
  refine ⟨{ Toy.fi Arith.exact true with alloc := fun _ _ _ => none }, { Toy.fi_exact true with alloc := ?_ }, ?_⟩
  · intro f w h b e
    cases e
  · intros
    rfl

/-- An 8-bit sRGB image can leave the range of the source: a constant image with the smallest
non-zero value becomes black. -/
theorem C30_fails_srgb : ∃ (i j : Image ℝ), ImgOk Arith.exact i ∧ Countable i ∧ i.format = .RGBA8 ∧
    OwnFilter (Toy.fi Arith.exact true) i 1 1 .Box ∧
    (∀ c, Colors i c → c = ⟨1 / 255, 1 / 255, 1 / 255, 1⟩) ∧
    i.resize Arith.exact (Toy.fi Arith.exact true) 1 1 .Box = .ok (some j) ∧
    j.getPixel Arith.exact 0 0 = .ok (some ⟨0, 0, 0, 1⟩) := by
  have hi : ImgOk Arith.exact (⟨.RGBA8, .sRGB, ⟨2, 2, fun _ _ => .ints [1, 1, 1, 255]⟩⟩ : Image ℝ) := by
    intro y x _ _
    simp [PxOk, Upto]
  have fit (c : Color ℝ) : Fitting .RGBA8 c := ⟨by simp, by simp [intRange]⟩
  have n0 : nearest 255 (1 / 255 / 12.92) = 0 := by
    have : ⌊max (min (1 / 255 / 12.92) 1) 0 * ((255 : ℕ) : ℝ) + 1 / 2⌋ = 0 := by
      rw [min_eq_left (by norm_num), max_eq_left (by norm_num), Int.floor_eq_iff]
      norm_num
    rw [nearest, this]
    simp
  have nz : nearest 255 0 = 0 := by
    have : ⌊max (min (0 : ℝ) 1) 0 * ((255 : ℕ) : ℝ) + 1 / 2⌋ = 0 := by
      rw [Int.floor_eq_iff]
      norm_num
    rw [nearest, this]
    simp
  have n1 : nearest 255 1 = 1 := by
    have : ⌊max (min (1 : ℝ) 1) 0 * ((255 : ℕ) : ℝ) + 1 / 2⌋ = 255 := by
      rw [min_self, max_eq_left zero_le_one, Int.floor_eq_iff]
      norm_num
    rw [nearest, this]
    norm_num
  have hcol {x y : Nat} {c : Color ℝ} (h : (⟨.RGBA8, .sRGB, ⟨2, 2, fun _ _ => .ints [1, 1, 1, 255]⟩⟩ :
      Image ℝ).getPixel Arith.exact x y = .ok (some c)) : c = ⟨1 / 255, 1 / 255, 1 / 255, 1⟩ := by
    obtain ⟨-, -, h⟩ := getPixel_some h
    simp only [getPixelImpl, fromNorm_exact, Res.ok_bind, Res.ok.injEq] at h
    rw [← h]
    norm_num
  obtain ⟨j, ej, j1, j2, j3, j4, j5, j6⟩ := C29_image hi .Linear (fun x y c _ => fit _)
  -- all linear pixels are black
  have hblack {c} (h : Colors j c) : c = ⟨0, 0, 0, 1⟩ := by
    obtain ⟨x, y, h⟩ := h
    obtain ⟨g1, g2, -⟩ := getPixel_some h
    simp only at j4 j5
    obtain ⟨c', e1, e2⟩ := Image.get_ok hi (show 2 - y - 1 < 2 by omega) (show x < 2 by omega)
    have hc' : (⟨.RGBA8, .sRGB, ⟨2, 2, fun _ _ => .ints [1, 1, 1, 255]⟩⟩ : Image ℝ).getPixel Arith.exact x y =
        .ok (some c') := by
      rw [getPixel_in (by show x < 2; omega) (by show y < 2; omega), e2]
      rfl
    have := j6 x y c' hc'
    rw [h, hcol hc'] at this
    simp only [Res.ok.injEq, Option.some.injEq] at this
    rw [this]
    simp only [stored, onColor, transfer]
    rw [toLinear_low (by norm_num), n0, n1]
  obtain ⟨r, er, hr⟩ := resizeLinear_between (Toy.fi_exact true) j1 (w := 1) (h := 1) (filter := .Box)
    ⟨by rw [j4]; norm_num, by rw [j5]; norm_num, by rw [j4]; norm_num, by rw [j5]; norm_num,
      by rw [j4, j5]; norm_num⟩ (OwnFilter.average ⟨Or.inl rfl, Or.inr (fun _ => rfl)⟩)
  have hsome : ∃ k, r = some k := by
    cases r with
    | some k => exact ⟨k, rfl⟩
    | none =>
      unfold resizeLinear at er
      rw [j2] at er
      obtain ⟨_, -, e⟩ := Res.bind_eq_ok.1 er
      cases e
  obtain ⟨k, rfl⟩ := hsome
  obtain ⟨k1, k2, k3, k4, k5, k6⟩ := hr k rfl
  obtain ⟨l, el, l1, l2, l3, l4, l5, l6⟩ := C29_image k1 .sRGB (fun x y c _ => by rw [k2, j2]; exact fit _)
  refine ⟨_, l, hi, by simp [Spec.Countable], rfl, ⟨Or.inl rfl, Or.inr (fun _ => rfl)⟩, ?_, ?_, ?_⟩
  · rintro c ⟨x, y, h⟩
    exact hcol h
  · unfold Image.resize
    rw [if_neg (by simp), if_neg (by simp), if_pos (by simp)]
    have hc : (⟨.RGBA8, .sRGB, ⟨2, 2, fun _ _ => .ints [1, 1, 1, 255]⟩⟩ : Image ℝ).copy (Toy.fi Arith.exact true) =
      some ⟨.RGBA8, .sRGB, ⟨2, 2, fun _ _ => .ints [1, 1, 1, 255]⟩⟩ := rfl
    simp only [hc, ej, Res.ok_bind, er, el]
  · obtain ⟨c, e1, e2⟩ := Image.get_ok k1 (show k.bmp.height - 0 - 1 < k.bmp.height by omega)
      (show 0 < k.bmp.width by omega)
    have hc : k.getPixel Arith.exact 0 0 = .ok (some c) := by
      rw [getPixel_in (by omega) (by omega), e2]
      rfl
    have hb := k6 c ⟨0, 0, hc⟩
    have ch (f : Color ℝ → ℝ) (hf : f ∈ colorChannels) : f c = f ⟨0, 0, 0, 1⟩ := by
      obtain ⟨⟨a, ha, h1⟩, b, hb, h2⟩ := hb f hf
      rw [hblack ha] at h1
      rw [hblack hb] at h2
      linarith
    have hc0 : c = ⟨0, 0, 0, 1⟩ := color_eq (ch Color.r (by simp [colorChannels])) (ch Color.g (by simp [colorChannels]))
      (ch Color.b (by simp [colorChannels])) (ch Color.a (by simp [colorChannels]))
    have := l6 0 0 c hc
    rw [this, hc0, k2, j2, k3, j3]
    simp only [stored, onColor, transfer]
    rw [toSRGB_low (by norm_num), zero_mul, nz, n1]

/-- The box filter counts pixels with 32 bits.  If it averages 2^32 of them, it divides by zero: in exact
arithmetic, where Lean defines the quotient as 0, white becomes black. -/
theorem C30_fails_count : ∃ (i : Image ℝ), ImgOk Arith.exact i ∧ i.bmp.width = 2 ^ 16 ∧ i.bmp.height = 2 ^ 16 ∧
    (∀ c, Colors i c → c = ⟨1, 1, 1, 1⟩) ∧
    ∃ s, boxPixel Arith.exact i 1 1 0 0 = .ok (divColor Arith.exact s (Arith.exact.lit 0)) := by
  refine ⟨⟨.Double, .Linear, ⟨2 ^ 16, 2 ^ 16, fun _ _ => .nums [1]⟩⟩, ?_, rfl, rfl, ?_, ?_⟩
  · intro y x _ _
    simp [PxOk, Arith.exact]
  · rintro c ⟨x, y, h⟩
    obtain ⟨-, -, h⟩ := getPixel_some h
    cases h
    simp [exact_lit]
  · have st : steps 0 (2 ^ 16) = List.range' 0 (2 ^ 16) := by rw [steps, Nat.sub_zero]
    have c0 : ((0 : ℕ) : ℝ) = 0 := Nat.cast_zero
    have half (o : ℝ) : Arith.exact.mul o (Arith.exact.lit 0.5) = o / 2 := by
      have : ((0.5 : ℚ) : ℝ) = 1 / 2 := by norm_num
      simp only [Arith.exact, this]
      ring
    have lthalf (o : ℝ) : (Arith.exact.lt (Arith.exact.lit 0.5) o = true) = (1 / 2 < o) := by
      have : ((0.5 : ℚ) : ℝ) = 1 / 2 := by norm_num
      simp only [Arith.exact, this, decide_eq_true_eq]
    have hax : axis Arith.exact (2 ^ 16) 1 = (65536, 65536, 1 / 65536) := by
      rw [exact_axis]
      norm_num
    have hwin : window Arith.exact ((1 : ℝ) / 2 * 65536) (65536 / 2) (2 ^ 16) = .ok (0, 2 ^ 16) := by
      rw [exact_window, cast_whole, cast_whole,
        show (1 : ℝ) / 2 * 65536 - 65536 / 2 + 1 / 2 = 1 / 2 by norm_num,
        show (1 : ℝ) / 2 * 65536 + 65536 / 2 + 1 / 2 = 65536 + 1 / 2 by norm_num]
      have w0 : whole (1 / 2) = 0 := by
        rw [whole, if_pos (by norm_num), Int.floor_eq_iff]
        norm_num
      have w1 : whole (65536 + 1 / 2) = 65536 := by
        rw [whole, if_pos (by norm_num), Int.floor_eq_iff]
        norm_num
      rw [w0, w1]
      rfl
    have near (k : Nat) (hk : k < 2 ^ 16) : ¬ (1 : ℝ) / 2 < |(k : ℝ) + 1 / 2 - 1 / 2 * 65536| * (1 / 65536) := by
      have h1 : (k : ℝ) ≤ 65535 := by exact_mod_cast (by omega : k ≤ 65535)
      have h0 : (0 : ℝ) ≤ k := Nat.cast_nonneg k
      have : |(k : ℝ) + 1 / 2 - 1 / 2 * 65536| ≤ 32768 := abs_le.2 ⟨by linarith, by linarith⟩
      rw [not_lt]
      linarith
    obtain ⟨s, e, hs⟩ := loop_inv (lo := 0) (n := 2 ^ 16) (s := (zeroColor Arith.exact, 0))
      (f := fun k (s : Color ℝ × Nat) => if (1 : ℝ) / 2 < |(k : ℝ) + 1 / 2 - 1 / 2 * 65536| * (1 / 65536) then .ok s else
        loop (List.range' 0 (2 ^ 16)) (fun j s =>
          if (1 : ℝ) / 2 < |(j : ℝ) + 1 / 2 - 1 / 2 * 65536| * (1 / 65536) then .ok s else do
            let c ← (⟨.Double, .Linear, ⟨2 ^ 16, 2 ^ 16, fun _ _ => .nums [1]⟩⟩ : Image ℝ).get Arith.exact k j
            .ok (addColor Arith.exact s.1 c, u32 (s.2 + 1))) s)
      (P := fun k s => s.2 = u32 (k * 2 ^ 16)) (by simp [u32, pow32]) (by
        intro k _ hk s hs
        obtain ⟨s', e, hs'⟩ := loop_inv (lo := 0) (n := 2 ^ 16) (s := s)
          (f := fun j (s : Color ℝ × Nat) =>
            if (1 : ℝ) / 2 < |(j : ℝ) + 1 / 2 - 1 / 2 * 65536| * (1 / 65536) then .ok s else do
            let c ← (⟨.Double, .Linear, ⟨2 ^ 16, 2 ^ 16, fun _ _ => .nums [1]⟩⟩ : Image ℝ).get Arith.exact k j
            .ok (addColor Arith.exact s.1 c, u32 (s.2 + 1)))
          (P := fun j s => s.2 = u32 (k * 2 ^ 16 + j)) (by rw [Nat.add_zero]; exact hs) (by
            intro j _ hj s hs
            have hg : (⟨.Double, .Linear, ⟨2 ^ 16, 2 ^ 16, fun _ _ => .nums [1]⟩⟩ : Image ℝ).get Arith.exact k j =
                .ok ⟨1, 1, 1, Arith.exact.lit 1⟩ := by
              unfold Image.get Bitmap.read
              rw [if_pos ⟨by omega, by omega⟩]
              rfl
            refine ⟨(addColor Arith.exact s.1 ⟨1, 1, 1, Arith.exact.lit 1⟩, u32 (s.2 + 1)), ?_, ?_⟩
            · rw [if_neg (near j (by omega)), hg, Res.ok_bind]
            · show u32 (s.2 + 1) = _
              rw [hs]
              unfold u32 pow32
              omega)
        refine ⟨s', by rw [if_neg (near k (by omega))]; exact e, ?_⟩
        rw [hs']
        unfold u32 pow32
        omega)
    refine ⟨s.1, ?_⟩
    have hz : s.2 = 0 := by rw [hs]; norm_num [u32, pow32]
    unfold boxPixel
    simp only [hax, half, exact_center, c0, zero_add, hwin, Res.ok_bind, exact_distance, lthalf, st]
    rw [e, Res.ok_bind, hz]
    simp only [Nat.cast_zero]

/-- With the rounding of doubles, resizing a floating point image is defined for all filters, whatever the numbers in
the image are: no read outside of the source and no conversion of a window bound that is out of range. -/
theorem C30_defined {Lm : Libm} {FI : FreeImage Dbl} (LF : LawfulFI (Arith.ieee Lm) FI) {i : Image Dbl}
    (hi : ImgOk (Arith.ieee Lm) i) (hcount : Countable i) (hf : IsFloat i.format) {w h : Nat} (hw : w < 2 ^ 32)
    (hh : h < 2 ^ 32) (filter : ResizeFilter) : ∃ r, i.resize (Arith.ieee Lm) FI w h filter = .ok r :=
  resize_float (lawful_ieee Lm) LF filters_ieee hi hcount hf hw hh filter

/-- With the rounding of doubles, resizing a linear image with the filters of the code never divides by zero or
overflows: if the source has finite channels of magnitude at most `2 ^ e`, so has the result. -/
theorem C30_rounded {Lm : Libm} {FI : FreeImage Dbl} (LF : LawfulFI (Arith.ieee Lm) FI) {i : Image Dbl}
    (hi : ImgOk (Arith.ieee Lm) i) (hcount : Countable i) (hlin : i.colorSpace = .Linear) (hf : NotInteger i.format)
    {w h : Nat} (hw : 0 < w) (hh : 0 < h) (hw' : w < 2 ^ 32) (hh' : h < 2 ^ 32) {filter : ResizeFilter}
    (own : OwnFilter FI i w h filter) {e : ℕ} (he : e ≤ 127) (hl : LimitedImage Lm e i) :
    ∃ r, i.resize (Arith.ieee Lm) FI w h filter = .ok r ∧ ∀ j, r = some j → ImgOk (Arith.ieee Lm) j ∧
      j.format = i.format ∧ j.colorSpace = i.colorSpace ∧ j.bmp.width = w ∧ j.bmp.height = h ∧ LimitedImage Lm e j := by
  unfold Image.resize
  rw [if_neg (by omega)]
  by_cases hs : w = i.bmp.width ∧ h = i.bmp.height
  · rw [if_pos hs]
    refine ⟨_, rfl, ?_⟩
    intro j hj
    rw [show j = i from (copy_same LF hj)]
    exact ⟨hi, rfl, rfl, hs.1.symm, hs.2.symm, hl⟩
  rw [if_neg hs, if_neg (by simp [hlin])]
  obtain ⟨r, er, hr⟩ := resizeLinear_defined (A := Arith.ieee Lm) (FI := FI) (filter := filter) (Q := Limited e)
    (R := fun p => ∀ d, getPixelImpl (Arith.ieee Lm) i.format p = .ok d → Limited e d) (i := i) (w := w) (h := h) LF
    (filters_limited hi hcount hw' hh' (by omega) hl)
    (fun c hc => set_limited he hf hc)
  refine ⟨r, er, ?_⟩
  rintro j rfl
  obtain ⟨j1, j2, j3, j4, j5⟩ := resizeLinear_keep (lawful_ieee Lm) LF hi er
  refine ⟨j1, j2, j3, j4, j5, ?_⟩
  intro x y c hc
  obtain ⟨g1, g2, g3⟩ := getPixel_some hc
  rw [j2] at g3
  exact hr (own_asked own) j rfl _ _ (by omega) (by omega) c g3

/-- A resize whose filter keeps the range. -/
theorem resize_between {Lm : Libm} {FI : FreeImage Dbl} (LF : LawfulFI (Arith.ieee Lm) FI) {i : Image Dbl} {w h : Nat}
    (hw : 0 < w) (hh : 0 < h) (hlin : i.colorSpace = .Linear) {filter : ResizeFilter}
    (hfin : ∀ c, DoubleColors Lm i c → FiniteColor c)
    (k : ∃ r, resizeLinear (Arith.ieee Lm) FI i w h filter = .ok r ∧ ∀ j, r = some j →
      ∀ d, DoubleColors Lm j d → BetweenDoubles (DoubleColors Lm i) d) :
    ∃ r, i.resize (Arith.ieee Lm) FI w h filter = .ok r ∧ ∀ j, r = some j →
      ∀ d, DoubleColors Lm j d → BetweenDoubles (DoubleColors Lm i) d := by
  unfold Image.resize
  rw [if_neg (by omega)]
  by_cases hs : w = i.bmp.width ∧ h = i.bmp.height
  · rw [if_pos hs]
    refine ⟨_, rfl, ?_⟩
    intro j hj d hd
    rw [show j = i from (copy_same LF hj)] at hd
    intro ch hch
    obtain ⟨q, e⟩ := hfin d hd ch hch
    exact ⟨q, q, q, e, le_rfl, le_rfl, ⟨d, hd, e⟩, d, hd, e⟩
  rw [if_neg hs, if_neg (by simp [hlin])]
  exact k

theorem between_constant {S : Color Dbl → Prop} {c d : Color Dbl} (hconst : ∀ d, S d → d = c)
    (k : BetweenDoubles S d) : d = c := by
  have key (ch) (hch : ch ∈ doubleChannels) : ch d = ch c := by
    obtain ⟨lo, hi', q, e, l, u, ⟨c1, h1, e1⟩, c2, h2, e2⟩ := k ch hch
    rw [hconst c1 h1] at e1
    rw [hconst c2 h2, e1] at e2
    cases e2
    rw [e, e1, le_antisymm u l]
  simp only [doubleChannels, List.forall_mem_cons, List.not_mem_nil, IsEmpty.forall_iff, implies_true, and_true] at key
  obtain ⟨k1, k2, k3, k4⟩ := key
  cases d
  cases c
  simp only at k1 k2 k3 k4
  rw [k1, k2, k3, k4]

/-- With the rounding of doubles, the box filter keeps every channel of a linear image of floats between the smallest and
the largest value of the source, exactly, if no pixel averages more than 2^29 source pixels: the sums of a bound are
doubles. -/
theorem C30_box {Lm : Libm} {FI : FreeImage Dbl} (LF : LawfulFI (Arith.ieee Lm) FI) {i : Image Dbl}
    (hi : ImgOk (Arith.ieee Lm) i) (hcount : Countable i) {w h : Nat} (hsmall : windowPixels i w h ≤ 2 ^ 29)
    (hlin : i.colorSpace = .Linear) (hf : i.format = .RGBAF ∨ i.format = .RGBF) (hw : 0 < w) (hh : 0 < h)
    (hw' : w < 2 ^ 32) (hh' : h < 2 ^ 32) (avg : AverageDoubles Lm FI i.format w h .Box)
    (hfin : ∀ c, DoubleColors Lm i c → FiniteColor c) :
    ∃ r, i.resize (Arith.ieee Lm) FI w h .Box = .ok r ∧ ∀ j, r = some j →
      ∀ d, DoubleColors Lm j d → BetweenDoubles (DoubleColors Lm i) d :=
  resize_between LF hw hh hlin hfin (box_between LF hi hcount hf hsmall hw' hh' avg hfin)

/-- So a constant image stays the same, to the last bit. -/
theorem C30_box_constant {Lm : Libm} {FI : FreeImage Dbl} (LF : LawfulFI (Arith.ieee Lm) FI) {i : Image Dbl}
    (hi : ImgOk (Arith.ieee Lm) i) (hcount : Countable i) {w h : Nat} (hsmall : windowPixels i w h ≤ 2 ^ 29)
    (hlin : i.colorSpace = .Linear) (hf : i.format = .RGBAF ∨ i.format = .RGBF) (hw : 0 < w) (hh : 0 < h)
    (hw' : w < 2 ^ 32) (hh' : h < 2 ^ 32) (avg : AverageDoubles Lm FI i.format w h .Box) {c : Color Dbl} (hc : FiniteColor c)
    (hconst : ∀ d, DoubleColors Lm i d → d = c) {j : Image Dbl}
    (hj : i.resize (Arith.ieee Lm) FI w h .Box = .ok (some j)) : ∀ d, DoubleColors Lm j d → d = c := by
  obtain ⟨r, e, k⟩ := C30_box LF hi hcount hsmall hlin hf hw hh hw' hh' avg (fun d hd => by rw [hconst d hd]; exact hc)
  rw [hj] at e
  cases e
  exact fun d hd => between_constant hconst (k j rfl d hd)

/-- The same for the linear filter, if no pixel averages more than 2^24 source pixels (a level of half the size
averages up to 49): the errors of the weighted sums of doubles are too small to be seen in a float. -/
theorem C30_weighted {Lm : Libm} {FI : FreeImage Dbl} (LF : LawfulFI (Arith.ieee Lm) FI) {i : Image Dbl}
    (hi : ImgOk (Arith.ieee Lm) i) (hcount : Countable i) {w h : Nat} (hsmall : windowPixels i w h ≤ 2 ^ 24)
    (hlin : i.colorSpace = .Linear) (hf : i.format = .RGBAF ∨ i.format = .RGBF) (hw : 0 < w) (hh : 0 < h)
    (hw' : w < 2 ^ 32) (hh' : h < 2 ^ 32) (avg : AverageDoubles Lm FI i.format w h .Linear)
    (hfin : ∀ c, DoubleColors Lm i c → FiniteColor c) :
    ∃ r, i.resize (Arith.ieee Lm) FI w h .Linear = .ok r ∧ ∀ j, r = some j →
      ∀ d, DoubleColors Lm j d → BetweenDoubles (DoubleColors Lm i) d :=
  resize_between LF hw hh hlin hfin (linear_between LF hi hcount hf hsmall hw' hh' avg hfin)

/-- So a constant image stays the same, to the last bit. -/
theorem C30_weighted_constant {Lm : Libm} {FI : FreeImage Dbl} (LF : LawfulFI (Arith.ieee Lm) FI) {i : Image Dbl}
    (hi : ImgOk (Arith.ieee Lm) i) (hcount : Countable i) {w h : Nat} (hsmall : windowPixels i w h ≤ 2 ^ 24)
    (hlin : i.colorSpace = .Linear) (hf : i.format = .RGBAF ∨ i.format = .RGBF) (hw : 0 < w) (hh : 0 < h)
    (hw' : w < 2 ^ 32) (hh' : h < 2 ^ 32) (avg : AverageDoubles Lm FI i.format w h .Linear) {c : Color Dbl} (hc : FiniteColor c)
    (hconst : ∀ d, DoubleColors Lm i d → d = c) {j : Image Dbl}
    (hj : i.resize (Arith.ieee Lm) FI w h .Linear = .ok (some j)) : ∀ d, DoubleColors Lm j d → d = c := by
  obtain ⟨r, e, k⟩ := C30_weighted LF hi hcount hsmall hlin hf hw hh hw' hh' avg (fun d hd => by rw [hconst d hd]; exact hc)
  rw [hj] at e
  cases e
  exact fun d hd => between_constant hconst (k j rfl d hd)

/-- With the rounding of doubles and singles, every channel of a pixel of a reduced slice of a linear 3D texture is
finite and between those of the source slices at the same place, exactly. -/
theorem C30_depth_rounded {Lm : Libm} {FI : FreeImage Dbl} (LF : LawfulFI (Arith.ieee Lm) FI) {prev : List (Image Dbl)}
    (hne : prev ≠ []) (hlen : prev.length ≤ 2 ^ 24) {w h depth d : Nat} (hd : d < depth) (hdep : depth < 2 ^ 32)
    (hok : ∀ i ∈ prev, ImgOk (Arith.ieee Lm) i ∧ i.format = .RGBAF ∧ w ≤ i.bmp.width ∧ h ≤ i.bmp.height)
    (hfin : ∀ i ∈ prev, ∀ c, DoubleColors Lm i c → FiniteColor c) (filter : ResizeFilter)
    (hmem : FI.alloc .RGBAF w h ≠ none) :
    ∃ j, mipSlice3d (Arith.ieee Lm) FI prev w h depth .Linear filter d = .ok j ∧ ImgOk (Arith.ieee Lm) j ∧
      j.format = .RGBAF ∧ j.colorSpace = .Linear ∧ j.bmp.width = w ∧ j.bmp.height = h ∧
      ∀ x y c, j.getPixel (Arith.ieee Lm) x y = .ok (some c) → BetweenDoubles (SliceDoubles Lm prev y x) c :=
  mipSlice3d_between LF hne hlen hd hdep hok hfin filter hmem

/-- With the rounding of doubles and singles, and a `pow` that is accurate to 50 bits, resizing an sRGB image of floats
from 0 to 1 gives channels that are finite, from 0 to 1, and at most 1e-6 outside the range of the source. -/
theorem C30_srgb_rounded {Lm : Libm} (P : AccuratePow Lm) {FI : FreeImage Dbl} (LF : LawfulFI (Arith.ieee Lm) FI)
    {i : Image Dbl} (hi : ImgOk (Arith.ieee Lm) i) (hcount : Countable i) (hcs : i.colorSpace = .sRGB)
    (hf : i.format = .RGBAF ∨ i.format = .RGBF) (hu : UnitImage Lm i) {w h : Nat} (hw : 0 < w) (hh : 0 < h)
    (hw' : w < 2 ^ 32) (hh' : h < 2 ^ 32) (hsmall : windowPixels i w h ≤ 2 ^ 24) {filter : ResizeFilter}
    (avg : AverageDoubles Lm FI i.format w h filter) :
    ∃ r, i.resize (Arith.ieee Lm) FI w h filter = .ok r ∧ ∀ j, r = some j → UnitImage Lm j ∧
      ∀ d, DoubleColors Lm j d → CloseDoubles (1 / 10 ^ 6) (DoubleColors Lm i) d :=
  srgb_resize_close P LF hi hcount hf hcs hu hw hh hw' hh' hsmall avg

/-- The same for the reduction of an sRGB 3D texture along its depth. -/
theorem C30_srgb_depth_rounded {Lm : Libm} (P : AccuratePow Lm) {FI : FreeImage Dbl} (LF : LawfulFI (Arith.ieee Lm) FI)
    {prev : List (Image Dbl)} (hne : prev ≠ []) (hlen : prev.length ≤ 2 ^ 24) {w h depth d : Nat} (hd : d < depth)
    (hdep : depth < 2 ^ 32)
    (hok : ∀ i ∈ prev, ImgOk (Arith.ieee Lm) i ∧ i.format = .RGBAF ∧ w ≤ i.bmp.width ∧ h ≤ i.bmp.height)
    (hu : ∀ i ∈ prev, UnitImage Lm i) (filter : ResizeFilter) (hmem : FI.alloc .RGBAF w h ≠ none) :
    ∃ j, mipSlice3d (Arith.ieee Lm) FI prev w h depth .sRGB filter d = .ok j ∧ ImgOk (Arith.ieee Lm) j ∧
      j.format = .RGBAF ∧ j.colorSpace = .sRGB ∧ j.bmp.width = w ∧ j.bmp.height = h ∧
      ∀ x y c, j.getPixel (Arith.ieee Lm) x y = .ok (some c) →
        CloseDoubles (1 / 10 ^ 6) (SliceDoubles Lm prev y x) c ∧ UnitColor c :=
  mipSlice3d_close P LF hne hlen hd hdep hok hu filter hmem

/-- An sRGB image that meets the hypotheses of `C30_srgb_rounded`: the result exists, and the first channel of its pixels,
from 0 and 1, is from 0 to 1 while the second one stays close to 1/2. -/
example : AccuratePow Toy.accurate ∧ windowPixels Toy.srgb3x2 1 1 ≤ 2 ^ 24 ∧
    ∃ j, Toy.srgb3x2.resize (Arith.ieee Toy.accurate) (Toy.fi (Arith.ieee Toy.accurate) true) 1 1 .Linear = .ok (some j) ∧
      UnitImage Toy.accurate j ∧ ∀ d, DoubleColors Toy.accurate j d →
        ∃ q : ℚ, d.g = .fin q ∧ 1 / 2 - 1 / 10 ^ 6 ≤ q ∧ q ≤ 1 / 2 + 1 / 10 ^ 6 := by
  obtain ⟨h1, h2, h3⟩ := Toy.srgb3x2_ok Toy.accurate
  have small : windowPixels Toy.srgb3x2 1 1 ≤ 2 ^ 24 := by decide
  have own : OwnFilter (Toy.fi (Arith.ieee Toy.accurate) true) Toy.srgb3x2 1 1 .Linear := ⟨Or.inr rfl, Or.inr (fun _ => rfl)⟩
  refine ⟨Toy.accurate_pow, small, ?_⟩
  obtain ⟨r, e, k⟩ := C30_srgb_rounded Toy.accurate_pow (Toy.fi_ieee _ true) h1 h2 rfl (.inl rfl) h3 (w := 1) (h := 1)
    (by norm_num) (by norm_num) (by norm_num) (by norm_num) small (own_doubles (.inl rfl) own)
  cases r with
  | some j =>
    refine ⟨j, e, (k j rfl).1, fun d hd => ?_⟩
    obtain ⟨lo, hi, q, eq, l, u, ⟨c, ⟨x, y, hc⟩, ec⟩, c', ⟨x', y', hc'⟩, ec'⟩ :=
      (k j rfl).2 d hd Color.g (by simp [doubleChannels])
    obtain ⟨-, -, g⟩ := getPixel_some hc
    obtain ⟨-, -, g'⟩ := getPixel_some hc'
    cases g
    cases g'
    cases ec
    cases ec'
    exact ⟨q, eq, l, u⟩
  | none =>
    exact absurd rfl (resize_alive (lawful_ieee _) ⟨fun f w h hf => by simp [Toy.fi, hf], fun b => by simp [Toy.fi]⟩
      (Toy.fi_ieee _ true) (.inr (.inl rfl)) h1 ⟨h2.1, h2.2.1⟩ (.inr rfl) (by norm_num) (by norm_num) e)

/-- A FreeImage, linear and sRGB images and slices that meet the hypotheses; the resized image exists. -/
example : LawfulFI Arith.exact (Toy.fi Arith.exact true) ∧ ImgOk Arith.exact (Toy.rgba : Image ℝ) ∧
    Spec.Countable (Toy.rgba : Image ℝ) ∧ (Toy.rgba : Image ℝ).colorSpace = .Linear ∧
    OwnFilter (Toy.fi Arith.exact true) Toy.rgba 2 5 .Linear ∧
    ∃ j, (Toy.rgba : Image ℝ).resize Arith.exact (Toy.fi Arith.exact true) 2 5 .Linear = .ok (some j) := by
  have own : OwnFilter (Toy.fi Arith.exact true) Toy.rgba 2 5 .Linear := ⟨Or.inr rfl, Or.inr (fun _ => rfl)⟩
  have count : Spec.Countable (Toy.rgba : Image ℝ) := by simp [Spec.Countable, Toy.rgba]
  refine ⟨Toy.fi_exact true, Toy.rgba_ok _, count, rfl, own, ?_⟩
  obtain ⟨r, e, -⟩ := C30_linear (Toy.fi_exact true) (Toy.rgba_ok _) count rfl (w := 2) (h := 5) (by norm_num)
    (by norm_num) own.average
  cases r with
  | some j => exact ⟨j, e⟩
  | none =>
    obtain ⟨_, -, h⟩ := Res.bind_eq_ok.1 e
    cases h

example : ∃ i : Image ℝ, ImgOk Arith.exact i ∧ Spec.Countable i ∧ IsFloat i.format ∧ i.colorSpace = .sRGB ∧
    OwnFilter (Toy.fi Arith.exact true) i 1 7 .Box ∧ Colors i ⟨0.5, 0.25, 1, 0.75⟩ ∧
    (Toy.fi Arith.exact true).alloc .RGBAF 3 2 ≠ none ∧
    ∀ i' ∈ [i, i, i], ImgOk Arith.exact i' ∧ i'.format = .RGBAF ∧ 3 ≤ i'.bmp.width ∧ 2 ≤ i'.bmp.height := by
  have hi : ImgOk Arith.exact (⟨.RGBAF, .sRGB, ⟨3, 2, fun _ _ => .nums [0.5, 0.25, 1, 0.75]⟩⟩ : Image ℝ) := by
    intro y x _ _
    simp [PxOk, Arith.exact]
  refine ⟨_, hi, by simp [Spec.Countable], Or.inr (Or.inl rfl), rfl, ⟨Or.inl rfl, Or.inr (fun _ => rfl)⟩,
    ⟨0, 0, ?_⟩, by simp [Toy.fi], ?_⟩
  · rw [getPixel_in (by norm_num) (by norm_num)]
    rfl
  · intro i' h
    simp only [List.mem_cons, List.not_mem_nil, or_false, or_self] at h
    rw [h]
    exact ⟨hi, rfl, by norm_num, by norm_num⟩

/-- The same for images of doubles, with a NaN for `C30_defined`. -/
example : ∃ i : Image Dbl, ImgOk (Arith.ieee Toy.libm) i ∧ Spec.Countable i ∧ IsFloat i.format ∧
    i.getPixel (Arith.ieee Toy.libm) 0 0 = .ok (some ⟨.nan, .fin 1, .inf true, .fin 0⟩) ∧
    LawfulFI (Arith.ieee Toy.libm) (Toy.fi (Arith.ieee Toy.libm) true) := by
  refine ⟨⟨.RGBAF, .sRGB, ⟨3, 2, fun _ _ => .nums [.nan, .fin 1, .inf true, .fin 0]⟩⟩, ?_, by simp [Spec.Countable],
    Or.inr (Or.inl rfl), ?_, Toy.fi_ieee _ true⟩
  · intro y x _ _
    show Dbl.single .nan = .nan ∧ Dbl.single (.fin 1) = .fin 1 ∧ Dbl.single (.inf true) = .inf true ∧
      Dbl.single (.fin 0) = .fin 0
    decide +kernel
  · rw [getPixel_in (by norm_num) (by norm_num)]
    rfl

example : ImgOk (Arith.ieee Toy.libm) (Toy.rgba : Image Dbl) ∧ Spec.Countable (Toy.rgba : Image Dbl) ∧
    NotInteger (Toy.rgba : Image Dbl).format ∧ LimitedImage Toy.libm 0 Toy.rgba ∧
    ∃ j, (Toy.rgba : Image Dbl).resize (Arith.ieee Toy.libm) (Toy.fi (Arith.ieee Toy.libm) true) 2 5 .Linear = .ok (some j) := by
  have own : OwnFilter (Toy.fi (Arith.ieee Toy.libm) true) Toy.rgba 2 5 .Linear := ⟨Or.inr rfl, Or.inr (fun _ => rfl)⟩
  have count : Spec.Countable (Toy.rgba : Image Dbl) := by simp [Spec.Countable, Toy.rgba]
  have hn : NotInteger (Toy.rgba : Image Dbl).format := by simp [NotInteger, Toy.rgba]
  have hl : LimitedImage Toy.libm 0 Toy.rgba := by
    intro x y c hc
    obtain ⟨g1, g2, g3⟩ := getPixel_some hc
    obtain ⟨hx, hy⟩ : x < 3 ∧ y < 2 := ⟨g1, g2⟩
    have norm {k : ℤ} (h0 : 0 ≤ k) (h1 : k ≤ 255) : Within 0 ((Arith.ieee Toy.libm).fromNorm 255 k) := by
      rw [fromNorm_nearest (by norm_num) (by norm_num) h0 (by exact_mod_cast h1)]
      have a0 : (0 : ℚ) ≤ (k : ℚ) / (255 : ℕ) := by
        have : (0 : ℚ) ≤ k := by exact_mod_cast h0
        positivity
      have a1 : (k : ℚ) / (255 : ℕ) ≤ 1 := div_le_one_of_le₀ (by exact_mod_cast h1) (by positivity)
      have a3 := rneD_mono a0
      rw [rneD_zero] at a3
      refine ⟨_, ofQ_small (by rw [abs_of_nonneg a0]; linarith), ?_⟩
      rw [abs_of_nonneg a3, pow_zero]
      exact rneD_le_of repD_one a1
    cases g3
    have hb : ((Toy.rgba : Image Dbl).bmp.height - y - 1) < 2 := by
      show 2 - y - 1 < 2
      omega
    exact ⟨norm (by omega) (by omega), norm (by omega) (by omega), norm (by omega) (by omega), norm (by omega) (by omega)⟩
  refine ⟨Toy.rgba_ok _, count, hn, hl, ?_⟩
  obtain ⟨r, e, -⟩ := C30_rounded (Toy.fi_ieee Toy.libm true) (Toy.rgba_ok _) count rfl hn (w := 2) (h := 5) (by norm_num)
    (by norm_num) (by norm_num) (by norm_num) own (by norm_num) hl
  cases r with
  | some j => exact ⟨j, e⟩
  | none =>
    obtain ⟨_, -, h⟩ := Res.bind_eq_ok.1 e
    cases h

/-- The channels of the first pixel of a resized image. -/
def Toy.firstPixel (r : Res (Img? Dbl)) : List Dbl :=
  match r with
  | .ok (some j) => match j.getPixel (Arith.ieee Toy.libm) 0 0 with
    | .ok (some c) => [c.r, c.g, c.b, c.a]
    | _ => []
  | _ => []

/-- An image of floats for `C30_box`, with numbers that cannot be averaged without rounding. -/
example : ∃ i : Image Dbl, ImgOk (Arith.ieee Toy.libm) i ∧ Spec.Countable i ∧ windowPixels i 1 1 ≤ 2 ^ 24 ∧
    i.colorSpace = .Linear ∧ i.format = .RGBAF ∧ (∀ c, DoubleColors Toy.libm i c → FiniteColor c) ∧
    Toy.firstPixel (i.resize (Arith.ieee Toy.libm) (Toy.fi (Arith.ieee Toy.libm) true) 1 1 .Box) =
      [.fin (11184811 / 2 ^ 24), .fin 1, .fin 0, .fin 3] ∧
    Toy.firstPixel (i.resize (Arith.ieee Toy.libm) (Toy.fi (Arith.ieee Toy.libm) true) 1 1 .Linear) =
      [.fin (11983726 / 2 ^ 24), .fin 1, .fin 0, .fin 3] := by
  refine ⟨⟨.RGBAF, .Linear, ⟨3, 1, fun _ x => .nums [if x = 0 then .fin 0 else .fin 1, .fin 1, .fin 0, .fin 3]⟩⟩, ?_,
    by simp [Spec.Countable], by decide +kernel, rfl, rfl, ?_, ?_, ?_⟩
  · intro y x _ _
    show Dbl.single (if x = 0 then .fin 0 else .fin 1) = (if x = 0 then .fin 0 else .fin 1) ∧ Dbl.single (.fin 1) = .fin 1 ∧
      Dbl.single (.fin 0) = .fin 0 ∧ Dbl.single (.fin 3) = .fin 3
    refine ⟨?_, by decide +kernel⟩
    split <;> decide +kernel
  · rintro c ⟨x, y, e⟩
    obtain ⟨-, -, k⟩ := getPixel_some e
    cases k
    simp only [FiniteColor, doubleChannels, List.forall_mem_cons, List.not_mem_nil, IsEmpty.forall_iff, implies_true,
      and_true]
    refine ⟨?_, ⟨_, rfl⟩, ⟨_, rfl⟩, _, rfl⟩
    by_cases h : x = 0
    · exact ⟨0, if_pos h⟩
    · exact ⟨1, if_neg h⟩
  · decide +kernel
  · decide +kernel

/-- Three slices of one pixel meet the hypotheses of `C30_depth_rounded`, and are averaged. -/
example : ∃ prev : List (Image Dbl), prev ≠ [] ∧ prev.length ≤ 2 ^ 24 ∧
    (∀ i ∈ prev, ImgOk (Arith.ieee Toy.libm) i ∧ i.format = .RGBAF ∧ 1 ≤ i.bmp.width ∧ 1 ≤ i.bmp.height) ∧
    (∀ i ∈ prev, ∀ c, DoubleColors Toy.libm i c → FiniteColor c) ∧
    (Toy.fi (Arith.ieee Toy.libm) true).alloc .RGBAF 1 1 ≠ none ∧
    Toy.firstPixel ((mipSlice3d (Arith.ieee Toy.libm) (Toy.fi (Arith.ieee Toy.libm) true) prev 1 1 1 .Linear .Box 0).bind
      fun j => .ok (some j)) = [.fin (11184811 / 2 ^ 24), .fin 1, .fin 0, .fin 3] ∧
    Toy.firstPixel ((mipSlice3d (Arith.ieee Toy.libm) (Toy.fi (Arith.ieee Toy.libm) true) prev 1 1 1 .Linear .Linear 0).bind
      fun j => .ok (some j)) = [.fin (11983726 / 2 ^ 24), .fin 1, .fin 0, .fin 3] := by
  have slice (v : Dbl) (hv : Dbl.single v = v) (hq : ∃ q : ℚ, v = .fin q) :
      let i : Image Dbl := ⟨.RGBAF, .Linear, ⟨1, 1, fun _ _ => .nums [v, .fin 1, .fin 0, .fin 3]⟩⟩
      (ImgOk (Arith.ieee Toy.libm) i ∧ i.format = .RGBAF ∧ 1 ≤ i.bmp.width ∧ 1 ≤ i.bmp.height) ∧
      ∀ c, DoubleColors Toy.libm i c → FiniteColor c := by
    refine ⟨⟨fun y x _ _ => ?_, rfl, le_rfl, le_rfl⟩, ?_⟩
    · show Dbl.single v = v ∧ Dbl.single (.fin 1) = .fin 1 ∧ Dbl.single (.fin 0) = .fin 0 ∧ Dbl.single (.fin 3) = .fin 3
      exact ⟨hv, by decide +kernel⟩
    · rintro c ⟨x, y, e⟩
      obtain ⟨-, -, k⟩ := getPixel_some e
      cases k
      simp only [FiniteColor, doubleChannels, List.forall_mem_cons, List.not_mem_nil, IsEmpty.forall_iff, implies_true,
        and_true]
      exact ⟨hq, ⟨_, rfl⟩, ⟨_, rfl⟩, _, rfl⟩
  have s0 := slice (.fin 0) (by decide +kernel) ⟨0, rfl⟩
  have s1 := slice (.fin 1) (by decide +kernel) ⟨1, rfl⟩
  refine ⟨[⟨.RGBAF, .Linear, ⟨1, 1, fun _ _ => .nums [.fin 0, .fin 1, .fin 0, .fin 3]⟩⟩,
    ⟨.RGBAF, .Linear, ⟨1, 1, fun _ _ => .nums [.fin 1, .fin 1, .fin 0, .fin 3]⟩⟩,
    ⟨.RGBAF, .Linear, ⟨1, 1, fun _ _ => .nums [.fin 1, .fin 1, .fin 0, .fin 3]⟩⟩], by simp, by simp, ?_, ?_,
    by decide +kernel, by decide +kernel, by decide +kernel⟩
  · simp only [List.forall_mem_cons, List.not_mem_nil, IsEmpty.forall_iff, implies_true, and_true]
    exact ⟨⟨s0.1.1, trivial, le_rfl, le_rfl⟩, ⟨s1.1.1, trivial, le_rfl, le_rfl⟩, s1.1.1, trivial, le_rfl, le_rfl⟩
  · simp only [List.forall_mem_cons, List.not_mem_nil, IsEmpty.forall_iff, implies_true, and_true]
    exact ⟨s0.2, s1.2, s1.2⟩

end Cuttlefish
