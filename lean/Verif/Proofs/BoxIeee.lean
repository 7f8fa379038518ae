import Verif.Proofs.ResizeSafe
import Verif.Proofs.AdjustOk
/-
The box filter in IEEE arithmetic, on images of single precision: the sums of bounds are exact.
-/
namespace Cuttlefish
open Spec
variable {Lm : Libm}

/-- A finite number of single precision. -/
def SingleBound (b : ℚ) : Prop := Rep b ∧ |b| < 2 ^ 128

theorem single_bound {q : ℚ} (h : Dbl.single (.fin q) = .fin q) : SingleBound q := by
  have h : F32.round q = .fin q := h
  refine ⟨finite_rep h, ?_⟩
  by_contra hn
  rw [not_lt] at hn
  rw [F32.round, rne_exact (finite_rep h), if_pos hn] at h
  cases h

theorem SingleBound.box {b : ℚ} (h : SingleBound b) {m : ℕ} (hm : m ≤ 2 ^ 29) : BoxBound m b := by
  obtain ⟨⟨a, k, ha, hk, rfl⟩, hb⟩ := h
  refine ⟨hb.le.trans ?_, ⟨a, k, ha.trans (by norm_num), by omega, rfl⟩, fun n hn => ⟨a * n, k, ?_, by omega, ?_⟩⟩
  · exact pow_le_pow_right₀ (by norm_num) (by norm_num)
  · rw [abs_mul, abs_of_nonneg (show (0 : ℤ) ≤ n by positivity)]
    calc |a| * (n : ℤ) ≤ 2 ^ 24 * 2 ^ 29 :=
          mul_le_mul ha (by exact_mod_cast hn.trans hm) (by positivity) (by positivity)
      _ = 2 ^ 53 := by norm_num
  · push_cast
    ring

theorem ranged_single {lo hi : ℚ} (hlo : SingleBound lo) (hhi : SingleBound hi) {v : Dbl} (h : Ranged lo hi v) :
    Ranged lo hi (Dbl.single v) := by
  obtain ⟨q, rfl, h1, h2⟩ := h
  have k1 := rne_mono h1
  have k2 := rne_mono h2
  rw [rne_exact hlo.1] at k1
  rw [rne_exact hhi.1] at k2
  refine ⟨rne q, ?_, k1, k2⟩
  show F32.round q = _
  rw [F32.round, if_neg]
  rw [not_le, abs_lt]
  have a1 := abs_lt.1 hlo.2
  have a2 := abs_lt.1 hhi.2
  exact ⟨by linarith, by linarith⟩

/-- A colour whose channels are in these ranges when they are rounded to single precision. -/
def RoundedColor (lo hi : Color ℚ) (c : Color Dbl) : Prop :=
  Ranged lo.r hi.r c.r.single ∧ Ranged lo.g hi.g c.g.single ∧ Ranged lo.b hi.b c.b.single ∧ Ranged lo.a hi.a c.a.single

theorem rounded_ranged {lo hi : Color ℚ} (hlo : AllBounds SingleBound lo) (hhi : AllBounds SingleBound hi) {c : Color Dbl}
    (hc : RangedColor lo hi c) : RoundedColor lo hi c :=
  ⟨ranged_single hlo.1 hhi.1 hc.1, ranged_single hlo.2.1 hhi.2.1 hc.2.1, ranged_single hlo.2.2.1 hhi.2.2.1 hc.2.2.1,
    ranged_single hlo.2.2.2 hhi.2.2.2 hc.2.2.2⟩

/-- A colour in a range can be stored in an image of floats, and what is read back is in the range. -/
theorem set_rounded {f : IFormat} (hf : f = .RGBAF ∨ f = .RGBF) {lo hi : Color ℚ}
    (ha : f = .RGBF → lo.a ≤ 1 ∧ 1 ≤ hi.a) {c : Color Dbl} (hc : RoundedColor lo hi c) :
    ∃ p, setPixelNoGrayscaleImpl (Arith.ieee Lm) f c = .ok p ∧
      ∀ d, getPixelImpl (Arith.ieee Lm) f p = .ok d → RangedColor lo hi d := by
  obtain ⟨r, g, b, a⟩ := hc
  rcases hf with rfl | rfl
  · refine ⟨.nums [c.r.single, c.g.single, c.b.single, c.a.single], rfl, ?_⟩
    intro d e
    cases e
    exact ⟨r, g, b, a⟩
  · refine ⟨.nums [c.r.single, c.g.single, c.b.single], rfl, ?_⟩
    intro d e
    have e : Res.ok (⟨c.r.single, c.g.single, c.b.single, (Arith.ieee Lm).lit 1⟩ : Color Dbl) = .ok d := e
    cases e
    exact ⟨r, g, b, 1, ieee_one (Lm := Lm), (ha rfl).1, (ha rfl).2⟩

theorem px_single {f : IFormat} (hf : f = .RGBAF ∨ f = .RGBF) {v : Px Dbl} (h : PxOk (Arith.ieee Lm) f v)
    {c : Color Dbl} (e : getPixelImpl (Arith.ieee Lm) f v = .ok c) : ∀ ch ∈ doubleChannels, Dbl.single (ch c) = ch c := by
  simp only [doubleChannels, List.forall_mem_cons, List.not_mem_nil, IsEmpty.forall_iff, implies_true, and_true]
  rcases hf with rfl | rfl
  · match v, h with
    | .nums [r, g, b, a], h =>
      cases e
      exact h
  · match v, h with
    | .nums [r, g, b], h =>
      have e : Res.ok (⟨r, g, b, (Arith.ieee Lm).lit 1⟩ : Color Dbl) = .ok c := e
      cases e
      refine ⟨h.1, h.2.1, h.2.2, ?_⟩
      dsimp only
      rw [ieee_one]
      show F32.round 1 = .fin 1
      decide +kernel

/-- A channel has a smallest and a largest value, which are single precision numbers. -/
theorem channel_bounds {i : Image Dbl} (hi : ImgOk (Arith.ieee Lm) i) (hw : 0 < i.bmp.width) (hh : 0 < i.bmp.height)
    (hf : i.format = .RGBAF ∨ i.format = .RGBF) {ch : Color Dbl → Dbl} (hch : ch ∈ doubleChannels)
    (hfin : ∀ c, DoubleColors Lm i c → ∃ q : ℚ, ch c = .fin q) :
    ∃ lo hi : ℚ, SingleBound lo ∧ SingleBound hi ∧ (∃ c, DoubleColors Lm i c ∧ ch c = .fin lo) ∧
      (∃ c, DoubleColors Lm i c ∧ ch c = .fin hi) ∧ ∀ c, DoubleColors Lm i c → Ranged lo hi (ch c) := by
  have hc (p : ℕ × ℕ) : ∃ q : ℚ, p.1 < i.bmp.height → p.2 < i.bmp.width → ∃ c, DoubleColors Lm i c ∧ ch c = .fin q ∧
      getPixelImpl (Arith.ieee Lm) i.format (i.bmp.px p.1 p.2) = .ok c ∧ SingleBound q := by
    by_cases h : p.1 < i.bmp.height ∧ p.2 < i.bmp.width
    · have hpx := hi p.1 p.2 h.1 h.2
      obtain ⟨c, e⟩ := get_px hpx
      have hd : DoubleColors Lm i c := ⟨_, _, getPixel_line h.1 h.2 e⟩
      obtain ⟨q, eq⟩ := hfin c hd
      refine ⟨q, fun _ _ => ⟨c, hd, eq, e, ?_⟩⟩
      have hs := px_single hf hpx e ch hch
      rw [eq] at hs
      exact single_bound hs
    · exact ⟨0, fun h1 h2 => absurd ⟨h1, h2⟩ h⟩
  choose val hval using hc
  have hne : (Finset.range i.bmp.height ×ˢ Finset.range i.bmp.width).Nonempty := ⟨(0, 0), by simp [hh, hw]⟩
  have hmem {p : ℕ × ℕ} (hp : p ∈ Finset.range i.bmp.height ×ˢ Finset.range i.bmp.width) :
      p.1 < i.bmp.height ∧ p.2 < i.bmp.width := by simpa using hp
  obtain ⟨p, hp, pmin⟩ := Finset.exists_min_image _ val hne
  obtain ⟨q, hq, qmax⟩ := Finset.exists_max_image _ val hne
  obtain ⟨c, c1, c2, -, c4⟩ := hval p (hmem hp).1 (hmem hp).2
  obtain ⟨d, d1, d2, -, d4⟩ := hval q (hmem hq).1 (hmem hq).2
  refine ⟨val p, val q, c4, d4, ⟨c, c1, c2⟩, ⟨d, d1, d2⟩, ?_⟩
  rintro c' ⟨x, y, e⟩
  obtain ⟨g1, g2, g3⟩ := getPixel_some e
  have hin : (i.bmp.height - y - 1, x) ∈ Finset.range i.bmp.height ×ˢ Finset.range i.bmp.width := by
    simp only [Finset.mem_product, Finset.mem_range]
    omega
  obtain ⟨b, -, b2, b3, -⟩ := hval _ (hmem hin).1 (hmem hin).2
  rw [g3] at b3
  cases b3
  exact ⟨_, b2, pmin _ hin, qmax _ hin⟩

/-- A filter of a linear image of floats, whose results are, rounded to single precision, in bounds that are single
precision numbers if the source is. -/
theorem filter_between {FI : FreeImage Dbl} (F : LawfulFI (Arith.ieee Lm) FI) {i : Image Dbl} (hi : ImgOk (Arith.ieee Lm) i)
    (hc : Countable i) (hf : i.format = .RGBAF ∨ i.format = .RGBF)
    {w h : ℕ} {filter : ResizeFilter} (avg : AverageDoubles Lm FI i.format w h filter)
    (hfin : ∀ c, DoubleColors Lm i c → FiniteColor c)
    (pix : ∀ lo hi, AllBounds SingleBound lo → AllBounds SingleBound hi → RangedPx Lm lo hi i → ∀ y x, y < h → x < w →
      ∃ c, (if filter = .Box then boxPixel (Arith.ieee Lm) i w h y x else linearPixel (Arith.ieee Lm) i w h y x) = .ok c ∧
        RoundedColor lo hi c) :
    ∃ r, resizeLinear (Arith.ieee Lm) FI i w h filter = .ok r ∧ ∀ j, r = some j →
      ∀ d, DoubleColors Lm j d → BetweenDoubles (DoubleColors Lm i) d := by
  have mem {ch : Color Dbl → Dbl} (h : ch ∈ doubleChannels) := channel_bounds hi hc.1 hc.2.1 hf h (fun c h' => hfin c h' ch h)
  obtain ⟨r1, r2, r3, r4, r5, r6, r7⟩ := mem (ch := Color.r) (by simp [doubleChannels])
  obtain ⟨g1, g2, g3, g4, g5, g6, g7⟩ := mem (ch := Color.g) (by simp [doubleChannels])
  obtain ⟨b1, b2, b3, b4, b5, b6, b7⟩ := mem (ch := Color.b) (by simp [doubleChannels])
  obtain ⟨a1, a2, a3, a4, a5, a6, a7⟩ := mem (ch := Color.a) (by simp [doubleChannels])
  have hlo : AllBounds SingleBound ⟨r1, g1, b1, a1⟩ := ⟨r3, g3, b3, a3⟩
  have hhi : AllBounds SingleBound ⟨r2, g2, b2, a2⟩ := ⟨r4, g4, b4, a4⟩
  have src : RangedPx Lm ⟨r1, g1, b1, a1⟩ ⟨r2, g2, b2, a2⟩ i := by
    intro y x c hy hx e
    have hd : DoubleColors Lm i c := ⟨_, _, getPixel_line hy hx e⟩
    exact ⟨r7 c hd, g7 c hd, b7 c hd, a7 c hd⟩
  have alpha : i.format = .RGBF → a1 ≤ 1 ∧ 1 ≤ a2 := by
    intro hf
    obtain ⟨c, hd, ec⟩ := a5
    obtain ⟨x, y, e⟩ := hd
    have hpx := hi _ _ (by have := (getPixel_some e).2.1; omega) (getPixel_some e).1
    have e' := (getPixel_some e).2.2
    have one : c.a = .fin 1 := by
      rw [hf] at hpx e'
      generalize i.bmp.px (i.bmp.height - y - 1) x = v at hpx e'
      match v, hpx with
      | .nums [r, g, b], h =>
        have e' : Res.ok (⟨r, g, b, (Arith.ieee Lm).lit 1⟩ : Color Dbl) = .ok c := e'
        cases e'
        exact ieee_one (Lm := Lm)
    obtain ⟨q, eq, q1, q2⟩ := a7 c ⟨x, y, e⟩
    rw [one] at eq
    cases eq
    exact ⟨q1, q2⟩
  obtain ⟨r, er, hr⟩ := resizeLinear_gives (A := Arith.ieee Lm) (FI := FI) (filter := filter) (w := w) (h := h) (i := i)
    (Q := RoundedColor ⟨r1, g1, b1, a1⟩ ⟨r2, g2, b2, a2⟩)
    (R := fun p => ∀ d, getPixelImpl (Arith.ieee Lm) i.format p = .ok d → RangedColor ⟨r1, g1, b1, a1⟩ ⟨r2, g2, b2, a2⟩ d)
    F (fun y x hy hx => pix _ _ hlo hhi src y x hy hx) (fun c hc => set_rounded hf alpha hc)
  refine ⟨r, er, ?_⟩
  cases asks : asked FI i w h filter with
  | some b =>
    unfold asked at asks
    unfold resizeLinear at er
    rw [asks] at er
    cases er
    rintro j ⟨⟩ d hd
    split at asks
    · exact avg.2 _ _ _ asks hfin d hd
    · cases asks
  | none =>
  rintro j rfl d ⟨x, y, e⟩
  obtain ⟨-, j2, -, j4, j5⟩ := resizeLinear_keep (lawful_ieee Lm) F hi er
  obtain ⟨k1, k2, k3⟩ := getPixel_some e
  rw [j2] at k3
  obtain ⟨⟨q1, e1, l1, u1⟩, ⟨q2, e2, l2, u2⟩, ⟨q3, e3, l3, u3⟩, q4, e4, l4, u4⟩ :=
    hr asks j rfl _ _ (by omega) (by omega) d k3
  simp only [BetweenDoubles, doubleChannels, List.forall_mem_cons, List.not_mem_nil, IsEmpty.forall_iff, implies_true,
    and_true]
  exact ⟨⟨r1, r2, q1, e1, l1, u1, r5, r6⟩, ⟨g1, g2, q2, e2, l2, u2, g5, g6⟩, ⟨b1, b2, q3, e3, l3, u3, b5, b6⟩,
    a1, a2, q4, e4, l4, u4, a5, a6⟩

/-- A FreeImage that does not resize. -/
theorem own_doubles {FI : FreeImage Dbl} {i : Image Dbl} (hf : i.format = .RGBAF ∨ i.format = .RGBF) {w h : ℕ}
    {filter : ResizeFilter} (own : OwnFilter FI i w h filter) : AverageDoubles Lm FI i.format w h filter := by
  refine ⟨own.1, fun b b' cs e => ?_⟩
  rcases own.2 with h | h
  · rcases hf with hf | hf <;> simp [hf] at h
  · rw [h b] at e
    cases e

/-- The box filter of a linear image of floats. -/
theorem box_between {FI : FreeImage Dbl} (F : LawfulFI (Arith.ieee Lm) FI) {i : Image Dbl} (hi : ImgOk (Arith.ieee Lm) i)
    (hc : Countable i) (hf : i.format = .RGBAF ∨ i.format = .RGBF) {w h : ℕ} (hsmall : windowPixels i w h ≤ 2 ^ 29)
    (hw : w < 2 ^ 32) (hh : h < 2 ^ 32) (avg : AverageDoubles Lm FI i.format w h .Box)
    (hfin : ∀ c, DoubleColors Lm i c → FiniteColor c) :
    ∃ r, resizeLinear (Arith.ieee Lm) FI i w h .Box = .ok r ∧ ∀ j, r = some j →
      ∀ d, DoubleColors Lm j d → BetweenDoubles (DoubleColors Lm i) d :=
  filter_between F hi hc hf avg hfin (fun lo hi' hlo hhi src y x hy hx => by
    rw [if_pos rfl]
    obtain ⟨c, e1, e2⟩ := boxPixel_ieee hi hc hw hh hy hx
    exact ⟨c, e1, rounded_ranged hlo hhi (e2 _ _ (hlo.imp fun b h => h.box hsmall) (hhi.imp fun b h => h.box hsmall) src)⟩)

end Cuttlefish
