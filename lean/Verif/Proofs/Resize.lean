import Verif.Proofs.Filter
import Verif.Proofs.Srgb
import Verif.Spec.Resize
/-
Resizing in exact arithmetic.
-/
namespace Cuttlefish
open Spec

theorem color_eq {a b c d a' b' c' d' : ℝ} (h1 : a = a') (h2 : b = b') (h3 : c = c') (h4 : d = d') :
    (⟨a, b, c, d⟩ : Color ℝ) = ⟨a', b', c', d'⟩ := by
  subst h1 h2 h3 h4
  rfl

/-- The smallest and the largest values of the channels of an image can be stored. -/
theorem image_bounds {i : Image ℝ} (hi : ImgOk Arith.exact i) (hw : 0 < i.bmp.width) (hh : 0 < i.bmp.height) :
    ∃ lo hi', Bounded i lo hi' ∧ stored i.format lo = lo ∧ stored i.format hi' = hi' ∧ Fitting i.format lo ∧
      Fitting i.format hi' ∧ (∀ ch ∈ colorChannels, ∃ c, Colors i c ∧ ch c = ch lo) ∧
      ∀ ch ∈ colorChannels, ∃ c, Colors i c ∧ ch c = ch hi' := by
  classical
  -- the colour of every pixel
  have hc (p : Nat × Nat) : ∃ c : Color ℝ, p.1 < i.bmp.height → p.2 < i.bmp.width →
      getPixelImpl Arith.exact i.format (i.bmp.px p.1 p.2) = .ok c := by
    by_cases h : p.1 < i.bmp.height ∧ p.2 < i.bmp.width
    · obtain ⟨c, e⟩ := get_px (hi p.1 p.2 h.1 h.2)
      exact ⟨c, fun _ _ => e⟩
    · exact ⟨⟨0, 0, 0, 0⟩, fun h1 h2 => absurd ⟨h1, h2⟩ h⟩
  choose col hcol using hc
  have hne : (Finset.range i.bmp.height ×ˢ Finset.range i.bmp.width).Nonempty :=
    ⟨(0, 0), by simp [hh, hw]⟩
  have hmem {p : Nat × Nat} (hp : p ∈ Finset.range i.bmp.height ×ˢ Finset.range i.bmp.width) :
      p.1 < i.bmp.height ∧ p.2 < i.bmp.width := by simpa using hp
  have colors {p : Nat × Nat} (hp : p ∈ Finset.range i.bmp.height ×ˢ Finset.range i.bmp.width) :
      Colors i (col p) :=
    ⟨_, _, getPixel_line (hmem hp).1 (hmem hp).2 (hcol p (hmem hp).1 (hmem hp).2)⟩
  have fixed {p : Nat × Nat} (hp : p ∈ Finset.range i.bmp.height ×ˢ Finset.range i.bmp.width) :=
    exact_fixed (hi _ _ (hmem hp).1 (hmem hp).2) (hcol p (hmem hp).1 (hmem hp).2)
  have mn (ch : Color ℝ → ℝ) := Finset.exists_min_image _ (fun p => ch (col p)) hne
  have mx (ch : Color ℝ → ℝ) := Finset.exists_max_image _ (fun p => ch (col p)) hne
  -- a colour with extreme channels can be stored
  have mix {pr pg pb pa : Nat × Nat} {R : ℝ → ℝ → Prop} (hR : ∀ a b, R a b → R b a → a = b)
      (hr : pr ∈ Finset.range i.bmp.height ×ˢ Finset.range i.bmp.width ∧
        ∀ q ∈ Finset.range i.bmp.height ×ˢ Finset.range i.bmp.width, R (col pr).r (col q).r)
      (hg : pg ∈ Finset.range i.bmp.height ×ˢ Finset.range i.bmp.width ∧
        ∀ q ∈ Finset.range i.bmp.height ×ˢ Finset.range i.bmp.width, R (col pg).g (col q).g)
      (hb : pb ∈ Finset.range i.bmp.height ×ˢ Finset.range i.bmp.width ∧
        ∀ q ∈ Finset.range i.bmp.height ×ˢ Finset.range i.bmp.width, R (col pb).b (col q).b)
      (ha : pa ∈ Finset.range i.bmp.height ×ˢ Finset.range i.bmp.width) :
      stored i.format ⟨(col pr).r, (col pg).g, (col pb).b, (col pa).a⟩ =
        ⟨(col pr).r, (col pg).g, (col pb).b, (col pa).a⟩ := by
    have f1 := (fixed hr.1).1
    have f2 := (fixed hg.1).1
    have f3 := (fixed hb.1).1
    have f4 := (fixed ha).1
    have gg (h : ∀ p ∈ Finset.range i.bmp.height ×ˢ Finset.range i.bmp.width, (col p).g = (col p).r) :
        (col pg).g = (col pr).r :=
      hR _ _ (by have := hg.2 pr hr.1; rwa [h pr hr.1] at this)
        (by have := hr.2 pg hg.1; rwa [← h pg hg.1] at this)
    have gb (h : ∀ p ∈ Finset.range i.bmp.height ×ˢ Finset.range i.bmp.width, (col p).b = (col p).r) :
        (col pb).b = (col pr).r :=
      hR _ _ (by have := hb.2 pr hr.1; rwa [h pr hr.1] at this)
        (by have := hr.2 pb hb.1; rwa [← h pb hb.1] at this)
    have all : ∀ p ∈ Finset.range i.bmp.height ×ˢ Finset.range i.bmp.width, stored i.format (col p) = col p :=
      fun p hp => (fixed hp).1
    generalize i.format = f at *
    have e1 := congrArg Color.r f1
    have e2 := congrArg Color.g f2
    have e3 := congrArg Color.b f3
    have e4 := congrArg Color.a f4
    cases f
    case Gray8 | Gray16 | Int16 | UInt16 | Int32 | UInt32 | Float | Double =>
      have h1 := gg (fun p hp => by rw [← all p hp]; rfl)
      have h2 := gb (fun p hp => by rw [← all p hp]; rfl)
      exact color_eq e1 (e1.trans h1.symm) (e1.trans h2.symm) e4
    all_goals exact color_eq e1 e2 e3 e4
  obtain ⟨r1, hr1, hr1'⟩ := mn Color.r
  obtain ⟨g1, hg1, hg1'⟩ := mn Color.g
  obtain ⟨b1, hb1, hb1'⟩ := mn Color.b
  obtain ⟨a1, ha1, ha1'⟩ := mn Color.a
  obtain ⟨r2, hr2, hr2'⟩ := mx Color.r
  obtain ⟨g2, hg2, hg2'⟩ := mx Color.g
  obtain ⟨b2, hb2, hb2'⟩ := mx Color.b
  obtain ⟨a2, ha2, ha2'⟩ := mx Color.a
  refine ⟨⟨(col r1).r, (col g1).g, (col b1).b, (col a1).a⟩, ⟨(col r2).r, (col g2).g, (col b2).b, (col a2).a⟩,
    ?_, ?_, ?_, (fixed hr1).2, (fixed hr2).2, ?_, ?_⟩
  · intro y x c hy hx e
    have hm : (y, x) ∈ Finset.range i.bmp.height ×ˢ Finset.range i.bmp.width := by simp [hy, hx]
    have : col (y, x) = c := by
      have := hcol (y, x) hy hx
      rw [e] at this
      cases this
      rfl
    rw [← this]
    exact ⟨⟨hr1' _ hm, hg1' _ hm, hb1' _ hm, ha1' _ hm⟩, hr2' _ hm, hg2' _ hm, hb2' _ hm, ha2' _ hm⟩
  · exact mix (R := fun a b => a ≤ b) (fun _ _ => le_antisymm) ⟨hr1, hr1'⟩ ⟨hg1, hg1'⟩ ⟨hb1, hb1'⟩ ha1
  · exact mix (R := fun a b => b ≤ a) (fun _ _ h1 h2 => le_antisymm h2 h1) ⟨hr2, hr2'⟩ ⟨hg2, hg2'⟩ ⟨hb2, hb2'⟩ ha2
  · intro ch hch
    simp only [colorChannels, List.mem_cons, List.not_mem_nil, or_false] at hch
    rcases hch with rfl | rfl | rfl | rfl
    exacts [⟨_, colors hr1, rfl⟩, ⟨_, colors hg1, rfl⟩, ⟨_, colors hb1, rfl⟩, ⟨_, colors ha1, rfl⟩]
  · intro ch hch
    simp only [colorChannels, List.mem_cons, List.not_mem_nil, or_false] at hch
    rcases hch with rfl | rfl | rfl | rfl
    exacts [⟨_, colors hr2, rfl⟩, ⟨_, colors hg2, rfl⟩, ⟨_, colors hb2, rfl⟩, ⟨_, colors ha2, rfl⟩]

/-- A colour between colours that fit can be stored. -/
theorem fitting_between {f : IFormat} {lo c hi : Color ℝ} (h1 : Fitting f lo) (h2 : Fitting f hi) (b1 : Below lo c)
    (b2 : Below c hi) : Fitting f c := by
  refine ⟨h1.1, fun a b h => ?_⟩
  have := h1.2 a b h
  have := h2.2 a b h
  have := whole_mono b1.1
  have := whole_mono b2.1
  omega

theorem below_channels {c d : Color ℝ} (h : Below c d) {ch : Color ℝ → ℝ} (hch : ch ∈ colorChannels) : ch c ≤ ch d := by
  simp only [colorChannels, List.mem_cons, List.not_mem_nil, or_false] at hch
  obtain ⟨h1, h2, h3, h4⟩ := h
  rcases hch with rfl | rfl | rfl | rfl <;> assumption

/-- Filling an image with colours between two storable ones. -/
theorem fill_between {dst : Image ℝ} {w h : Nat} (hw : dst.bmp.width = w) (hh : dst.bmp.height = h)
    {f : Nat → Nat → Res (Color ℝ)} {lo hi : Color ℝ} (hlo : stored dst.format lo = lo) (hhi : stored dst.format hi = hi)
    (flo : Fitting dst.format lo) (fhi : Fitting dst.format hi)
    (hf : ∀ y x, y < h → x < w → ∃ c, f y x = .ok c ∧ Below lo c ∧ Below c hi) :
    ∃ j, fillPixels Arith.exact dst w h f = .ok j ∧ ImgOk Arith.exact j ∧ j.format = dst.format ∧
      j.colorSpace = dst.colorSpace ∧ j.bmp.width = w ∧ j.bmp.height = h ∧
      ∀ d, Colors j d → Below lo d ∧ Below d hi := by
  obtain ⟨j, e, h1, h2, h3, h4, h5⟩ := write_grid (dst := dst) (h := h) (w := w)
    (q := fun y x => (y, x))
    (P := fun y x p => PxOk Arith.exact dst.format p ∧ ∃ c, getPixelImpl Arith.exact dst.format p = .ok c ∧
      Below lo c ∧ Below c hi)
    (body := fun y x dst => do
      let c ← f y x
      dst.set Arith.exact y x c) (by
      intro y hy x hx d df dw dh dp
      obtain ⟨c, ec, b1, b2⟩ := hf y x hy hx
      obtain ⟨p, ep, okp, gp⟩ := exact_store (fitting_between flo fhi b1 b2)
      refine ⟨p, ⟨okp, _, gp, ?_, ?_⟩, ?_⟩
      · have := stored_mono (f := dst.format) b1
        rwa [hlo] at this
      · have := stored_mono (f := dst.format) b2
        rwa [hhi] at this
      · rw [ec, Res.ok_bind]
        exact Image.set_ok (by omega) (by omega) (by rw [df]; exact ep))
    (by intro y _ x _ y' _ x' _ h; simpa using h)
  refine ⟨j, e, ?_, h1, h2, h3.trans hw, h4.trans hh, ?_⟩
  · intro y x hy hx
    rw [h1]
    exact (h5 y (by omega) x (by omega)).1
  · rintro d ⟨x, y, hd⟩
    obtain ⟨g1, g2, g3⟩ := getPixel_some hd
    obtain ⟨-, c, gc, b1, b2⟩ := h5 (j.bmp.height - y - 1) (by omega) x (by omega)
    rw [h1, gc] at g3
    cases g3
    exact ⟨b1, b2⟩

/-- Without FreeImage. -/
theorem Spec.OwnFilter.average {FI : FreeImage ℝ} {i : Image ℝ} {w h : Nat} {filter : ResizeFilter}
    (own : OwnFilter FI i w h filter) : AverageFilter FI i.format w h filter := by
  refine ⟨own.1, own.2.imp id ?_⟩
  intro h b b' cs e
  rw [h] at e
  cases e

/-- The part of `resize` after the change to linear space. -/
theorem resizeLinear_between {FI : FreeImage ℝ} (LF : LawfulFI Arith.exact FI) {i : Image ℝ}
    (hi : ImgOk Arith.exact i) (hcount : Countable i) {w h : Nat} {filter : ResizeFilter}
    (avg : AverageFilter FI i.format w h filter) :
    ∃ r, resizeLinear Arith.exact FI i w h filter = .ok r ∧ ∀ j, r = some j → ImgOk Arith.exact j ∧
      j.format = i.format ∧ j.colorSpace = i.colorSpace ∧ j.bmp.width = w ∧ j.bmp.height = h ∧
      ∀ d, Colors j d → Between 0 (Colors i) d := by
  obtain ⟨hw, hh, hw', hh', hwh⟩ := hcount
  obtain ⟨hfil, hres⟩ := avg
  cases direct : (if rescales i.format then FI.rescale i.bmp w h filter else none) with
  | some b =>
    unfold resizeLinear
    rw [direct]
    refine ⟨_, rfl, ?_⟩
    rintro _ ⟨⟩
    have hr : FI.rescale i.bmp w h filter = some b ∧ rescales i.format = true := by
      split at direct
      · rename_i hc
        exact ⟨direct, hc⟩
      · cases direct
    obtain ⟨r1, r2, r3⟩ := LF.rescale _ _ _ _ _ hr.1
    refine ⟨r3 _ hi, rfl, rfl, r1, r2, ?_⟩
    rcases hres with h | h
    · have h2 := hr.2
      simp only [List.mem_cons, List.not_mem_nil, or_false] at h
      rcases h with h | h | h | h | h <;> rw [h] at h2 <;> cases h2
    · exact h _ _ i.colorSpace hr.1
  | none =>
  obtain ⟨lo, hi', hb, slo, shi, flo, fhi, clo, chi⟩ := image_bounds hi hw hh
  unfold resizeLinear
  rw [direct]
  cases hn : Image.new FI i.format w h i.colorSpace with
  | none => exact ⟨none, by rcases hfil with rfl | rfl <;> rfl, by simp⟩
  | some dst =>
    obtain ⟨n1, n2, n3, n4, -⟩ := new_ok LF hn
    obtain ⟨j, e, j1, j2, j3, j4, j5, j6⟩ := fill_between (dst := dst) n3 n4 (lo := lo) (hi := hi')
      (by rw [n1]; exact slo) (by rw [n1]; exact shi) (by rw [n1]; exact flo) (by rw [n1]; exact fhi)
      (f := fun y x => if filter = .Box then boxPixel Arith.exact i w h y x else
        linearPixel Arith.exact i w h y x) (by
        intro y x hy hx
        by_cases hf : filter = .Box
        · simp only [if_pos hf]
          exact boxPixel_between hi hb hw hh hw' hh' hwh hy hx
        · simp only [if_neg hf]
          exact linearPixel_between hi hb hw hh hw' hh' hy hx)
    refine ⟨some j, ?_, ?_⟩
    · rcases hfil with rfl | rfl <;> exact congrArg (fun r => r >>= fun d => Res.ok (some d)) e
    rintro _ ⟨⟩
    refine ⟨j1, j2.trans n1, j3.trans n2, j4, j5, ?_⟩
    intro d hd ch hch
    obtain ⟨b1, b2⟩ := j6 d hd
    obtain ⟨c1, hc1, e1⟩ := clo ch hch
    obtain ⟨c2, hc2, e2⟩ := chi ch hch
    refine ⟨⟨c1, hc1, ?_⟩, c2, hc2, ?_⟩
    · rw [e1, sub_zero]
      exact below_channels b1 hch
    · rw [e2, add_zero]
      exact below_channels b2 hch

theorem copy_same {N : Type} {A : Arith N} {FI : FreeImage N} (LF : LawfulFI A FI) {i j : Image N}
    (h : i.copy FI = some j) : j = i := by
  unfold Image.copy at h
  cases hc : FI.clone i.bmp with
  | none => rw [hc] at h; cases h
  | some b =>
    rw [hc] at h
    cases h
    rw [LF.clone _ _ hc]

theorem scan_ok {i : Image ℝ} (hi : ImgOk Arith.exact i) {y x : Nat} (hy : y < i.bmp.height) (hx : x < i.bmp.width) :
    ∃ c, i.scan Arith.exact y x = .ok c ∧ i.getPixel Arith.exact x y = .ok (some c) := by
  obtain ⟨c, e1, e2⟩ := Image.get_ok hi (show i.bmp.height - y - 1 < i.bmp.height by omega) hx
  refine ⟨c, by rw [Image.scan, if_pos hy, e1], ?_⟩
  rw [getPixel_in hx hy, e2]
  rfl

/-- The sum over the window along the depth, for both filters. -/
theorem window_line {S : Type} {start stop i0 : Nat} {cell : Nat → S → Res S} {K : Nat → S → Prop} {Pos : S → Prop}
    {s0 : S} (hi0 : start ≤ i0 ∧ i0 < stop) (h0 : K 0 s0)
    (hcell : ∀ i, start ≤ i → i < stop → ∀ s, K (i - start) s →
      ∃ s', cell i s = .ok s' ∧ K (i - start + 1) s' ∧ (Pos s ∨ i = i0 → Pos s')) :
    ∃ s', loop (steps start stop) cell s0 = .ok s' ∧ K (stop - start) s' ∧ Pos s' := by
  obtain ⟨s', e, p1, p2⟩ := loop_inv (f := cell) (lo := start) (n := stop - start) (s := s0)
    (P := fun i s => K (i - start) s ∧ (i0 < i → Pos s)) ⟨by simpa using h0, by omega⟩ (by
      intro i h1 h2 s ⟨q1, q2⟩
      obtain ⟨s', e, k, p⟩ := hcell i h1 (by omega) s q1
      refine ⟨s', e, by rwa [show i + 1 - start = i - start + 1 by omega], fun h => p ?_⟩
      by_cases h' : i0 < i
      · exact Or.inl (q2 h')
      · exact Or.inr (by omega))
  exact ⟨s', e, by rwa [show start + (stop - start) - start = stop - start by omega] at p1, p2 (by omega)⟩

theorem sum3d {prev : List (Image ℝ)} (hne : prev ≠ []) (hlen : prev.length < 2 ^ 31) {depth d y x : Nat}
    (hd : d < depth) (hok : ∀ i ∈ prev, ImgOk Arith.exact i ∧ y < i.bmp.height ∧ x < i.bmp.width)
    {cs : ColorSpace} {lo hi : Color ℝ}
    (hb : ∀ c, SliceColors prev y x c → Below lo (linearSource Arith.exact cs c) ∧
      Below (linearSource Arith.exact cs c) hi) :
    (∃ c, boxPixel3d Arith.exact prev depth cs d y x = .ok (storedResult Arith.exact cs c) ∧ Below lo c ∧
      Below c hi) ∧
    ∃ c, linearPixel3d Arith.exact prev depth cs d y x = .ok (storedResult Arith.exact cs c) ∧ Below lo c ∧
      Below c hi := by
  have hn : 0 < prev.length := List.length_pos_iff.2 hne
  obtain ⟨c0, c1, -⟩ := center_inside hn hd
  obtain ⟨a1, a2, a3⟩ := axis_facts hn hd (Or.inl rfl)
  obtain ⟨start, stop, wy, t1, t2, t3⟩ := window_ok hlen c0 c1 a1 a2 a3
  have near := middle_near (n := prev.length) (k := depth) c0
  have src (k : Nat) (hk : k < prev.length) : ∃ c, sliceSource Arith.exact prev cs y x k = .ok c ∧
      Below lo c ∧ Below c hi := by
    obtain ⟨h1, h2, h3⟩ := hok prev[k] (List.getElem_mem hk)
    obtain ⟨c, e1, e2⟩ := scan_ok h1 h2 h3
    refine ⟨_, ?_, hb c ⟨_, List.getElem_mem hk, e2⟩⟩
    unfold sliceSource
    rw [List.getElem?_eq_getElem hk]
    simp only [e1, Res.ok_bind]
  constructor
  · obtain ⟨⟨s, t⟩, e, ⟨k1, k2⟩, pos⟩ := window_line (start := start) (stop := stop)
      (s0 := (zeroColor Arith.exact, 0))
      (cell := fun k (s : Color ℝ × Nat) => if 1 / 2 < |(k : ℝ) + 1 / 2 - ((d : ℝ) + 1 / 2) *
          ((prev.length : ℝ) / depth)| * (1 / max ((prev.length : ℝ) / depth) 1) then .ok s
        else do
          let c ← sliceSource Arith.exact prev cs y x k
          .ok (addColor Arith.exact s.1 c, u32 (s.2 + 1)))
      (K := fun n s => s.2 ≤ n ∧ SumOf lo hi s.2 s.1) (Pos := fun s => 0 < s.2)
      ⟨t1, t2⟩ ⟨le_rfl, by simpa using sumOf_zero lo hi⟩ (by
        intro k hk1 hk2 s ⟨k1, k2⟩
        by_cases hs : 1 / 2 < |(k : ℝ) + 1 / 2 - ((d : ℝ) + 1 / 2) * ((prev.length : ℝ) / depth)| *
          (1 / max ((prev.length : ℝ) / depth) 1)
        · refine ⟨s, if_pos hs, ⟨by omega, k2⟩, ?_⟩
          rintro (h | h)
          · exact h
          · rw [h] at hs
            linarith
        · obtain ⟨c, e1, b1, b2⟩ := src k (by omega)
          have hu : u32 (s.2 + 1) = s.2 + 1 := Nat.mod_eq_of_lt (by unfold pow32; omega)
          refine ⟨(addColor Arith.exact s.1 c, s.2 + 1), ?_,
            ⟨by simpa using k1, ?_⟩, fun _ => by simp⟩
          · rw [if_neg hs, e1]
            simp only [Res.ok_bind, hu]
          · have := k2.add_one b1 b2
            simpa using this)
    have ht : (0 : ℝ) < t := by exact_mod_cast pos
    obtain ⟨d1, d2⟩ := k2.div ht
    refine ⟨_, ?_, d1, d2⟩
    unfold boxPixel3d
    have lthalf (o : ℝ) : (Arith.exact.lt (Arith.exact.lit 0.5) o = true) = (1 / 2 < o) := by
      have : ((0.5 : ℚ) : ℝ) = 1 / 2 := by norm_num
      simp only [Arith.exact, this, decide_eq_true_eq]
    simp only [exact_axis, exact_center, wy, Res.ok_bind, exact_distance, lthalf, e]
    simp only [exact_lit, Rat.cast_natCast]
  · obtain ⟨⟨s, t⟩, e, ⟨k1, k2⟩, pos⟩ := window_line (start := start) (stop := stop)
      (s0 := (zeroColor Arith.exact, (0 : ℝ)))
      (cell := fun k (s : Color ℝ × ℝ) => if max (1 - |(k : ℝ) + 1 / 2 - ((d : ℝ) + 1 / 2) *
          ((prev.length : ℝ) / depth)| * (1 / max ((prev.length : ℝ) / depth) 1)) 0 = 0 then .ok s
        else do
          let c ← sliceSource Arith.exact prev cs y x k
          .ok (addScaled Arith.exact s.1 c
              (max (1 - |(k : ℝ) + 1 / 2 - ((d : ℝ) + 1 / 2) *
          ((prev.length : ℝ) / depth)| * (1 / max ((prev.length : ℝ) / depth) 1)) 0),
              s.2 + (max (1 - |(k : ℝ) + 1 / 2 - ((d : ℝ) + 1 / 2) *
          ((prev.length : ℝ) / depth)| * (1 / max ((prev.length : ℝ) / depth) 1)) 0)))
      (K := fun _ s => 0 ≤ s.2 ∧ SumOf lo hi s.2 s.1) (Pos := fun s => 0 < s.2)
      ⟨t1, t2⟩ ⟨le_rfl, sumOf_zero lo hi⟩ (by
        intro k hk1 hk2 s ⟨k1, k2⟩
        by_cases hs : max (1 - |(k : ℝ) + 1 / 2 - ((d : ℝ) + 1 / 2) * ((prev.length : ℝ) / depth)| *
          (1 / max ((prev.length : ℝ) / depth) 1)) 0 = 0
        · refine ⟨s, if_pos hs, ⟨k1, k2⟩, ?_⟩
          rintro (h | h)
          · exact h
          · rw [h, max_eq_right_iff] at hs
            linarith
        · obtain ⟨c, e1, b1, b2⟩ := src k (by omega)
          rw [if_neg hs, e1]
          generalize hw : max (1 - |(k : ℝ) + 1 / 2 - ((d : ℝ) + 1 / 2) * ((prev.length : ℝ) / depth)| *
            (1 / max ((prev.length : ℝ) / depth) 1)) 0 = w at *
          have hw0 : 0 < w := lt_of_le_of_ne (hw ▸ le_max_right _ _) (Ne.symm hs)
          refine ⟨_, by simp only [Res.ok_bind]; rfl, ⟨?_, k2.add hw0.le b1 b2⟩, fun _ => ?_⟩
          · exact (add_pos_of_nonneg_of_pos k1 hw0).le
          · exact add_pos_of_nonneg_of_pos k1 hw0)
    obtain ⟨d1, d2⟩ := k2.div pos
    refine ⟨_, ?_, d1, d2⟩
    unfold linearPixel3d
    have one (o : ℝ) : Arith.exact.max (Arith.exact.sub (Arith.exact.lit 1) o) (Arith.exact.lit 0) = max (1 - o) 0 := by
      rw [exact_max]
      simp only [Arith.exact, Rat.cast_one, Rat.cast_zero]
    have eqz (o : ℝ) : (Arith.exact.eq o (Arith.exact.lit 0) = true) = (o = 0) := by
      simp only [Arith.exact, decide_eq_true_eq, Rat.cast_zero]
    have add (a b : ℝ) : Arith.exact.add a b = a + b := rfl
    have zero : Arith.exact.lit 0 = (0 : ℝ) := by simp [exact_lit]
    simp only [exact_axis, exact_center, wy, Res.ok_bind, exact_distance, one, eqz, add]
    rw [zero]
    simp only [e, Res.ok_bind]

/-- The smallest and the largest channels of the slices at a position. -/
theorem slice_bounds {prev : List (Image ℝ)} (hne : prev ≠ []) {y x : Nat}
    (hok : ∀ i ∈ prev, ImgOk Arith.exact i ∧ y < i.bmp.height ∧ x < i.bmp.width) :
    ∃ lo hi, (∀ c, SliceColors prev y x c → Below lo c ∧ Below c hi) ∧
      (∀ ch ∈ colorChannels, ∃ c, SliceColors prev y x c ∧ ch c = ch lo) ∧
      ∀ ch ∈ colorChannels, ∃ c, SliceColors prev y x c ∧ ch c = ch hi := by
  classical
  have hn : 0 < prev.length := List.length_pos_iff.2 hne
  have hc (k : Nat) : ∃ c : Color ℝ, ∀ hk : k < prev.length,
      prev[k].getPixel Arith.exact x y = .ok (some c) := by
    by_cases hk : k < prev.length
    · obtain ⟨h1, h2, h3⟩ := hok prev[k] (List.getElem_mem hk)
      obtain ⟨c, -, e⟩ := scan_ok h1 h2 h3
      exact ⟨c, fun _ => e⟩
    · exact ⟨⟨0, 0, 0, 0⟩, fun h => absurd h hk⟩
  choose col hcol using hc
  have hne : (Finset.range prev.length).Nonempty := ⟨0, by simpa using hn⟩
  have mn (ch : Color ℝ → ℝ) := Finset.exists_min_image _ (fun p => ch (col p)) hne
  have mx (ch : Color ℝ → ℝ) := Finset.exists_max_image _ (fun p => ch (col p)) hne
  have colors {k : Nat} (hk : k ∈ Finset.range prev.length) : SliceColors prev y x (col k) :=
    ⟨_, List.getElem_mem (Finset.mem_range.1 hk), hcol k _⟩
  obtain ⟨r1, hr1, hr1'⟩ := mn Color.r
  obtain ⟨g1, hg1, hg1'⟩ := mn Color.g
  obtain ⟨b1, hb1, hb1'⟩ := mn Color.b
  obtain ⟨a1, ha1, ha1'⟩ := mn Color.a
  obtain ⟨r2, hr2, hr2'⟩ := mx Color.r
  obtain ⟨g2, hg2, hg2'⟩ := mx Color.g
  obtain ⟨b2, hb2, hb2'⟩ := mx Color.b
  obtain ⟨a2, ha2, ha2'⟩ := mx Color.a
  refine ⟨⟨(col r1).r, (col g1).g, (col b1).b, (col a1).a⟩, ⟨(col r2).r, (col g2).g, (col b2).b, (col a2).a⟩,
    ?_, ?_, ?_⟩
  · rintro c ⟨i, hi, e⟩
    obtain ⟨k, hk, rfl⟩ := List.getElem_of_mem hi
    have hm : k ∈ Finset.range prev.length := Finset.mem_range.2 hk
    have : col k = c := by
      have := hcol k hk
      rw [e] at this
      cases this
      rfl
    rw [← this]
    exact ⟨⟨hr1' _ hm, hg1' _ hm, hb1' _ hm, ha1' _ hm⟩, hr2' _ hm, hg2' _ hm, hb2' _ hm, ha2' _ hm⟩
  · intro ch hch
    simp only [colorChannels, List.mem_cons, List.not_mem_nil, or_false] at hch
    rcases hch with rfl | rfl | rfl | rfl
    exacts [⟨_, colors hr1, rfl⟩, ⟨_, colors hg1, rfl⟩, ⟨_, colors hb1, rfl⟩, ⟨_, colors ha1, rfl⟩]
  · intro ch hch
    simp only [colorChannels, List.mem_cons, List.not_mem_nil, or_false] at hch
    rcases hch with rfl | rfl | rfl | rfl
    exacts [⟨_, colors hr2, rfl⟩, ⟨_, colors hg2, rfl⟩, ⟨_, colors hb2, rfl⟩, ⟨_, colors ha2, rfl⟩]

end Cuttlefish
