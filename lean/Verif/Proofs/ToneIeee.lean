import Verif.Spec.Near
import Verif.Proofs.SrgbResize
import Verif.Proofs.UnitFits
/-
Changing every colour of an image, with the rounding of doubles.
-/
namespace Cuttlefish
open Spec
variable {Lm : Libm}

/-- Storing a channel as an integer and reading it. -/
theorem norm_near (Lm : Libm) {top m : ℕ} (hm : m ∈ [31, 63, 255, 65535]) (ht : m ≤ top) {q : ℚ} (q0 : 0 ≤ q) (q1 : q ≤ 1) :
    ∃ v : ℤ, (Arith.ieee Lm).toNorm top m (.fin q) = .ok v ∧ 0 ≤ v ∧ v ≤ m ∧
      ∃ z : ℚ, (Arith.ieee Lm).fromNorm m v = .fin z ∧ 0 ≤ z ∧ z ≤ 1 ∧ |(z : ℝ) - q| ≤ 1 / (2 * m) + 1 / 10 ^ 11 := by
  have hr := hm
  simp only [List.mem_cons, List.not_mem_nil, or_false] at hm
  have hm1 : m ≤ 65535 := by omega
  have m1 : (31 : ℚ) ≤ m := by exact_mod_cast (show 31 ≤ m by omega)
  have c : clamp01 q = q := by
    unfold clamp01
    rw [min_eq_left q1, max_eq_left q0]
  obtain ⟨b0, b1⟩ := toNorm_bounds q hm1
  have er := toNorm_err q hm1
  rw [c] at b0 b1 er
  refine ⟨_, toNorm_ieee Lm q hm1 ht, by rw [c]; exact b0, by rw [c]; exact b1, ?_⟩
  rw [c]
  generalize roundAwayQ (rneD (q * m)) = v at b0 b1 er
  obtain ⟨z, ez, z0, z1⟩ := unit_norm (Lm := Lm) hr b0 b1
  refine ⟨z, ez, z0, z1, ?_⟩
  rw [fromNorm_ieee Lm (by omega) hm1 (by rw [abs_of_nonneg b0]; omega)] at ez
  cases ez
  have mpos : (0 : ℚ) < m := by linarith
  have n0 : (0 : ℚ) ≤ v / m := div_nonneg (by exact_mod_cast b0) mpos.le
  have n1 : (v : ℚ) / m ≤ 1 := (div_le_one mpos).2 (by exact_mod_cast b1)
  have r1 := rneD_unit n0 (by linarith)
  have r2 : |(v : ℚ) / m - q| ≤ 1 / (2 * m) + 1 / 2 ^ 38 := by
    rw [show (v : ℚ) / m - q = (v - q * m) / m by field_simp, abs_div, abs_of_pos mpos, div_le_iff₀ mpos]
    refine er.trans ?_
    rw [add_mul, div_mul_eq_mul_div, one_mul, show (m : ℚ) / (2 * m) = 1 / 2 by field_simp]
    have : (1 : ℚ) / 2 ^ 38 * 1 ≤ 1 / 2 ^ 38 * m := by gcongr; linarith
    linarith
  have r2' : |(v : ℝ) / m - q| ≤ 1 / (2 * m) + 1 / 2 ^ 38 := by
    have := (Rat.cast_le (K := ℝ)).2 r2
    push_cast at this
    exact this
  push_cast at r1
  have r3 := abs_add_le ((rneD (v / m) : ℝ) - v / m) (v / m - q)
  rw [show (rneD (v / m) : ℝ) - v / m + (v / m - q) = rneD (v / m) - q by ring] at r3
  norm_num at r1 r2' r3 ⊢
  linarith

/-- A channel that was stored in the format. -/
def StoredNear (f : IFormat) (v v' : Dbl) : Prop :=
  ∃ p q : ℚ, v = .fin p ∧ v' = .fin q ∧ 0 ≤ q ∧ q ≤ 1 ∧ |(q : ℝ) - p| ≤ halfStep f + 3 / 10 ^ 8

theorem near_move {f : IFormat} {e x : ℝ} {v v' : Dbl} (h : NearReal e v x) (k : StoredNear f v v') :
    NearReal (halfStep f + e + 3 / 10 ^ 8) v' x := by
  obtain ⟨q, rfl, a⟩ := h
  obtain ⟨p, s, e1, rfl, -, -, b⟩ := k
  cases e1
  refine ⟨s, rfl, ?_⟩
  have := abs_add_le ((s : ℝ) - q) (q - x)
  rw [show (s : ℝ) - q + (q - x) = s - x by ring] at this
  linarith

/-- A colour that was stored in the format. -/
theorem kept_pixel {f : IFormat} (hf : Tonal f) {c : Color Dbl} (hc : UnitColor c)
    (hgrey : isGrayscaleFormat f = true → c.r = c.g ∧ c.g = c.b) :
    ∃ p d, setPixelNoGrayscaleImpl (Arith.ieee Lm) f c = .ok p ∧ getPixelImpl (Arith.ieee Lm) f p = .ok d ∧
      StoredNear f c.r d.r ∧ StoredNear f c.g d.g ∧ StoredNear f c.b d.b ∧ UnitColor d := by
  obtain ⟨r, g, b, a⟩ := unit_iff.1 hc
  obtain ⟨cr, cg, cb, ca⟩ := c
  obtain ⟨r, rfl, r0, r1⟩ := r
  obtain ⟨g, rfl, g0, g1⟩ := g
  obtain ⟨b, rfl, b0, b1⟩ := b
  obtain ⟨a, rfl, a0, a1⟩ := a
  dsimp only [zeros, ones] at *
  have one : Ranged 0 1 ((Arith.ieee Lm).lit 1) := by rw [ieee_one]; exact unit_one
  have unit {r g b : ℚ} {v : Dbl} (hr : 0 ≤ r ∧ r ≤ 1) (hg : 0 ≤ g ∧ g ≤ 1) (hb : 0 ≤ b ∧ b ≤ 1) (hv : Ranged 0 1 v) :
      UnitColor ⟨.fin r, .fin g, .fin b, v⟩ :=
    unit_iff.2 ⟨⟨r, rfl, hr⟩, ⟨g, rfl, hg⟩, ⟨b, rfl, hb⟩, hv⟩
  have kept {f : IFormat} {m : ℕ} (hh : 1 / (2 * (m : ℝ)) ≤ halfStep f) {q z : ℚ} (z0 : 0 ≤ z) (z1 : z ≤ 1)
      (h : |(z : ℝ) - q| ≤ 1 / (2 * m) + 1 / 10 ^ 11) : StoredNear f (.fin q) (.fin z) :=
    ⟨q, z, rfl, rfl, z0, z1, h.trans (by norm_num at hh ⊢; linarith)⟩
  have single {f : IFormat} (hh : 0 ≤ halfStep f) {q : ℚ} (q0 : 0 ≤ q) (q1 : q ≤ 1) :
      ∃ z : ℚ, Dbl.single (.fin q) = .fin z ∧ 0 ≤ z ∧ z ≤ 1 ∧ StoredNear f (.fin q) (.fin z) := by
    obtain ⟨z, e, z0, z1, h⟩ := single_near q0 q1
    exact ⟨z, e, z0, z1, q, z, rfl, rfl, z0, z1, h.trans (by linarith)⟩
  have grey {m : ℕ} (hm : m ∈ [255, 65535]) {f : IFormat} (hh : 1 / (2 * (m : ℝ)) ≤ halfStep f)
      (hs : setPixelNoGrayscaleImpl (Arith.ieee Lm) f ⟨.fin r, .fin g, .fin b, .fin a⟩ =
        ((Arith.ieee Lm).toNorm m m (.fin r)).bind fun v => .ok (.ints [v]))
      (hg : ∀ v, getPixelImpl (Arith.ieee Lm) f (.ints [v]) = .ok ⟨(Arith.ieee Lm).fromNorm m v,
        (Arith.ieee Lm).fromNorm m v, (Arith.ieee Lm).fromNorm m v, (Arith.ieee Lm).lit 1⟩)
      (e1 : (F32.fin r : Dbl) = .fin g) (e2 : (F32.fin g : Dbl) = .fin b) :
      ∃ p d, setPixelNoGrayscaleImpl (Arith.ieee Lm) f ⟨.fin r, .fin g, .fin b, .fin a⟩ = .ok p ∧
        getPixelImpl (Arith.ieee Lm) f p = .ok d ∧ StoredNear f (.fin r) d.r ∧ StoredNear f (.fin g) d.g ∧
        StoredNear f (.fin b) d.b ∧ UnitColor d := by
    cases e1
    cases e2
    obtain ⟨v, t, -, -, z, e, z0, z1, h⟩ := norm_near Lm (m := m)
      (by simp only [List.mem_cons, List.not_mem_nil, or_false] at hm ⊢; omega) le_rfl r0 r1
    refine ⟨_, _, by rw [hs, t]; rfl, hg v, ?_⟩
    rw [e]
    have := kept hh z0 z1 h
    exact ⟨this, this, this, unit ⟨z0, z1⟩ ⟨z0, z1⟩ ⟨z0, z1⟩ one⟩
  have three {m m' top : ℕ} (hm : m ∈ [31, 63, 255, 65535]) (hm' : m' ∈ [31, 63, 255, 65535]) (ht : m ≤ top)
      (ht' : m' ≤ top) {f : IFormat} (hh : 1 / (2 * (m : ℝ)) ≤ halfStep f)
      (hh' : 1 / (2 * (m' : ℝ)) ≤ halfStep f) (w : ℤ → ℤ → ℤ → List ℤ)
      (hs : setPixelNoGrayscaleImpl (Arith.ieee Lm) f ⟨.fin r, .fin g, .fin b, .fin a⟩ =
        ((Arith.ieee Lm).toNorm top m (.fin r)).bind fun u => ((Arith.ieee Lm).toNorm top m' (.fin g)).bind fun v =>
        ((Arith.ieee Lm).toNorm top m (.fin b)).bind fun z => .ok (.ints (w u v z)))
      (hg : ∀ u v z : ℤ, 0 ≤ u → u ≤ m → 0 ≤ v → v ≤ m' → 0 ≤ z → z ≤ m → getPixelImpl (Arith.ieee Lm) f (.ints (w u v z)) =
        .ok ⟨(Arith.ieee Lm).fromNorm m u, (Arith.ieee Lm).fromNorm m' v, (Arith.ieee Lm).fromNorm m z,
          (Arith.ieee Lm).lit 1⟩) :
      ∃ p d, setPixelNoGrayscaleImpl (Arith.ieee Lm) f ⟨.fin r, .fin g, .fin b, .fin a⟩ = .ok p ∧
        getPixelImpl (Arith.ieee Lm) f p = .ok d ∧ StoredNear f (.fin r) d.r ∧ StoredNear f (.fin g) d.g ∧
        StoredNear f (.fin b) d.b ∧ UnitColor d := by
    obtain ⟨u, t1, u1, u2, z1, e1, z10, z11, h1⟩ := norm_near Lm hm ht r0 r1
    obtain ⟨v, t2, v1, v2, z2, e2, z20, z21, h2⟩ := norm_near Lm hm' ht' g0 g1
    obtain ⟨z, t3, w1, w2, z3, e3, z30, z31, h3⟩ := norm_near Lm hm ht b0 b1
    refine ⟨_, _, by rw [hs, t1, t2, t3]; rfl, hg u v z u1 u2 v1 v2 w1 w2, ?_⟩
    rw [e1, e2, e3]
    exact ⟨kept hh z10 z11 h1, kept hh' z20 z21 h2, kept hh z30 z31 h3, unit ⟨z10, z11⟩ ⟨z20, z21⟩ ⟨z30, z31⟩ one⟩
  have four {m : ℕ} (hm : m ∈ [31, 63, 255, 65535]) {f : IFormat} (hh : 1 / (2 * (m : ℝ)) ≤ halfStep f)
      (hs : setPixelNoGrayscaleImpl (Arith.ieee Lm) f ⟨.fin r, .fin g, .fin b, .fin a⟩ =
        ((Arith.ieee Lm).toNorm m m (.fin r)).bind fun u => ((Arith.ieee Lm).toNorm m m (.fin g)).bind fun v =>
        ((Arith.ieee Lm).toNorm m m (.fin b)).bind fun z => ((Arith.ieee Lm).toNorm m m (.fin a)).bind fun w =>
          .ok (.ints [u, v, z, w]))
      (hg : ∀ u v z w : ℤ, getPixelImpl (Arith.ieee Lm) f (.ints [u, v, z, w]) =
        .ok ⟨(Arith.ieee Lm).fromNorm m u, (Arith.ieee Lm).fromNorm m v, (Arith.ieee Lm).fromNorm m z,
          (Arith.ieee Lm).fromNorm m w⟩) :
      ∃ p d, setPixelNoGrayscaleImpl (Arith.ieee Lm) f ⟨.fin r, .fin g, .fin b, .fin a⟩ = .ok p ∧
        getPixelImpl (Arith.ieee Lm) f p = .ok d ∧ StoredNear f (.fin r) d.r ∧ StoredNear f (.fin g) d.g ∧
        StoredNear f (.fin b) d.b ∧ UnitColor d := by
    obtain ⟨u, t1, -, -, z1, e1, z10, z11, h1⟩ := norm_near Lm hm le_rfl r0 r1
    obtain ⟨v, t2, -, -, z2, e2, z20, z21, h2⟩ := norm_near Lm hm le_rfl g0 g1
    obtain ⟨z, t3, -, -, z3, e3, z30, z31, h3⟩ := norm_near Lm hm le_rfl b0 b1
    obtain ⟨w, t4, -, -, z4, e4, z40, z41, h4⟩ := norm_near Lm hm le_rfl a0 a1
    refine ⟨_, _, by rw [hs, t1, t2, t3, t4]; rfl, hg u v z w, ?_⟩
    rw [e1, e2, e3, e4]
    exact ⟨kept hh z10 z11 h1, kept hh z20 z21 h2, kept hh z30 z31 h3,
      unit ⟨z10, z11⟩ ⟨z20, z21⟩ ⟨z30, z31⟩ ⟨z4, rfl, z40, z41⟩⟩
  simp only [Tonal, List.mem_cons, List.not_mem_nil, or_false] at hf
  rcases hf with rfl | rfl | rfl | rfl | rfl | rfl | rfl | rfl | rfl | rfl | rfl | rfl
  · exact grey (m := 255) (by simp) (by norm_num [halfStep]) rfl (fun _ => rfl) (hgrey rfl).1 (hgrey rfl).2
  · exact grey (m := 65535) (by simp) (by norm_num [halfStep]) rfl (fun _ => rfl) (hgrey rfl).1 (hgrey rfl).2
  · refine three (m := 31) (m' := 31) (top := 255) (by simp) (by simp) (by simp) (by simp) (by norm_num [halfStep])
      (by norm_num [halfStep]) (fun u v z => [u * 2 ^ 10 + v * 2 ^ 5 + z]) rfl ?_
    intro u v z u1 u2 v1 v2 z1 z2
    have e1 : getField (u * 2 ^ 10 + v * 2 ^ 5 + z) 10 5 = u := by unfold getField; omega
    have e2 : getField (u * 2 ^ 10 + v * 2 ^ 5 + z) 5 5 = v := by unfold getField; omega
    have e3 : getField (u * 2 ^ 10 + v * 2 ^ 5 + z) 0 5 = z := by unfold getField; omega
    simp only [getPixelImpl, e1, e2, e3]
  · refine three (m := 31) (m' := 63) (top := 255) (by simp) (by simp) (by simp) (by simp) (by norm_num [halfStep])
      (by norm_num [halfStep]) (fun u v z => [u * 2 ^ 11 + v * 2 ^ 5 + z]) rfl ?_
    intro u v z u1 u2 v1 v2 z1 z2
    have e1 : getField (u * 2 ^ 11 + v * 2 ^ 5 + z) 11 5 = u := by unfold getField; omega
    have e2 : getField (u * 2 ^ 11 + v * 2 ^ 5 + z) 5 6 = v := by unfold getField; omega
    have e3 : getField (u * 2 ^ 11 + v * 2 ^ 5 + z) 0 5 = z := by unfold getField; omega
    simp only [getPixelImpl, e1, e2, e3]
  · exact three (m := 255) (m' := 255) (top := 255) (by simp) (by simp) le_rfl le_rfl (by norm_num [halfStep])
      (by norm_num [halfStep]) (fun u v z => [u, v, z]) rfl (fun u v z _ _ _ _ _ _ => rfl)
  · exact three (m := 65535) (m' := 65535) (top := 65535) (by simp) (by simp) le_rfl le_rfl (by norm_num [halfStep])
      (by norm_num [halfStep]) (fun u v z => [u, v, z]) rfl (fun u v z _ _ _ _ _ _ => rfl)
  · exact four (m := 255) (by simp) (by norm_num [halfStep]) rfl (fun _ _ _ _ => rfl)
  · exact four (m := 65535) (by simp) (by norm_num [halfStep]) rfl (fun _ _ _ _ => rfl)
  · obtain ⟨z1, e1, z10, z11, h1⟩ := single (f := .RGBF) le_rfl r0 r1
    obtain ⟨z2, e2, z20, z21, h2⟩ := single (f := .RGBF) le_rfl g0 g1
    obtain ⟨z3, e3, z30, z31, h3⟩ := single (f := .RGBF) le_rfl b0 b1
    refine ⟨.nums [Dbl.single (.fin r), Dbl.single (.fin g), Dbl.single (.fin b)], _, rfl, rfl, ?_⟩
    dsimp only
    rw [e1, e2, e3]
    exact ⟨h1, h2, h3, unit ⟨z10, z11⟩ ⟨z20, z21⟩ ⟨z30, z31⟩ one⟩
  · obtain ⟨z1, e1, z10, z11, h1⟩ := single (f := .RGBAF) le_rfl r0 r1
    obtain ⟨z2, e2, z20, z21, h2⟩ := single (f := .RGBAF) le_rfl g0 g1
    obtain ⟨z3, e3, z30, z31, h3⟩ := single (f := .RGBAF) le_rfl b0 b1
    obtain ⟨z4, e4, z40, z41, -⟩ := single (f := .RGBAF) le_rfl a0 a1
    refine ⟨.nums [Dbl.single (.fin r), Dbl.single (.fin g), Dbl.single (.fin b), Dbl.single (.fin a)], _, rfl, rfl, ?_⟩
    dsimp only
    rw [e1, e2, e3, e4]
    exact ⟨h1, h2, h3, unit ⟨z10, z11⟩ ⟨z20, z21⟩ ⟨z30, z31⟩ ⟨z4, rfl, z40, z41⟩⟩
  · obtain ⟨e1, e2⟩ := hgrey rfl
    cases e1
    cases e2
    obtain ⟨z1, e1, z10, z11, h1⟩ := single (f := .Float) le_rfl r0 r1
    refine ⟨.nums [Dbl.single (.fin r)], _, rfl, rfl, ?_⟩
    dsimp only
    rw [e1]
    exact ⟨h1, h1, h1, unit ⟨z10, z11⟩ ⟨z10, z11⟩ ⟨z10, z11⟩ one⟩
  · obtain ⟨e1, e2⟩ := hgrey rfl
    cases e1
    cases e2
    have h1 : StoredNear .Double (.fin r) (.fin r) := ⟨r, r, rfl, rfl, r0, r1, by rw [sub_self, abs_zero]; norm_num [halfStep]⟩
    exact ⟨.nums [.fin r], _, rfl, rfl, h1, h1, h1, unit ⟨r0, r1⟩ ⟨r0, r1⟩ ⟨r0, r1⟩ one⟩

/-- Pixels of grey formats are grey. -/
theorem read_grey {N : Type} {A : Arith N} {f : IFormat} (hf : isGrayscaleFormat f = true) {p : Px N} {c : Color N}
    (h : getPixelImpl A f p = .ok c) : c.r = c.g ∧ c.g = c.b := by
  unfold getPixelImpl at h
  split at h <;> first
    | exact absurd hf (by decide)
    | (cases h; exact ⟨rfl, rfl⟩)
    | cases h

/-- Changing every colour of an image of a tonal format with a function that is accurate up to `e`. -/
theorem map_near {i : Image Dbl} (hi : ImgOk (Arith.ieee Lm) i) (hf : Tonal i.format) (hu : UnitImage Lm i)
    {g : Color Dbl → Color Dbl} {G : Color ℝ → Color ℝ} {e : ℝ} (ha : ∀ c, (g c).a = c.a) (hA : ∀ c, (G c).a = c.a)
    (hunit : ∀ c, UnitColor c → UnitColor (g c))
    (hgrey : ∀ c, c.r = c.g → c.g = c.b → (g c).r = (g c).g ∧ (g c).g = (g c).b)
    (hnear : ∀ c c', UnitColor c → RealColor c c' → NearReal e (g c).r (G c').r ∧ NearReal e (g c).g (G c').g ∧
      NearReal e (g c).b (G c').b) (he : 0 ≤ e) :
    ∃ j, i.mapPixels (Arith.ieee Lm) g = .ok j ∧ ImgOk (Arith.ieee Lm) j ∧ j.format = i.format ∧
      j.colorSpace = i.colorSpace ∧ j.bmp.width = i.bmp.width ∧ j.bmp.height = i.bmp.height ∧ UnitImage Lm j ∧
      ∀ x y c c', i.getPixel (Arith.ieee Lm) x y = .ok (some c) → RealColor c c' →
        ∃ d, j.getPixel (Arith.ieee Lm) x y = .ok (some d) ∧ d.a = c.a ∧
          NearChannels (halfStep i.format + e + 3 / 10 ^ 8) d (G c') := by
  have grey {p : Px Dbl} {c : Color Dbl} (h : getPixelImpl (Arith.ieee Lm) i.format p = .ok c) :
      isGrayscaleFormat i.format = true → (g c).r = (g c).g ∧ (g c).g = (g c).b := fun h' => by
    obtain ⟨a, b⟩ := read_grey h' h
    exact hgrey c a b
  obtain ⟨j, ej, h1, h2, h3, h4, h5, h6⟩ := mapPixels_spec (lawful_ieee Lm) hi (f := g) (by
    intro y x hy hx c hc
    obtain ⟨p, -, e, -⟩ := kept_pixel (Lm := Lm) hf (hunit c (hu c ⟨_, _, getPixel_line hy hx hc⟩)) (grey hc)
    exact ⟨p, e⟩)
  have pixel {y x : ℕ} (hy : y < i.bmp.height) (hx : x < i.bmp.width) : ∃ c d,
      getPixelImpl (Arith.ieee Lm) i.format (i.bmp.px y x) = .ok c ∧ getPixelImpl (Arith.ieee Lm) j.format (j.bmp.px y x) = .ok d ∧
      UnitColor c ∧ UnitColor d ∧ StoredNear i.format (g c).r d.r ∧ StoredNear i.format (g c).g d.g ∧
      StoredNear i.format (g c).b d.b := by
    obtain ⟨c, c1, c2⟩ := h6 y x hy hx
    have uc := hu c ⟨_, _, getPixel_line hy hx c1⟩
    obtain ⟨p, d, e1, e2, k1, k2, k3, k4⟩ := kept_pixel (Lm := Lm) hf (hunit c uc) (grey c1)
    rw [c2] at e1
    refine ⟨c, d, c1, ?_, uc, k4, k1, k2, k3⟩
    rw [h2, Res.ok.inj e1]
    exact e2
  refine ⟨j, ej, h1, h2, h3, h4, h5, ?_, ?_⟩
  · rintro d ⟨x, y, hd⟩
    obtain ⟨d1, d2, d3⟩ := getPixel_some hd
    obtain ⟨c, d', -, e2, -, k, -⟩ := pixel (y := j.bmp.height - y - 1) (x := x) (by omega) (by omega)
    rw [d3] at e2
    cases e2
    exact k
  · intro x y c c' hc hr
    obtain ⟨d1, d2, d3⟩ := getPixel_some hc
    obtain ⟨c0, d, e1, e2, uc, ud, k1, k2, k3⟩ := pixel (y := i.bmp.height - y - 1) (x := x) (by omega) d1
    rw [d3] at e1
    cases e1
    have hd : j.getPixel (Arith.ieee Lm) x y = .ok (some d) := by
      rw [getPixel_in (by omega) (by omega), h5, e2]
      rfl
    have al := mapPixels_alpha (lawful_ieee Lm) (f := g) hi ha ej
    obtain ⟨d', e', a'⟩ := al.2.2.2.2 x y c hc
    rw [hd] at e'
    cases e'
    obtain ⟨n1, n2, n3⟩ := hnear c c' uc hr
    refine ⟨d, hd, a', near_move n1 k1, near_move n2 k2, near_move n3 k3, ?_⟩
    obtain ⟨q, e, h⟩ := hr.2.2.2
    refine ⟨q, a'.trans e, ?_⟩
    rw [hA]
    have : 0 ≤ halfStep i.format := by unfold halfStep; split <;> norm_num
    refine h.trans ?_
    norm_num
    linarith

/-- An amount of light. -/
theorem light_near {cs : ColorSpace} (P : cs = .sRGB → AccuratePow Lm) {q : ℚ} (q0 : 0 ≤ q) (q1 : q ≤ 1) :
    ∃ z : ℚ, (if cs = .sRGB then (Arith.ieee Lm).sRGBToLinear (.fin q) else .fin q) = .fin z ∧ 0 ≤ z ∧ z ≤ 1 ∧
      |(z : ℝ) - light cs q| ≤ 1.1 / 10 ^ 8 := by
  cases cs
  · exact ⟨q, rfl, q0, q1, by show |(q : ℝ) - q| ≤ _; rw [sub_self, abs_zero]; norm_num⟩
  · exact linear_near (P rfl) q0 q1

theorem encoded_near {cs : ColorSpace} (P : cs = .sRGB → AccuratePow Lm) {q : ℚ} (q0 : 0 ≤ q) (q1 : q ≤ 1) {x : ℝ}
    (h : |(q : ℝ) - x| ≤ 1.2 / 10 ^ 8) :
    ∃ z : ℚ, (if cs = .sRGB then (Arith.ieee Lm).linearToSRGB (.fin q) else .fin q) = .fin z ∧ 0 ≤ z ∧ z ≤ 1 ∧
      |(z : ℝ) - encoded cs x| ≤ 2.7 / 10 ^ 7 := by
  cases cs
  · exact ⟨q, rfl, q0, q1, h.trans (by norm_num)⟩
  · obtain ⟨z, e, z0, z1, a⟩ := sRGB_near (P rfl) q0 q1
    refine ⟨z, e, z0, z1, ?_⟩
    have b := toSRGB_move (x := q) (y := x) (e := 1.2 / 10 ^ 8) (by norm_num) (by linarith [(abs_le.1 h).2])
    have c := toSRGB_move (x := x) (y := q) (e := 1.2 / 10 ^ 8) (by norm_num) (by linarith [(abs_le.1 h).1])
    show |(z : ℝ) - toSRGB x| ≤ _
    rw [abs_le] at a ⊢
    norm_num at a b c ⊢
    constructor <;> linarith

theorem mul_near {p q : ℚ} (p0 : 0 ≤ p) (p1 : p ≤ 1) (q0 : 0 ≤ q) (q1 : q ≤ 1) :
    ∃ z : ℚ, (Arith.ieee Lm).mul (.fin p) (.fin q) = .fin z ∧ 0 ≤ z ∧ z ≤ 1 ∧ |(z : ℝ) - p * q| ≤ 1 / 2 ^ 53 := by
  have h0 : 0 ≤ p * q := mul_nonneg p0 q0
  have h1 : p * q ≤ 1 := mul_le_one₀ p1 q0 q1
  have r := rneD_unit h0 (by linarith)
  push_cast at r
  refine ⟨rneD (p * q), ?_, (unit_round h0 h1).1, (unit_round h0 h1).2, r⟩
  show Dbl.ofQ (p * q) = _
  exact ofQ_small (by rw [abs_of_nonneg h0]; linarith)

theorem gray_red : (Arith.ieee Lm).lit 0.2126 = .fin (rneD 0.2126) := ofQ_small (by norm_num [abs_le])
theorem gray_green : (Arith.ieee Lm).lit 0.7152 = .fin (rneD 0.7152) := ofQ_small (by norm_num [abs_le])
theorem gray_blue : (Arith.ieee Lm).lit 0.0722 = .fin (rneD 0.0722) := ofQ_small (by norm_num [abs_le])

theorem gray_top : rneD (rneD (rneD 0.2126 + rneD 0.7152) + rneD 0.0722) ≤ 1 := by decide +kernel

/-- The luminance. -/
theorem gray_near {r g b : ℚ} (hr : 0 ≤ r ∧ r ≤ 1) (hg : 0 ≤ g ∧ g ≤ 1) (hb : 0 ≤ b ∧ b ≤ 1) :
    ∃ z : ℚ, (Arith.ieee Lm).toGrayscale (.fin r) (.fin g) (.fin b) = .fin z ∧ 0 ≤ z ∧ z ≤ 1 ∧
      |(z : ℝ) - luminance r g b| ≤ 1 / 2 ^ 49 := by
  have top := gray_top
  have factor {c : ℚ} (c0 : 0 ≤ c) (c1 : c ≤ 1) {v : ℚ} (hv : 0 ≤ v ∧ v ≤ 1) : ∃ m : ℚ,
      (Arith.ieee Lm).mul (.fin v) (.fin (rneD c)) = .fin m ∧ 0 ≤ m ∧ m ≤ rneD c ∧ |(m : ℝ) - c * v| ≤ 2 / 2 ^ 53 := by
    obtain ⟨w0, w1⟩ := unit_round c0 c1
    have k := rneD_unit c0 (by linarith)
    have h0 : 0 ≤ v * rneD c := mul_nonneg hv.1 w0
    have h1 : v * rneD c ≤ rneD c := mul_le_of_le_one_left w0 hv.2
    have k' := rneD_unit h0 (by linarith)
    push_cast at k'
    refine ⟨rneD (v * rneD c), ofQ_small (by rw [abs_of_nonneg h0]; linarith), (unit_round h0 (by linarith)).1,
      rneD_le_of (rneD_rep c) h1, ?_⟩
    have v0 : (0 : ℝ) ≤ v := by exact_mod_cast hv.1
    have v1 : (v : ℝ) ≤ 1 := by exact_mod_cast hv.2
    have k2 : |(v : ℝ) * rneD c - c * v| ≤ 1 / 2 ^ 53 := by
      rw [show (v : ℝ) * rneD c - c * v = v * (rneD c - c) by ring, abs_mul, abs_of_nonneg v0]
      calc (v : ℝ) * |(rneD c : ℝ) - c| ≤ 1 * (1 / 2 ^ 53) := by gcongr
        _ = _ := one_mul _
    rw [abs_le] at *
    constructor <;> linarith [k'.1, k'.2, k2.1, k2.2]
  have plus {p q : ℚ} (p0 : 0 ≤ p) (q0 : 0 ≤ q) (h : p + q ≤ 2) : (Arith.ieee Lm).add (.fin p) (.fin q) = .fin (rneD (p + q)) ∧
      0 ≤ rneD (p + q) ∧ |(rneD (p + q) : ℝ) - (p + q)| ≤ 1 / 2 ^ 53 := by
    have h0 : 0 ≤ p + q := add_nonneg p0 q0
    have k := rneD_unit h0 h
    push_cast at k
    exact ⟨ofQ_small (by rw [abs_of_nonneg h0]; linarith), rneD_ge_of linBound_zero.rep h0, k⟩
  obtain ⟨m1, e1, m10, m11, a1⟩ := factor (c := 0.2126) (by norm_num) (by norm_num) hr
  obtain ⟨m2, e2, m20, m21, a2⟩ := factor (c := 0.7152) (by norm_num) (by norm_num) hg
  obtain ⟨m3, e3, m30, m31, a3⟩ := factor (c := 0.0722) (by norm_num) (by norm_num) hb
  have wr := unit_round (q := 0.2126) (by norm_num) (by norm_num)
  have wg := unit_round (q := 0.7152) (by norm_num) (by norm_num)
  have wb := unit_round (q := 0.0722) (by norm_num) (by norm_num)
  obtain ⟨e4, s0, a4⟩ := plus m10 m20 (by linarith [wr.2, wg.2])
  have s1 : rneD (m1 + m2) ≤ rneD (rneD 0.2126 + rneD 0.7152) := rneD_mono (by linarith)
  have s2 : rneD (rneD 0.2126 + rneD 0.7152) ≤ 1 := by decide +kernel
  obtain ⟨e5, t0, a5⟩ := plus s0 m30 (by linarith [wb.2])
  refine ⟨rneD (rneD (m1 + m2) + m3), ?_, t0, (rneD_mono (by linarith)).trans top, ?_⟩
  · unfold Arith.toGrayscale
    rw [gray_red, gray_green, gray_blue, e1, e2, e3, e4, e5]
  · unfold luminance
    push_cast at a1 a2 a3
    rw [abs_le] at *
    norm_num at a1 a2 a3 a4 a5 ⊢
    constructor <;> linarith [a1.1, a1.2, a2.1, a2.2, a3.1, a3.2, a4.1, a4.2, a5.1, a5.2]

/-- A channel of a pre-multiplied colour. -/
theorem multiplied_near {cs : ColorSpace} (P : cs = .sRGB → AccuratePow Lm) {v a : Dbl} {x y : ℝ} (hv : Ranged 0 1 v)
    (ha : Ranged 0 1 a) (hx : NearReal 0 v x) (hy : NearReal 0 a y) :
    ∃ z : ℚ, (if cs = .sRGB then (Arith.ieee Lm).linearToSRGB ((Arith.ieee Lm).mul (if cs = .sRGB then
        (Arith.ieee Lm).sRGBToLinear v else v) a) else ((Arith.ieee Lm).mul (if cs = .sRGB then
        (Arith.ieee Lm).sRGBToLinear v else v) a)) = .fin z ∧ 0 ≤ z ∧ z ≤ 1 ∧ |(z : ℝ) - encoded cs (light cs x * y)| ≤ 2.7 / 10 ^ 7 := by
  obtain ⟨q, rfl, q0, q1⟩ := hv
  obtain ⟨p, rfl, p0, p1⟩ := ha
  obtain ⟨q', e, h⟩ := hx
  cases e
  obtain ⟨p', e, h'⟩ := hy
  cases e
  have h := sub_eq_zero.1 (abs_nonpos_iff.1 h)
  have h' := sub_eq_zero.1 (abs_nonpos_iff.1 h')
  subst h
  subst h'
  obtain ⟨l, e, l0, l1, la⟩ := light_near (Lm := Lm) P q0 q1
  rw [e]
  obtain ⟨m, e, m0, m1, ma⟩ := mul_near (Lm := Lm) l0 l1 p0 p1
  rw [e]
  refine encoded_near P m0 m1 ?_
  have rp0 : (0 : ℝ) ≤ p := by exact_mod_cast p0
  have rp1 : (p : ℝ) ≤ 1 := by exact_mod_cast p1
  have k : |(l : ℝ) * p - light cs q * p| ≤ 1.1 / 10 ^ 8 := by
    rw [← sub_mul, abs_mul, abs_of_nonneg rp0]
    calc |(l : ℝ) - light cs q| * p ≤ 1.1 / 10 ^ 8 * 1 := by gcongr
      _ = _ := mul_one _
  rw [abs_le] at *
  norm_num at *
  constructor <;> linarith

/-- The grey of a colour. -/
theorem greyed_near {cs : ColorSpace} (P : cs = .sRGB → AccuratePow Lm) {c : Color Dbl} {c' : Color ℝ} (hc : UnitColor c)
    (hr : RealColor c c') : ∃ z : ℚ, (grayscaleColor (Arith.ieee Lm) cs c).r = .fin z ∧ 0 ≤ z ∧ z ≤ 1 ∧
      |(z : ℝ) - (greyed cs c').r| ≤ 2.7 / 10 ^ 7 := by
  obtain ⟨⟨r, er, r0, r1⟩, ⟨g, eg, g0, g1⟩, ⟨b, eb, b0, b1⟩, -⟩ := unit_iff.1 hc
  obtain ⟨⟨r', er', hr⟩, ⟨g', eg', hg⟩, ⟨b', eb', hb⟩, -⟩ := hr
  rw [er] at er'
  rw [eg] at eg'
  rw [eb] at eb'
  cases er'
  cases eg'
  cases eb'
  have hr := sub_eq_zero.1 (abs_nonpos_iff.1 hr)
  have hg := sub_eq_zero.1 (abs_nonpos_iff.1 hg)
  have hb := sub_eq_zero.1 (abs_nonpos_iff.1 hb)
  obtain ⟨l1, e1, l10, l11, a1⟩ := light_near (Lm := Lm) P r0 r1
  obtain ⟨l2, e2, l20, l21, a2⟩ := light_near (Lm := Lm) P g0 g1
  obtain ⟨l3, e3, l30, l31, a3⟩ := light_near (Lm := Lm) P b0 b1
  obtain ⟨m, e, m0, m1, ma⟩ := gray_near (Lm := Lm) ⟨l10, l11⟩ ⟨l20, l21⟩ ⟨l30, l31⟩
  unfold grayscaleColor greyed onColor
  dsimp only
  rw [er, eg, eb, e1, e2, e3, e, ← hr, ← hg, ← hb]
  refine encoded_near P m0 m1 ?_
  unfold luminance at *
  rw [abs_le] at *
  norm_num at *
  constructor <;> linarith

end Cuttlefish
