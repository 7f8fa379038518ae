import Verif.Props.C48
import Verif.Proofs.ToneIeee
import Verif.Spec.ToyPow
/-
C48 with the rounding of doubles.

`Own`, `recoloured` and `shown` are in `Verif/Spec/Convert.lean`, `RealColor`, `NearChannels`, `halfStep` and `Tonal` in
`Verif/Spec/Near.lean`.
-/
namespace Cuttlefish
open Spec
variable {Lm : Libm}

theorem shown_alpha {f : IFormat} (hf : Tonal f) (ha : ¬ WithAlpha f) {c d : Color Dbl} {p : Px Dbl}
    (h : setPixelNoGrayscaleImpl (Arith.ieee Lm) f c = .ok p) (h' : getPixelImpl (Arith.ieee Lm) f p = .ok d) :
    d.a = .fin 1 := by
  rw [← ieee_one (Lm := Lm)]
  unfold getPixelImpl at h'
  unfold WithAlpha at ha
  simp only [Tonal, List.mem_cons, List.not_mem_nil, or_false] at hf
  split at h' <;> first
    | (cases h'; rfl)
    | (cases h'; done)
    | (exfalso; revert ha hf; simp; done)

theorem stored_alpha {f : IFormat} (ha : WithAlpha f) {c d : Color Dbl} {p : Px Dbl} (hc : Ranged 0 1 c.a)
    (h : setPixelNoGrayscaleImpl (Arith.ieee Lm) f c = .ok p) (h' : getPixelImpl (Arith.ieee Lm) f p = .ok d) :
    StoredNear f c.a d.a := by
  obtain ⟨a, ea, a0, a1⟩ := hc
  have bits {m : ℕ} (hm : m ∈ [31, 63, 255, 65535]) (hh : 1 / (2 * (m : ℝ)) ≤ halfStep f) {w : ℤ}
      (t : (Arith.ieee Lm).toNorm m m (.fin a) = .ok w) : StoredNear f (.fin a) ((Arith.ieee Lm).fromNorm m w) := by
    obtain ⟨v, t', -, -, z, e, z0, z1, h⟩ := norm_near Lm hm le_rfl a0 a1
    rw [t] at t'
    cases t'
    rw [e]
    exact ⟨a, z, rfl, rfl, z0, z1, h.trans (by norm_num at hh ⊢; linarith)⟩
  rcases ha with rfl | rfl | rfl
  · obtain ⟨u1, -, h⟩ := Res.bind_eq_ok.1 h
    obtain ⟨u2, -, h⟩ := Res.bind_eq_ok.1 h
    obtain ⟨u3, -, h⟩ := Res.bind_eq_ok.1 h
    obtain ⟨w, t, h⟩ := Res.bind_eq_ok.1 h
    cases h
    cases h'
    rw [ea] at t ⊢
    exact bits (m := 255) (by simp) (by norm_num [halfStep]) t
  · obtain ⟨u1, -, h⟩ := Res.bind_eq_ok.1 h
    obtain ⟨u2, -, h⟩ := Res.bind_eq_ok.1 h
    obtain ⟨u3, -, h⟩ := Res.bind_eq_ok.1 h
    obtain ⟨w, t, h⟩ := Res.bind_eq_ok.1 h
    cases h
    cases h'
    rw [ea] at t ⊢
    exact bits (m := 65535) (by simp) (by norm_num [halfStep]) t
  · cases h
    cases h'
    rw [ea]
    obtain ⟨z, e, z0, z1, h⟩ := single_near a0 a1
    show StoredNear _ _ (Dbl.single (.fin a))
    rw [e]
    exact ⟨a, z, rfl, rfl, z0, z1, h.trans (by norm_num [halfStep])⟩

/-- Storing a colour in a format. -/
theorem shown_near {f : IFormat} (hf : Tonal f) {c : Color Dbl} (hc : UnitColor c) {c' : Color ℝ} {e : ℝ} (he : 0 ≤ e)
    (hn : NearChannels e c c') : ∃ p d, setPixelNoGrayscaleImpl (Arith.ieee Lm) f c = .ok p ∧
      getPixelImpl (Arith.ieee Lm) f p = .ok d ∧ UnitColor d ∧ NearChannels (halfStep f + e + 3 / 10 ^ 8) d (shown f c') := by
  have hs : 0 ≤ halfStep f := by unfold halfStep; split <;> norm_num
  have one {v : Dbl} (h : v = .fin 1) : NearReal (halfStep f + e + 3 / 10 ^ 8) v 1 :=
    ⟨1, h, by norm_num; linarith⟩
  by_cases hb : Brightness f
  · have hc' := unit_iff.1 hc
    obtain ⟨p, d, e1, e2, k1, k2, k3, k4⟩ := kept_pixel (Lm := Lm) (c := ⟨c.r, c.r, c.r, c.a⟩) hf
      (unit_iff.2 ⟨hc'.1, hc'.1, hc'.1, hc'.2.2.2⟩) (fun _ => ⟨rfl, rfl⟩)
    refine ⟨p, d, ?_, e2, k4, ?_⟩
    · rw [← e1]
      rcases hb with rfl | rfl | rfl | rfl <;> rfl
    · unfold shown
      rw [if_pos hb]
      have := near_move hn.1 k1
      exact ⟨near_move hn.1 k1, near_move hn.1 k2, near_move hn.1 k3, one (shown_alpha hf (by
        rcases hb with rfl | rfl | rfl | rfl <;> simp [WithAlpha]) e1 e2)⟩
  · obtain ⟨p, d, e1, e2, k1, k2, k3, k4⟩ := kept_pixel (Lm := Lm) hf hc
      (fun h => absurd ((brightness_iff f).1 h) hb)
    refine ⟨p, d, e1, e2, k4, ?_⟩
    unfold shown
    rw [if_neg hb]
    split
    · rename_i ha
      exact ⟨near_move hn.1 k1, near_move hn.2.1 k2, near_move hn.2.2.1 k3,
        near_move hn.2.2.2 (stored_alpha ha (unit_iff.1 hc).2.2.2 e1 e2)⟩
    · rename_i ha
      exact ⟨near_move hn.1 k1, near_move hn.2.1 k2, near_move hn.2.2.1 k3, one (shown_alpha hf ha e1 e2)⟩

/-- What the library stores for a colour. -/
theorem convertPx_near {src dst : IFormat} (hf : Tonal dst) {cs : ColorSpace} {weighted : Bool}
    (P : cs = .sRGB → weighted = true → Brightness dst → AccuratePow Lm) {c : Color Dbl} (hc : UnitColor c) {c' : Color ℝ}
    (hr : RealColor c c') :
    ∃ p d, convertPx (Arith.ieee Lm) src dst cs (weighted && isGrayscaleFormat dst) c = .ok p ∧
      getPixelImpl (Arith.ieee Lm) dst p = .ok d ∧ UnitColor d ∧
      NearChannels (halfStep dst + 3 / 10 ^ 7) d (shown dst (recoloured src dst cs weighted c')) := by
  rw [show halfStep dst + 3 / 10 ^ 7 = halfStep dst + 2.7 / 10 ^ 7 + 3 / 10 ^ 8 by norm_num; ring]
  have weaken {x : ℝ} {v : Dbl} (h : NearReal 0 v x) : NearReal (2.7 / 10 ^ 7) v x := by
    obtain ⟨q, e, h⟩ := h
    exact ⟨q, e, h.trans (by norm_num)⟩
  by_cases hb : weighted = true ∧ Brightness dst ∧ src ≠ .Complex
  · have key : convertPx (Arith.ieee Lm) src dst cs (weighted && isGrayscaleFormat dst) c =
        setPixelNoGrayscaleImpl (Arith.ieee Lm) dst (grayscaleColor (Arith.ieee Lm) cs c) := by
      unfold convertPx
      rw [if_pos ⟨by simp [hb.1, (brightness_iff dst).2 hb.2.1], hb.2.2⟩]
      cases cs
      · rw [if_pos rfl]
        rcases hb.2.1 with rfl | rfl | rfl | rfl <;> rfl
      · rw [if_neg (by simp)]
        rfl
    obtain ⟨z, ez, z0, z1, hz⟩ := greyed_near (Lm := Lm) (fun h => P h hb.1 hb.2.1) hc hr
    rw [key]
    unfold recoloured
    rw [if_pos hb]
    exact shown_near hf (unit_iff.2 ⟨⟨z, ez, z0, z1⟩, ⟨z, ez, z0, z1⟩, ⟨z, ez, z0, z1⟩, (unit_iff.1 hc).2.2.2⟩) (by norm_num)
      ⟨⟨z, ez, hz⟩, ⟨z, ez, hz⟩, ⟨z, ez, hz⟩, weaken hr.2.2.2⟩
  · have key : convertPx (Arith.ieee Lm) src dst cs (weighted && isGrayscaleFormat dst) c =
        setPixelNoGrayscaleImpl (Arith.ieee Lm) dst c := by
      unfold convertPx
      rw [if_neg (by rw [Bool.and_eq_true, brightness_iff]; tauto)]
    rw [key]
    unfold recoloured
    rw [if_neg hb]
    exact shown_near hf hc (by norm_num) ⟨weaken hr.1, weaken hr.2.1, weaken hr.2.2.1, weaken hr.2.2.2⟩

/-- The library's own conversions with the rounding of doubles: they are defined for images with colours from 0 to 1, and
every colour is within half a step of the new format and 3e-7 of what the format can show of it (of its luminance, for a
weighted brightness).

Partial: not for integer and complex formats. -/
theorem C48_rounded_partial {FI : FreeImage Dbl} (F : LawfulFI (Arith.ieee Lm) FI) {i : Image Dbl} (hi : ImgOk (Arith.ieee Lm) i)
    (hu : UnitImage Lm i) {dst : IFormat} {weighted : Bool} (hd : i.format ≠ dst) (hf : Tonal dst)
    (ho : Own FI i dst weighted)
    (P : i.colorSpace = .sRGB → weighted = true → Brightness dst → AccuratePow Lm) :
    ∃ r, i.convert (Arith.ieee Lm) FI dst weighted = .ok r ∧
      (r = none → FI.alloc dst i.bmp.width i.bmp.height = none) ∧
      ∀ j, r = some j → UnitImage Lm j ∧ ∀ x y c c', i.getPixel (Arith.ieee Lm) x y = .ok (some c) → RealColor c c' →
        ∃ d, j.getPixel (Arith.ieee Lm) x y = .ok (some d) ∧
          NearChannels (halfStep dst + 3 / 10 ^ 7) d (shown dst (recoloured i.format dst i.colorSpace weighted c')) := by
  have real {c : Color Dbl} (hc : UnitColor c) : ∃ c', RealColor c c' := by
    have h := unit_iff.1 hc
    exact ⟨⟨(h.1.choose : ℝ), (h.2.1.choose : ℝ), (h.2.2.1.choose : ℝ), (h.2.2.2.choose : ℝ)⟩,
      ⟨_, h.1.choose_spec.1, by simp⟩, ⟨_, h.2.1.choose_spec.1, by simp⟩, ⟨_, h.2.2.1.choose_spec.1, by simp⟩,
      _, h.2.2.2.choose_spec.1, by simp⟩
  obtain ⟨r, e, h1, h2⟩ := convert_own (weighted := weighted) F hi hd (by rintro rfl; simp [Tonal] at hf) (own_direct ho) (by
    intro y x hy hx c hc
    have hc' := hu c ⟨_, _, getPixel_line hy hx hc⟩
    obtain ⟨c', hr⟩ := real hc'
    obtain ⟨p, -, e, -⟩ := convertPx_near (src := i.format) hf P hc' hr
    exact ⟨p, e⟩)
  refine ⟨r, e, h1, ?_⟩
  rintro j rfl
  obtain ⟨a1, -, a3, a4, a5⟩ := h2 j rfl
  refine ⟨?_, ?_⟩
  · rintro d ⟨x, y, hd⟩
    obtain ⟨d1, d2, d3⟩ := getPixel_some hd
    obtain ⟨c, e1, e2⟩ := a5 (j.bmp.height - y - 1) x (by omega) (by omega)
    have hc' := hu c ⟨_, _, getPixel_line (by omega) (by omega) e1⟩
    obtain ⟨c', hr⟩ := real hc'
    obtain ⟨p, d', e3, e4, k, -⟩ := convertPx_near (src := i.format) hf P hc' hr
    rw [e3] at e2
    rw [a1, ← Res.ok.inj e2, e4] at d3
    cases d3
    exact k
  · intro x y c c' hc hr
    obtain ⟨b1, b2, b3⟩ := getPixel_some hc
    obtain ⟨c0, e1, e2⟩ := a5 _ _ (show i.bmp.height - y - 1 < i.bmp.height by omega) b1
    rw [b3] at e1
    cases e1
    obtain ⟨p, d, e3, e4, -, k⟩ := convertPx_near (src := i.format) hf P (hu c ⟨_, _, hc⟩) hr
    rw [e3] at e2
    refine ⟨d, ?_, k⟩
    rw [getPixel_in (by omega) (by omega), a1, a4, ← (Res.ok.inj e2), e4]
    rfl

/-- A colour image in sRGB that is converted to a brightness with weights. -/
example : LawfulFI (Arith.ieee Toy.accurate) (Toy.fi (Arith.ieee Toy.accurate) true) ∧
    ImgOk (Arith.ieee Toy.accurate) Toy.srgb3x2 ∧ UnitImage Toy.accurate Toy.srgb3x2 ∧
    Toy.srgb3x2.format ≠ .Gray8 ∧ Tonal .Gray8 ∧ Brightness .Gray8 ∧ Toy.srgb3x2.colorSpace = .sRGB ∧
    Own (Toy.fi (Arith.ieee Toy.accurate) true) Toy.srgb3x2 .Gray8 true ∧ AccuratePow Toy.accurate :=
  ⟨Toy.fi_ieee _ true, (Toy.srgb3x2_ok _).1, (Toy.srgb3x2_ok _).2.2, by simp [Toy.srgb3x2], by simp [Tonal],
    Or.inl rfl, rfl, Or.inl rfl, Toy.accurate_pow⟩

end Cuttlefish
