import Verif.Proofs.ImageConvert
import Verif.Props.C47
import Verif.Props.C32
/-
C48: conversion between image formats.
-/
namespace Cuttlefish
open Spec
variable {N : Type} {A : Arith N} {FI : FreeImage N}

/-- Whatever the formats, in every lawful arithmetic: a conversion that is defined either fails or gives an image of
the asked format with the same size and colour space, all of whose pixels are pixels of that format. -/
theorem C48_result (L : LawfulArith A) (F : LawfulFI A FI) {i : Image N} (hi : ImgOk A i) {dst : IFormat}
    {weighted : Bool} {j : Image N} (h : i.convert A FI dst weighted = .ok (some j)) :
    j.format = dst ∧ j.colorSpace = i.colorSpace ∧ j.bmp.width = i.bmp.width ∧ j.bmp.height = i.bmp.height ∧
      ImgOk A j := by
  unfold Image.convert at h
  split at h
  · rename_i hd
    subst hd
    unfold Image.copy at h
    cases hc : FI.clone i.bmp with
    | none => rw [hc] at h; cases h
    | some b =>
      rw [hc] at h
      cases h
      cases F.clone _ _ hc
      exact ⟨rfl, rfl, rfl, rfl, hi⟩
  · split at h
    · cases h
    · dsimp only at h
      split at h
      · rename_i b hb
        cases h
        split at hb
        · obtain ⟨h1, h2, h3⟩ := F.convert _ _ _ _ hb
          exact ⟨rfl, rfl, h1, h2, h3⟩
        · cases hb
      · split at h
        · cases h
        · rename_i new hn
          obtain ⟨a1, a2, a3, a4, a5⟩ := new_ok F hn
          obtain ⟨j', e, e'⟩ := Res.bind_eq_ok.1 h
          cases e'
          rw [← a1] at e
          obtain ⟨b1, b2, b3, b4, b5⟩ := convertLoop_px L a5 e
          exact ⟨by rw [b2, a1], by rw [b3, a2], by rw [b4, a3], by rw [b5, a4], b1⟩

/-- There is no image of the invalid format. -/
theorem C48_invalid (A : Arith N) (FI : FreeImage N) {i : Image N} (h : i.format ≠ .Invalid) (weighted : Bool) :
    i.convert A FI .Invalid weighted = .ok none := by
  unfold Image.convert
  rw [if_neg h, if_pos rfl]

/-- Converting to the format of the image copies it. -/
theorem C48_same (F : LawfulFI A FI) (i : Image N) (weighted : Bool) :
    ∃ r, i.convert A FI i.format weighted = .ok r ∧ ∀ j, r = some j → j = i := by
  unfold Image.convert
  rw [if_pos rfl]
  refine ⟨_, rfl, ?_⟩
  intro j hj
  unfold Image.copy at hj
  obtain ⟨b, hb, rfl⟩ := Option.map_eq_some_iff.1 hj
  rw [F.clone _ _ hb]

/-- What the library stores for a colour in exact arithmetic. -/
theorem convertPx_exact {src dst : IFormat} {cs : ColorSpace} {weighted : Bool} {c : Color ℝ}
    (hf : Fitting dst (recoloured src dst cs weighted c)) :
    ∃ p, convertPx Arith.exact src dst cs (weighted && isGrayscaleFormat dst) c = .ok p ∧
      getPixelImpl Arith.exact dst p = .ok (stored dst (recoloured src dst cs weighted c)) := by
  have key : convertPx Arith.exact src dst cs (weighted && isGrayscaleFormat dst) c =
      setPixelNoGrayscaleImpl Arith.exact dst (recoloured src dst cs weighted c) := by
    unfold convertPx recoloured
    by_cases hb : weighted = true ∧ Brightness dst ∧ src ≠ .Complex
    · rw [if_pos hb, if_pos ⟨by simp [hb.1, (brightness_iff dst).2 hb.2.1], hb.2.2⟩, ← grayscaleColor_eq]
      cases cs
      · rw [if_pos rfl]
        rcases hb.2.1 with rfl | rfl | rfl | rfl <;> rfl
      · rw [if_neg (by simp)]
        rfl
    · rw [if_neg hb, if_neg (by rw [Bool.and_eq_true, brightness_iff]; tauto)]
  obtain ⟨p, e, -, e'⟩ := exact_store hf
  exact ⟨p, by rw [key, e], e'⟩

/-- The library's own conversions: every colour, or its luminance for a brightness, is stored in the new format, to the
nearest value it has. -/
theorem C48_values {FI : FreeImage ℝ} (F : LawfulFI Arith.exact FI) {i : Image ℝ} (hi : ImgOk Arith.exact i)
    {dst : IFormat} {weighted : Bool} (hd : i.format ≠ dst) (hd' : dst ≠ .Invalid) (ho : Own FI i dst weighted)
    (hfit : ∀ x y c, i.getPixel Arith.exact x y = .ok (some c) →
      Fitting dst (recoloured i.format dst i.colorSpace weighted c)) :
    ∃ r, i.convert Arith.exact FI dst weighted = .ok r ∧
      (r = none → FI.alloc dst i.bmp.width i.bmp.height = none) ∧
      ∀ j, r = some j → ∀ x y c, i.getPixel Arith.exact x y = .ok (some c) →
        j.getPixel Arith.exact x y =
          .ok (some (stored dst (recoloured i.format dst i.colorSpace weighted c))) := by
  obtain ⟨r, e, h1, h2⟩ := convert_own (weighted := weighted) F hi hd hd' (own_direct ho) (by
    intro y x hy hx c hc
    obtain ⟨p, e, -⟩ := convertPx_exact (hfit x _ c (getPixel_line hy hx hc))
    exact ⟨p, e⟩)
  refine ⟨r, e, h1, ?_⟩
  rintro j rfl x y c hc
  obtain ⟨a1, -, a3, a4, a5⟩ := h2 j rfl
  obtain ⟨b1, b2, b3⟩ := getPixel_some hc
  obtain ⟨c', e1, e2⟩ := a5 _ _ (show i.bmp.height - y - 1 < i.bmp.height by omega) b1
  rw [b3] at e1
  cases e1
  obtain ⟨p, e3, e4⟩ := convertPx_exact (hfit x y c hc)
  rw [e3] at e2
  rw [getPixel_in (by omega) (by omega), a1, a4, ← (Res.ok.inj e2), e4]
  rfl

/-- No conversion but to integer formats needs a condition. -/
theorem fitting_any {f : IFormat} (h : intRange f = none) (h' : f ≠ .Invalid) (c : Color ℝ) : Fitting f c :=
  ⟨h', by rw [h]; simp⟩

theorem convert_hdr (h1 : A.single (A.lit 1) = A.lit 1) (F : LawfulFI A FI) {i : Image N} (hi : ImgOk A i)
    (hs : i.format = .RGBF ∨ i.format = .RGBAF ∨ i.format = .Float) {dst : IFormat} (hd : dst = .RGBF ∨ dst = .RGBAF)
    (weighted : Bool) :
    ∃ r, i.convert A FI dst weighted = .ok r ∧
      ∀ j, r = some j → ∀ x y c, i.getPixel A x y = .ok (some c) →
        j.getPixel A x y = .ok (some (if dst = .RGBF then { c with a := A.lit 1 } else c)) := by
  by_cases hsame : i.format = dst
  · subst hsame
    obtain ⟨r, e, h⟩ := C48_same (A := A) F i weighted
    refine ⟨r, e, ?_⟩
    intro j hj x y c hc
    rw [h j hj, hc]
    split
    · rename_i hf
      obtain ⟨h1, h2, h3⟩ := getPixel_some hc
      have hp := hi _ _ (show i.bmp.height - y - 1 < i.bmp.height by omega) h1
      rw [hf] at hp h3
      generalize i.bmp.px (i.bmp.height - y - 1) x = p at hp h3
      unfold PxOk at hp
      split at hp <;> first | exact hp.elim | (cases h3; rfl) | (exfalso; simp_all; done)
    · rfl
  · have hg : isGrayscaleFormat dst = false := by rcases hd with rfl | rfl <;> rfl
    have hpx (c : Color N) : convertPx A i.format dst i.colorSpace (weighted && isGrayscaleFormat dst) c =
        setPixelNoGrayscaleImpl A dst c := by
      unfold convertPx
      rw [hg, Bool.and_false, if_neg (by simp)]
    obtain ⟨r, e, -, h2⟩ := convert_own (weighted := weighted) F hi hsame (by rcases hd with rfl | rfl <;> simp)
      (own_direct (Or.inr (Or.inr (Or.inr (Or.inr (Or.inl ⟨hs, by tauto⟩)))))) (by
      intro y x hy hx c hc
      rw [hpx]
      rcases hd with rfl | rfl <;> exact ⟨_, rfl⟩)
    refine ⟨r, e, ?_⟩
    rintro j rfl x y c hc
    obtain ⟨a1, -, a3, a4, a5⟩ := h2 j rfl
    obtain ⟨b1, b2, b3⟩ := getPixel_some hc
    obtain ⟨c', e1, e2⟩ := a5 _ _ (show i.bmp.height - y - 1 < i.bmp.height by omega) b1
    rw [b3] at e1
    cases e1
    rw [hpx] at e2
    have hp := hi _ _ (show i.bmp.height - y - 1 < i.bmp.height by omega) b1
    rw [getPixel_in (by omega) (by omega), a1, a4]
    have hone : A.single c.r = c.r ∧ A.single c.g = c.g ∧ A.single c.b = c.b ∧ A.single c.a = c.a := by
      generalize i.bmp.px (i.bmp.height - y - 1) x = p at hp b3
      rcases hs with hs | hs | hs <;> rw [hs] at hp b3 <;> unfold PxOk at hp <;> split at hp <;>
        first
        | exact hp.elim
        | (cases b3; exact ⟨hp.1, hp.2.1, hp.2.2, h1⟩)
        | (cases b3; exact hp)
        | (cases b3; exact ⟨hp, hp, hp, h1⟩)
        | (exfalso; simp_all; done)
    rcases hd with rfl | rfl
    · rw [← Res.ok.inj e2, if_pos rfl]
      simp [getPixelImpl, hone]
    · rw [← Res.ok.inj e2, if_neg (by simp)]
      simp [getPixelImpl, hone]

theorem ieee_single_one (L : Libm) : (Arith.ieee L).single ((Arith.ieee L).lit 1) = (Arith.ieee L).lit 1 := by
  simp only [Arith.ieee, ofQ_one, Dbl.single]
  have h : F32.round 1 = .fin (rne 1) := round_fin (by norm_num)
  have r1 : rne 1 = 1 := by simpa using rne_int (n := 1) (by norm_num)
  rw [r1] at h
  exact h

/-- Floats keep their value exactly in IEEE arithmetic, however large, and infinities and NaN too; whatever FreeImage
would do. -/
theorem C48_floats (L : Libm) {FI : FreeImage Dbl} (F : LawfulFI (Arith.ieee L) FI) {i : Image Dbl}
    (hi : ImgOk (Arith.ieee L) i) (hs : i.format = .RGBF ∨ i.format = .RGBAF ∨ i.format = .Float) {dst : IFormat}
    (hd : dst = .RGBF ∨ dst = .RGBAF) (weighted : Bool) :
    ∃ r, i.convert (Arith.ieee L) FI dst weighted = .ok r ∧
      ∀ j, r = some j → ∀ x y c, i.getPixel (Arith.ieee L) x y = .ok (some c) →
        j.getPixel (Arith.ieee L) x y = .ok (some (if dst = .RGBF then { c with a := .fin 1 } else c)) := by
  obtain ⟨r, e, h⟩ := convert_hdr (ieee_single_one L) F hi hs hd weighted
  refine ⟨r, e, ?_⟩
  have : (Arith.ieee L).lit 1 = .fin 1 := ofQ_one
  rw [this] at h
  exact h

/-- A float that stands for an integer is stored as that integer. -/
theorem back_norm (L : Libm) {top m : ℕ} {v : ℤ} {x : Dbl} (h0 : 0 < m) (hm : m ≤ 65535) (ht : m ≤ top)
    (hx : ∃ q : ℚ, x = .fin q ∧ |clamp01 q - v / m| ≤ 1 / 2 ^ 18 + 1 / 2 ^ 50) :
    (Arith.ieee L).toNorm top m x = .ok v := by
  obtain ⟨q, rfl, hq⟩ := hx
  rw [toNorm_ieee L q hm ht]
  congr 1
  have e := toNorm_err q hm
  have hm' : (m : ℚ) ≤ 65535 := by exact_mod_cast hm
  have hm0 : (0 : ℚ) < m := by exact_mod_cast h0
  have hq' : |clamp01 q * m - v| ≤ 1 / 3 := by
    have : clamp01 q * m - v = (clamp01 q - v / m) * m := by field_simp
    rw [this, abs_mul, abs_of_pos hm0]
    have : |clamp01 q - v / m| * m ≤ (1 / 2 ^ 18 + 1 / 2 ^ 50) * 65535 :=
      mul_le_mul hq hm' hm0.le (by norm_num)
    linarith [show ((1 / 2 ^ 18 + 1 / 2 ^ 50) * 65535 : ℚ) ≤ 1 / 3 by norm_num]
  generalize roundAwayQ (rneD (clamp01 q * m)) = k at e ⊢
  have : |(k : ℚ) - v| < 1 := by
    rw [abs_le] at e hq'
    rw [abs_lt]
    norm_num at e hq' ⊢
    constructor <;> linarith [e.1, e.2, hq'.1, hq'.2]
  have h : |k - v| < 1 := by exact_mod_cast this
  rw [abs_lt] at h
  omega

theorem clamp_in {q : ℚ} (h0 : 0 ≤ q) (h1 : q ≤ 1) : clamp01 q = q := by
  unfold clamp01
  rw [min_eq_left h1, max_eq_left h0]

theorem back_color (L : Libm) {top m : ℕ} {v : ℤ} {x : Dbl} (h0 : 0 < m) (hm : m ≤ 65535) (ht : m ≤ top)
    (hx : StandsFor x (m, v)) : (Arith.ieee L).toNorm top m x = .ok v := by
  obtain ⟨q, rfl, q0, q1, hq⟩ := hx
  refine back_norm L h0 hm ht ⟨q, rfl, ?_⟩
  rw [clamp_in q0 q1]
  exact hq.trans (by norm_num)

theorem back_gray (L : Libm) {top m : ℕ} {v : ℤ} {x : Dbl} (h0 : 0 < m) (hm : m ≤ 65535) (ht : m ≤ top)
    (hx : StandsFor x (m, v)) : (Arith.ieee L).toNorm top m ((Arith.ieee L).toGrayscale x x x) = .ok v := by
  obtain ⟨q, rfl, q0, q1, hq⟩ := hx
  have ha : |q| ≤ 1 := by rw [abs_of_nonneg q0]; exact q1
  obtain ⟨g, eg, hg⟩ := toGray_ieee (L := L) ha ha ha
  refine back_norm L h0 hm ht ⟨g, eg, ?_⟩
  have hl : luma q q q = q := by unfold luma; ring
  rw [hl] at hg
  have := clamp01_lip g q
  rw [clamp_in q0 q1] at this
  have h2 := this.trans hg
  dsimp only at hq
  rw [abs_le] at *
  constructor <;> linarith [h2.1, h2.2, hq.1, hq.2]

/-- The pixel stored on the way back reads as the pixel it came from. -/
theorem back_px (L : Libm) {f : IFormat} (hf : f ∈ sources) {p : Px Dbl} (hp : PxOk (Arith.ieee L) f p) {l : List Dbl}
    (hl : List.Forall₂ StandsFor l (integers f p)) {cs : ColorSpace} {weighted : Bool}
    (hg : cs = .Linear ∨ weighted = false ∨ ¬ Brightness f) :
    ∃ c, getPixelImpl (Arith.ieee L) (floatOf f) (.nums l) = .ok c ∧
      ∃ p', convertPx (Arith.ieee L) (floatOf f) f cs (weighted && isGrayscaleFormat f) c = .ok p' ∧
        getPixelImpl (Arith.ieee L) f p' = getPixelImpl (Arith.ieee L) f p := by
  obtain ⟨c, ec⟩ := get_px hp
  obtain ⟨p', e1, -, e2⟩ := px_round (lawful_ieee L) hp ec
  have C {top m : ℕ} {v : ℤ} {x : Dbl} (h : StandsFor x (m, v)) (h0 : 0 < m) (hm : m ≤ 65535) (ht : m ≤ top) :=
    back_color L h0 hm ht h
  have G {top m : ℕ} {v : ℤ} {x : Dbl} (h : StandsFor x (m, v)) (h0 : 0 < m) (hm : m ≤ 65535) (ht : m ≤ top) :=
    back_gray L h0 hm ht h
  have R {top m : ℕ} {v : ℤ} (hm : m ∈ [31, 63, 255, 65535]) (h : 0 ≤ v ∧ v ≤ m) (ht : m ≤ top) :=
    (lawful_ieee L).norm_int (top := top) hm h.1 h.2 ht
  unfold PxOk at hp
  simp only [sources, List.mem_cons, List.not_mem_nil, or_false] at hf
  split at hp <;> try simp only [reduceCtorEq, or_false, or_self] at hf
  case h_18 => exact hp.elim
  case h_3 w =>
    have w1 : w / 1024 % 32 = getField w 10 5 := by unfold getField; norm_num
    have w2 : w / 32 % 32 = getField w 5 5 := by unfold getField; norm_num
    have w3 : w % 32 = getField w 0 5 := by unfold getField; norm_num
    simp only [integers, w1, w2, w3] at hl
    rcases hl with _ | ⟨hr, _ | ⟨hg', _ | ⟨hb, _ | _⟩⟩⟩
    refine ⟨_, rfl, p', ?_, by rw [e2, ec]⟩
    cases ec
    have h1 := getField_upto w 10 5
    have h2 := getField_upto w 5 5
    have h3 := getField_upto w 0 5
    rw [← e1]
    simp only [convertPx, isGrayscaleFormat, Bool.and_false, Bool.false_eq_true, false_and, if_false,
      setPixelNoGrayscaleImpl, setPixelCommon]
    rw [C hr (by norm_num) (by norm_num) (by norm_num), C hg' (by norm_num) (by norm_num) (by norm_num),
      C hb (by norm_num) (by norm_num) (by norm_num), R (by simp) h1 (by norm_num), R (by simp) h2 (by norm_num),
      R (by simp) h3 (by norm_num)]
  case h_4 w =>
    have w1 : w / 2048 % 32 = getField w 11 5 := by unfold getField; norm_num
    have w2 : w / 32 % 64 = getField w 5 6 := by unfold getField; norm_num
    have w3 : w % 32 = getField w 0 5 := by unfold getField; norm_num
    simp only [integers, w1, w2, w3] at hl
    rcases hl with _ | ⟨hr, _ | ⟨hg', _ | ⟨hb, _ | _⟩⟩⟩
    refine ⟨_, rfl, p', ?_, by rw [e2, ec]⟩
    cases ec
    have h1 := getField_upto w 11 5
    have h2 := getField_upto w 5 6
    have h3 := getField_upto w 0 5
    rw [← e1]
    simp only [convertPx, isGrayscaleFormat, Bool.and_false, Bool.false_eq_true, false_and, if_false,
      setPixelNoGrayscaleImpl, setPixelCommon]
    rw [C hr (by norm_num) (by norm_num) (by norm_num), C hg' (by norm_num) (by norm_num) (by norm_num),
      C hb (by norm_num) (by norm_num) (by norm_num), R (by simp) h1 (by norm_num), R (by simp) h2 (by norm_num),
      R (by simp) h3 (by norm_num)]
  case h_1 v =>
    simp only [integers, List.map_cons, List.map_nil] at hl
    rcases hl with _ | ⟨hx, _ | _⟩
    refine ⟨_, rfl, p', ?_, by rw [e2, ec]⟩
    cases ec
    rw [← e1]
    simp only [convertPx, isGrayscaleFormat, Bool.and_true, floatOf]
    split
    · rename_i hw
      rw [if_pos (by simpa [hw.1, Brightness] using hg)]
      simp only [setPixelImpl, setPixelNoGrayscaleImpl]
      rw [G hx (by norm_num) (by norm_num) (by norm_num), R (by simp) hp (by norm_num)]
    · simp only [setPixelNoGrayscaleImpl]
      rw [C hx (by norm_num) (by norm_num) (by norm_num), R (by simp) hp (by norm_num)]
  case h_2 v =>
    simp only [integers, List.map_cons, List.map_nil] at hl
    rcases hl with _ | ⟨hx, _ | _⟩
    refine ⟨_, rfl, p', ?_, by rw [e2, ec]⟩
    cases ec
    rw [← e1]
    simp only [convertPx, isGrayscaleFormat, Bool.and_true, floatOf]
    split
    · rename_i hw
      rw [if_pos (by simpa [hw.1, Brightness] using hg)]
      simp only [setPixelImpl, setPixelNoGrayscaleImpl]
      rw [G hx (by norm_num) (by norm_num) (by norm_num), R (by simp) hp (by norm_num)]
    · simp only [setPixelNoGrayscaleImpl]
      rw [C hx (by norm_num) (by norm_num) (by norm_num), R (by simp) hp (by norm_num)]
  case h_5 r' g' b' =>
    simp only [integers, List.map_cons, List.map_nil] at hl
    rcases hl with _ | ⟨hr, _ | ⟨hg', _ | ⟨hb, _ | _⟩⟩⟩
    refine ⟨_, rfl, p', ?_, by rw [e2, ec]⟩
    cases ec
    rw [← e1]
    simp only [convertPx, isGrayscaleFormat, Bool.and_false, Bool.false_eq_true, false_and, if_false,
      setPixelNoGrayscaleImpl, setPixelCommon]
    rw [C hr (by norm_num) (by norm_num) (by norm_num), C hg' (by norm_num) (by norm_num) (by norm_num),
      C hb (by norm_num) (by norm_num) (by norm_num), R (by simp) hp.1 (by norm_num), R (by simp) hp.2.1 (by norm_num),
      R (by simp) hp.2.2 (by norm_num)]
  case h_6 r' g' b' =>
    simp only [integers, List.map_cons, List.map_nil] at hl
    rcases hl with _ | ⟨hr, _ | ⟨hg', _ | ⟨hb, _ | _⟩⟩⟩
    refine ⟨_, rfl, p', ?_, by rw [e2, ec]⟩
    cases ec
    rw [← e1]
    simp only [convertPx, isGrayscaleFormat, Bool.and_false, Bool.false_eq_true, false_and, if_false,
      setPixelNoGrayscaleImpl, setPixelCommon]
    rw [C hr (by norm_num) (by norm_num) (by norm_num), C hg' (by norm_num) (by norm_num) (by norm_num),
      C hb (by norm_num) (by norm_num) (by norm_num), R (by simp) hp.1 (by norm_num), R (by simp) hp.2.1 (by norm_num),
      R (by simp) hp.2.2 (by norm_num)]
  case h_8 r' g' b' a' =>
    simp only [integers, List.map_cons, List.map_nil] at hl
    rcases hl with _ | ⟨hr, _ | ⟨hg', _ | ⟨hb, _ | ⟨ha, _ | _⟩⟩⟩⟩
    refine ⟨_, rfl, p', ?_, by rw [e2, ec]⟩
    cases ec
    rw [← e1]
    simp only [convertPx, isGrayscaleFormat, Bool.and_false, Bool.false_eq_true, false_and, if_false,
      setPixelNoGrayscaleImpl, setPixelCommon]
    rw [C hr (by norm_num) (by norm_num) (by norm_num), C hg' (by norm_num) (by norm_num) (by norm_num),
      C hb (by norm_num) (by norm_num) (by norm_num), C ha (by norm_num) (by norm_num) (by norm_num),
      R (by simp) hp.1 (by norm_num), R (by simp) hp.2.1 (by norm_num),
      R (by simp) hp.2.2.1 (by norm_num), R (by simp) hp.2.2.2 (by norm_num)]
  case h_9 r' g' b' a' =>
    simp only [integers, List.map_cons, List.map_nil] at hl
    rcases hl with _ | ⟨hr, _ | ⟨hg', _ | ⟨hb, _ | ⟨ha, _ | _⟩⟩⟩⟩
    refine ⟨_, rfl, p', ?_, by rw [e2, ec]⟩
    cases ec
    rw [← e1]
    simp only [convertPx, isGrayscaleFormat, Bool.and_false, Bool.false_eq_true, false_and, if_false,
      setPixelNoGrayscaleImpl, setPixelCommon]
    rw [C hr (by norm_num) (by norm_num) (by norm_num), C hg' (by norm_num) (by norm_num) (by norm_num),
      C hb (by norm_num) (by norm_num) (by norm_num), C ha (by norm_num) (by norm_num) (by norm_num),
      R (by simp) hp.1 (by norm_num), R (by simp) hp.2.1 (by norm_num),
      R (by simp) hp.2.2.1 (by norm_num), R (by simp) hp.2.2.2 (by norm_num)]

/-- Integers survive the way to floats and back, in IEEE arithmetic: if FreeImage converts to floats as its
documentation says, and leaves the way back to the library (it does not know it), every pixel reads as before.  Grey
images have to be linear or converted without weights. -/
theorem C48_round_trip (L : Libm) {FI : FreeImage Dbl} (F : LawfulFI (Arith.ieee L) FI)
    (W : ConvertsWell (Arith.ieee L) FI) {i : Image Dbl} (hi : ImgOk (Arith.ieee L) i) (hf : i.format ∈ sources)
    (hb : ∀ b, FI.convert (floatOf i.format) b i.format = none)
    (hg : i.colorSpace = .Linear ∨ ¬ Brightness i.format) {j : Image Dbl}
    (h : i.convert (Arith.ieee L) FI (floatOf i.format) true = .ok (some j)) (weighted : Bool) :
    ∃ r, j.convert (Arith.ieee L) FI i.format weighted = .ok r ∧
      (r = none → FI.alloc i.format i.bmp.width i.bmp.height = none) ∧
      ∀ k, r = some k → ∀ x y, k.getPixel (Arith.ieee L) x y = i.getPixel (Arith.ieee L) x y := by
  obtain ⟨r, e, -, h2⟩ := convert_floats L F W hi hf (by
    rcases hg with hg | hg
    · exact Or.inl hg
    · refine Or.inr (Or.inl ?_)
      intro he
      simp only [sources, List.mem_cons, List.not_mem_nil, or_false] at hf
      rcases hf with h | h | h | h | h | h | h | h <;> rw [h] at he hg <;> simp [floatOf, Brightness] at he hg)
  rw [h] at e
  cases e
  obtain ⟨⟨a1, a2, a3, a4⟩, hj⟩ := h2 j rfl
  have hcs : j.colorSpace = i.colorSpace := (C48_result (lawful_ieee L) F hi h).2.1
  have back (y x : ℕ) (hy : y < i.bmp.height) (hx : x < i.bmp.width) :
      ∃ c, getPixelImpl (Arith.ieee L) j.format (j.bmp.px y x) = .ok c ∧
        ∃ p', convertPx (Arith.ieee L) j.format i.format j.colorSpace (weighted && isGrayscaleFormat i.format) c = .ok p' ∧
          getPixelImpl (Arith.ieee L) i.format p' = getPixelImpl (Arith.ieee L) i.format (i.bmp.px y x) := by
    obtain ⟨l, el, hl⟩ := a4 y x hy hx
    have := back_px L hf (hi y x hy hx) hl (cs := j.colorSpace) (weighted := weighted) (by rw [hcs]; tauto)
    rw [← el, ← a1] at this
    exact this
  obtain ⟨r, e, h3, h4⟩ := convert_own (dst := i.format) (weighted := weighted) F hj (by
      rw [a1]
      simp only [sources, List.mem_cons, List.not_mem_nil, or_false] at hf
      rcases hf with h | h | h | h | h | h | h | h <;> rw [h] <;> simp [floatOf])
    (by rintro hI; rw [hI] at hf; simp [sources] at hf)
    (own_direct (Or.inl (by rw [a1]; exact hb _))) (by
      intro y x hy hx c hc
      obtain ⟨c', e1, p, e2, -⟩ := back y x (by omega) (by omega)
      rw [hc] at e1
      cases e1
      exact ⟨p, e2⟩)
  refine ⟨r, e, by rw [← a2, ← a3]; exact h3, ?_⟩
  rintro k rfl x y
  obtain ⟨b1, -, b3, b4, b5⟩ := h4 k rfl
  by_cases hin : x < i.bmp.width ∧ y < i.bmp.height
  · obtain ⟨c, e1, e2⟩ := b5 (i.bmp.height - y - 1) x (by omega) (by omega)
    obtain ⟨c', e3, p, e4, e5⟩ := back (i.bmp.height - y - 1) x (by omega) (by omega)
    rw [e1] at e3
    cases e3
    rw [e4] at e2
    rw [getPixel_in (by omega) (by omega), getPixel_in hin.1 hin.2, b1, b4, a3, ← Res.ok.inj e2, e5]
  · rw [Image.getPixel, Image.getPixel, if_pos (by omega), if_pos (by omega)]

/-- A float image can hold a NaN, which no conversion to normalised integers by the library accepts: the behaviour is
undefined. -/
theorem C48_fails_nan (L : Libm) : ∃ i : Image Dbl, ImgOk (Arith.ieee L) i ∧ i.format = .RGBAF ∧
    i.convert (Arith.ieee L) (Toy.fi (Arith.ieee L) true) .RGBA8 true = .ub := by
  refine ⟨⟨.RGBAF, .Linear, ⟨1, 1, fun _ _ => .nums [.nan, .nan, .nan, .nan]⟩⟩, ?_, rfl, ?_⟩
  · intro y x _ _
    simp [PxOk, Arith.ieee, Dbl.single]
  · have h : (Arith.ieee L).toNorm 255 255 .nan = .ub := toNorm_nan
    simp [Image.convert, usesFreeImage, Toy.fi, Image.new, isGrayscaleFormat, convertLoop_eq, steps, loop, Image.get,
      Bitmap.read, List.range'_succ, getPixelImpl, convertPx, setPixelNoGrayscaleImpl, setPixelCommon, h]

/-- The images of the examples of C26 are converted and come back. -/
example (L : Libm) : ∃ j, (Toy.rgba : Image Dbl).convert (Arith.ieee L) (Toy.fi (Arith.ieee L) true) .RGBAF true =
    .ok (some j) := by
  obtain ⟨r, e, h1, h2⟩ := convert_floats L (Toy.fi_ieee L true) (fun _ _ _ _ _ _ h => by cases h)
    (Toy.rgba_ok (Arith.ieee L)) (by simp [Toy.rgba, sources]) (Or.inl rfl)
  cases r with
  | none => exact absurd (h1 rfl) (by simp [Toy.fi, Toy.rgba, floatOf])
  | some j => exact ⟨j, e⟩

/-- A colour image converted to a brightness with weights. -/
example : ∃ (i : Image ℝ), ImgOk Arith.exact i ∧ Own (Toy.fi Arith.exact true) i .Gray8 true ∧
    i.getPixel Arith.exact 0 0 = .ok (some ⟨1, 0, 0, 1⟩) ∧
    stored .Gray8 (recoloured i.format .Gray8 i.colorSpace true ⟨1, 0, 0, 1⟩) = grey (54 / 255) := by
  refine ⟨⟨.RGB8, .Linear, ⟨1, 1, fun _ _ => .ints [255, 0, 0]⟩⟩, ?_, Or.inl rfl, ?_, ?_⟩
  · intro y x _ _
    simp [PxOk, Upto]
  · rw [getPixel_in (by norm_num) (by norm_num)]
    simp [getPixelImpl, fromNorm_exact, exact_lit]
  · have hb : Brightness .Gray8 := Or.inl rfl
    simp only [recoloured, hb, ne_eq, reduceCtorEq, not_false_eq_true, and_self, if_true, greyed, onColor, encoded, light,
      luminance, id, stored, grey, nearest]
    have : ⌊max (min ((0.2126 : ℝ) * 1 + 0.7152 * 0 + 0.0722 * 0) 1) 0 * (255 : ℕ) + 1 / 2⌋ = 54 := by
      rw [Int.floor_eq_iff]
      rw [min_eq_left (by norm_num), max_eq_left (by norm_num)]
      norm_num
    rw [this]
    norm_num

end Cuttlefish
