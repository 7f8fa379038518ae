import Verif.Proofs.UnitRuns
import Verif.Proofs.ToolImages
import Verif.Proofs.LoadWithin
import Verif.Props.C32
/-
Colours from 0 to 1 stay there when the tool processes an image.
-/
namespace Cuttlefish
open Spec
variable {Lm : Libm} {FI : FreeImage Dbl} {σ : Type} {E : ToolEnv (Image Dbl) Dbl σ}

theorem unit_mul {a b : Dbl} (ha : Ranged 0 1 a) (hb : Ranged 0 1 b) : Ranged 0 1 ((Arith.ieee Lm).mul a b) := by
  obtain ⟨p, rfl, p0, p1⟩ := ha
  obtain ⟨q, rfl, q0, q1⟩ := hb
  have h0 : 0 ≤ p * q := by positivity
  have h1 : p * q ≤ 1 := mul_le_one₀ p1 q0 q1
  obtain ⟨r0, r1⟩ := unit_round h0 h1
  exact ⟨_, ieee_mul (by rw [abs_of_nonneg h0]; linarith), r0, r1⟩

/-- The weights of the channels. -/
theorem lit_red : (Arith.ieee Lm).lit 0.2126 = .fin (1914930561557935 / 2 ^ 53) := by
  show Dbl.ofQ 0.2126 = _
  decide +kernel

theorem lit_green : (Arith.ieee Lm).lit 0.7152 = .fin (6441948906990757 / 2 ^ 53) := by
  show Dbl.ofQ 0.7152 = _
  decide +kernel

theorem lit_blue : (Arith.ieee Lm).lit 0.0722 = .fin (5202558289538397 / 2 ^ 56) := by
  show Dbl.ofQ 0.0722 = _
  decide +kernel

/-- The grey value of white is 1. -/
theorem white_one : rneD (rneD (1914930561557935 / 2 ^ 53 + 6441948906990757 / 2 ^ 53) + 5202558289538397 / 2 ^ 56) = 1 := by
  decide +kernel

/-- A channel and its weight. -/
theorem weighted {w : ℚ} (hw : RepD w) (w0 : 0 ≤ w) (w1 : w ≤ 1) {v : Dbl} (hv : Ranged 0 1 v) :
    ∃ q : ℚ, (Arith.ieee Lm).mul v (.fin w) = .fin q ∧ 0 ≤ q ∧ q ≤ w := by
  obtain ⟨p, rfl, p0, p1⟩ := hv
  have h0 : 0 ≤ p * w := by positivity
  have h1 : p * w ≤ w := mul_le_of_le_one_left w0 p1
  exact ⟨_, ieee_mul (by rw [abs_of_nonneg h0]; linarith), rneD_ge_of linBound_zero.rep h0, rneD_le_of hw h1⟩

theorem unit_gray {r g b : Dbl} (hr : Ranged 0 1 r) (hg : Ranged 0 1 g) (hb : Ranged 0 1 b) :
    Ranged 0 1 ((Arith.ieee Lm).toGrayscale r g b) := by
  unfold Arith.toGrayscale
  rw [lit_red, lit_green, lit_blue]
  obtain ⟨x, ex, x0, x1⟩ := weighted (Lm := Lm) (w := 1914930561557935 / 2 ^ 53)
    ⟨1914930561557935, -53, by norm_num, by norm_num, by norm_num [zpow_neg]⟩ (by norm_num) (by norm_num) hr
  obtain ⟨y, ey, y0, y1⟩ := weighted (Lm := Lm) (w := 6441948906990757 / 2 ^ 53)
    ⟨6441948906990757, -53, by norm_num, by norm_num, by norm_num [zpow_neg]⟩ (by norm_num) (by norm_num) hg
  obtain ⟨z, ez, z0, z1⟩ := weighted (Lm := Lm) (w := 5202558289538397 / 2 ^ 56)
    ⟨5202558289538397, -56, by norm_num, by norm_num, by norm_num [zpow_neg]⟩ (by norm_num) (by norm_num) hb
  have big1 : (1914930561557935 / 2 ^ 53 : ℚ) ≤ 1 := by norm_num
  have big2 : (6441948906990757 / 2 ^ 53 : ℚ) ≤ 1 := by norm_num
  have big3 : (5202558289538397 / 2 ^ 56 : ℚ) ≤ 1 := by norm_num
  have s0 := rneD_ge_of linBound_zero.rep (add_nonneg x0 y0)
  have s1 : rneD (x + y) ≤ rneD (1914930561557935 / 2 ^ 53 + 6441948906990757 / 2 ^ 53) := rneD_mono (add_le_add x1 y1)
  have s2 : rneD (x + y) ≤ 2 := rneD_le_of (repD_int (n := 2) (by norm_num)) (by push_cast; linarith)
  rw [ex, ey, ez, ieee_add (by rw [abs_of_nonneg (by positivity)]; linarith),
    ieee_add (by rw [abs_of_nonneg (by positivity)]; linarith)]
  refine ⟨_, rfl, rneD_ge_of linBound_zero.rep (by positivity), ?_⟩
  rw [← white_one]
  exact rneD_mono (add_le_add s1 z1)

theorem gray_unit (P : UnitPow Lm) {i : Image Dbl} (hi : ImgOk (Arith.ieee Lm) i) (hf : IsFloat i.format)
    (hu : UnitImage Lm i) {j : Image Dbl} (e : i.grayscale (Arith.ieee Lm) = .ok j) : UnitImage Lm j := by
  refine map_unit hi hf hu (fun c hc => ?_) e
  rw [unit_iff] at hc ⊢
  obtain ⟨r, g, b, a⟩ := hc
  have l {v : Dbl} (h : Ranged 0 1 v) :
      Ranged 0 1 (if i.colorSpace = .sRGB then (Arith.ieee Lm).sRGBToLinear v else v) := by
    split
    · exact unit_linear P h
    · exact h
  have s {v : Dbl} (h : Ranged 0 1 v) :
      Ranged 0 1 (if i.colorSpace = .sRGB then (Arith.ieee Lm).linearToSRGB v else v) := by
    split
    · exact unit_sRGB P h
    · exact h
  have k := s (unit_gray (Lm := Lm) (l r) (l g) (l b))
  exact ⟨k, k, k, a⟩

theorem pre_unit (P : UnitPow Lm) {i : Image Dbl} (hi : ImgOk (Arith.ieee Lm) i) (hf : IsFloat i.format)
    (hu : UnitImage Lm i) {j : Image Dbl} (e : i.preMultiplyAlpha (Arith.ieee Lm) = .ok j) : UnitImage Lm j := by
  unfold Image.preMultiplyAlpha at e
  split at e
  · refine map_unit hi hf hu (fun c hc => ?_) e
    rw [unit_iff] at hc ⊢
    obtain ⟨r, g, b, a⟩ := hc
    have l {v : Dbl} (h : Ranged 0 1 v) :
        Ranged 0 1 (if i.colorSpace = .sRGB then (Arith.ieee Lm).sRGBToLinear v else v) := by
      split
      · exact unit_linear P h
      · exact h
    have s {v : Dbl} (h : Ranged 0 1 v) :
        Ranged 0 1 (if i.colorSpace = .sRGB then (Arith.ieee Lm).linearToSRGB v else v) := by
      split
      · exact unit_sRGB P h
      · exact h
    exact ⟨s (unit_mul (l r) a), s (unit_mul (l g) a), s (unit_mul (l b) a), a⟩
  · cases e
    exact hu

theorem swizzle_unit {i : Image Dbl} (hi : ImgOk (Arith.ieee Lm) i) (hf : IsFloat i.format) (hu : UnitImage Lm i)
    {r g b a : Channel} {j : Image Dbl} (e : i.swizzle (Arith.ieee Lm) r g b a = .ok j) : UnitImage Lm j := by
  refine map_unit hi hf hu (fun c hc => ?_) e
  rw [unit_iff] at hc ⊢
  obtain ⟨hr, hg, hb, ha⟩ := hc
  have s {n : Dbl} (hn : Ranged 0 1 n) (ch : Channel) : Ranged 0 1 (selectChannel c n ch) := by
    cases ch
    · exact hr
    · exact hg
    · exact hb
    · exact ha
    · exact hn
  have one : Ranged 0 1 ((Arith.ieee Lm).lit 1) := by rw [ieee_one]; exact unit_one
  have zero : Ranged 0 1 ((Arith.ieee Lm).lit 0) := by rw [ieee_zero]; exact unit_zero
  exact ⟨s zero r, s zero g, s zero b, s one a⟩

/-- Every pixel of a turned image was somewhere before. -/
theorem place_from (a : RotateAngle) (w h x y w' h' : ℕ)
    (hs : ∀ p, ((Move.turn a).place ((w, h), p)).1 = (w', h')) (hx : x < w') (hy : y < h') :
    ∃ x0 y0, x0 < w ∧ y0 < h ∧ ((Move.turn a).place ((w, h), (x0, y0))).2 = (x, y) := by
  have hs := hs (0, 0)
  cases a <;> simp only [Move.place, quarter, Prod.mk.injEq] at hs ⊢ <;> obtain ⟨h1, h2⟩ := hs
  case CW90 | CCW270 => exact ⟨y, h - 1 - x, by omega, by omega, by omega, by omega⟩
  case CW180 | CCW180 => exact ⟨w - 1 - x, h - 1 - y, by omega, by omega, by omega, by omega⟩
  case CW270 | CCW90 => exact ⟨w - 1 - y, x, by omega, by omega, by omega, by omega⟩

theorem rotate_unit (F : LawfulFI (Arith.ieee Lm) FI) {i j : Image Dbl} {a : RotateAngle}
    (hi : ImgOk (Arith.ieee Lm) i) (hu : UnitImage Lm i) (e : i.rotate (Arith.ieee Lm) FI a = .ok (some j)) :
    UnitImage Lm j := by
  obtain ⟨r, e', h⟩ := move_spec (lawful_ieee Lm) F hi (.turn a)
  have e' : i.rotate (Arith.ieee Lm) FI a = .ok r := e'
  rw [e] at e'
  cases e'
  obtain ⟨-, -, -, h4, h5⟩ := h j rfl
  rintro d ⟨x, y, ed⟩
  obtain ⟨k1, k2, -⟩ := getPixel_some ed
  obtain ⟨x0, y0, hx, hy, hp⟩ := place_from a _ _ x y _ _ h4 k1 k2
  have := h5 x0 y0 hx hy
  rw [hp, ed] at this
  exact hu d ⟨x0, y0, this.symm⟩

theorem flipX_unit (F : LawfulFI (Arith.ieee Lm) FI) {i : Image Dbl} (hu : UnitImage Lm i) :
    UnitImage Lm (i.flipHorizontal FI).2 := by
  rintro d ⟨x, y, ed⟩
  obtain ⟨k1, k2, k3⟩ := getPixel_some ed
  obtain ⟨f1, f2, f3⟩ := F.flipHorizontal i.bmp
  have g1 : x < (FI.flipHorizontal i.bmp).2.width := k1
  have g2 : y < (FI.flipHorizontal i.bmp).2.height := k2
  have g3 : getPixelImpl (Arith.ieee Lm) i.format ((FI.flipHorizontal i.bmp).2.px
    ((FI.flipHorizontal i.bmp).2.height - y - 1) x) = .ok d := k3
  rw [f3 _ _ (by omega) (by omega)] at g3
  split at g3
  · exact hu d ⟨_, _, getPixel_line (by omega) (by omega) g3⟩
  · exact hu d ⟨_, _, getPixel_line (by omega) (by omega) g3⟩

theorem flipY_unit (F : LawfulFI (Arith.ieee Lm) FI) {i : Image Dbl} (hu : UnitImage Lm i) :
    UnitImage Lm (i.flipVertical FI).2 := by
  rintro d ⟨x, y, ed⟩
  obtain ⟨k1, k2, k3⟩ := getPixel_some ed
  obtain ⟨f1, f2, f3⟩ := F.flipVertical i.bmp
  have g1 : x < (FI.flipVertical i.bmp).2.width := k1
  have g2 : y < (FI.flipVertical i.bmp).2.height := k2
  have g3 : getPixelImpl (Arith.ieee Lm) i.format ((FI.flipVertical i.bmp).2.px
    ((FI.flipVertical i.bmp).2.height - y - 1) x) = .ok d := k3
  rw [f3 _ _ (by omega) (by omega)] at g3
  split at g3
  · exact hu d ⟨_, _, getPixel_line (by omega) (by omega) g3⟩
  · exact hu d ⟨_, _, getPixel_line (by omega) (by omega) g3⟩

/-- An image of the expected looks with colours from 0 to 1. -/
def UnitLooks (Lm : Libm) (cs : ColorSpace) (s : ℕ × ℕ) (i : Image Dbl) : Prop :=
  Looks (Arith.ieee Lm) .RGBAF cs s i ∧ UnitImage Lm i

theorem UnitLooks.float {cs : ColorSpace} {s : ℕ × ℕ} {i : Image Dbl} (h : UnitLooks Lm cs s i) : IsFloat i.format := by
  rw [h.1.format]
  exact Or.inr (Or.inl rfl)

/-- A processed image that is not a normal map and whose range is not adjusted has colours from 0 to 1 if the image that
was read has. -/
theorem processLoaded_unit (P : UnitPow Lm) (C : UnitConvert Lm FI) (F : LawfulFI (Arith.ieee Lm) FI) {c : Cmd Dbl}
    (hn : c.normalMap = false) (ht : c.type ∉ [TType.SNorm, .UInt, .Int]) (U : UnitFilter Lm FI c.resizeFilter)
    {i j : Image Dbl} {w h l : ℕ} (hi : ImgOk (Arith.ieee Lm) i) (hcs : i.colorSpace = c.imageColorSpace)
    (hc : Spec.Countable i) (hu : UnitImage Lm i) (hw : w < 2 ^ 32) (hh : h < 2 ^ 32)
    (e : processLoaded (Arith.ieee Lm) FI c i w h l = .ok (some j)) : UnitImage Lm j := by
  have L := lawful_ieee Lm
  unfold processLoaded at e
  obtain ⟨o1, e1, e⟩ := Res.bind_eq_ok.1 e
  obtain ⟨o2, e2, e⟩ := Res.bind_eq_ok.1 e
  obtain ⟨tw, ew, e⟩ := Res.bind_eq_ok.1 e
  obtain ⟨th, eh, e⟩ := Res.bind_eq_ok.1 e
  obtain ⟨hl, rfl⟩ := thisSize_eq ew
  obtain ⟨-, rfl⟩ := thisSize_eq eh
  obtain ⟨o3, e3, e⟩ := Res.bind_eq_ok.1 e
  obtain ⟨o4, e4, e⟩ := Res.bind_eq_ok.1 e
  obtain ⟨o5, e5, e⟩ := Res.bind_eq_ok.1 e
  obtain ⟨n, e6, e⟩ := Res.bind_eq_ok.1 e
  obtain ⟨o7, e7, e⟩ := Res.bind_eq_ok.1 e
  obtain ⟨o8, e8, e⟩ := Res.bind_eq_ok.1 e
  obtain ⟨o9, e9, e⟩ := Res.bind_eq_ok.1 e
  obtain ⟨o10, e10, e⟩ := Res.bind_eq_ok.1 e
  rw [hn] at e3 e6
  simp only [Bool.false_eq_true, if_false] at e3 e6
  have hd1 : max (w / 2 ^ l) 1 < 2 ^ 32 := max_lt (lt_of_le_of_lt (Nat.div_le_self _ _) hw) (by norm_num)
  have hd2 : max (h / 2 ^ l) 1 < 2 ^ 32 := max_lt (lt_of_le_of_lt (Nat.div_le_self _ _) hh) (by norm_num)
  have h1 : Holds (UnitLooks Lm c.imageColorSpace (i.bmp.width, i.bmp.height)) o1 := by
    intro k hk
    have a := convertF_keep L F hi e1 k hk
    rw [hcs] at a
    refine ⟨a, ?_⟩
    exact whenAsked_holds (P := UnitImage Lm) (fun _ r er => onValid_holds (P := fun x => x = i)
      (fun x y hx ex => by rw [hx] at ex; exact convert_unit C F hi hu ex) (fun x hx => by cases hx; rfl) er) (fun _ _ h => h)
      (fun x hx => by cases hx; exact hu) e1 k hk
  have h2 : Holds (UnitLooks Lm c.textureColorSpace (i.bmp.width, i.bmp.height)) o2 := by
    intro k hk
    refine ⟨changeF_keep L (fun x hx => (h1 x hx).1) e2 k hk, ?_⟩
    exact whenAsked_holds (P := UnitLooks Lm c.imageColorSpace (i.bmp.width, i.bmp.height))
      (fun _ r er => onPixels_holds (fun x y hx e => change_unit P hx.1.ok hx.float hx.2 e) h1 er)
      (fun _ _ h => h.2) h1 e2 k hk
  have h3 : Holds (fun x => ∃ s, UnitLooks Lm c.textureColorSpace s x) o3 := by
    intro k hk
    refine ⟨_, (resizeTo_keep L F ⟨hc.1, hc.2.1⟩ (fun x hx => (h2 x hx).1) e3 k hk).1, ?_⟩
    unfold resizeTo at e3
    split at e3
    · refine onValid_holds (fun x y hx e => ?_) h2 e3 k hk
      have hsz := hx.1.size
      simp only [Prod.mk.injEq] at hsz
      exact resize_unit P F hx.1.ok (by unfold Spec.Countable; rw [hsz.1, hsz.2]; exact hc) hx.float hx.2 hd1 hd2 U e
    · cases e3
      exact (h2 k hk).2
  have h4 : Holds (fun x => ∃ s, UnitLooks Lm c.textureColorSpace s x) o4 := by
    refine whenAsked_holds (fun _ r er => onValid_holds ?_ h3 er) (fun _ _ h => h) h3 e4
    rintro x y ⟨s, hx⟩ e
    exact ⟨_, rotate_keep L F hx.1 e, rotate_unit F hx.1.ok hx.2 e⟩
  have h5 : Holds (fun x => ∃ s, UnitLooks Lm c.textureColorSpace s x) o5 := by
    refine whenAsked_holds (fun _ r er => onPixels_holds ?_ h4 er) (fun _ _ h => h) h4 e5
    rintro x y ⟨s, hx⟩ e
    exact ⟨_, (mapPixels_keep L hx.1.ok e).looks hx.1, gray_unit P hx.1.ok hx.float hx.2 e⟩
  have h6 : n = (o5, i.format) := by
    unfold toolNormalMap at e6
    rw [hn] at e6
    simp only [Bool.false_eq_true, if_false] at e6
    exact (Res.ok.inj e6).symm
  subst h6
  have h7 : Holds (fun x => ∃ s, UnitLooks Lm c.textureColorSpace s x) o7 := by
    refine whenAsked_holds (fun _ r er => onPixels_holds ?_ h5 er) (fun _ _ h => h) h5 e7
    rintro x y ⟨s, hx⟩ e
    cases e
    exact ⟨_, (flipHorizontal_keep F hx.1.ok).looks hx.1, flipX_unit F hx.2⟩
  have h8 : Holds (fun x => ∃ s, UnitLooks Lm c.textureColorSpace s x) o8 := by
    refine whenAsked_holds (fun _ r er => onPixels_holds ?_ h7 er) (fun _ _ h => h) h7 e8
    rintro x y ⟨s, hx⟩ e
    cases e
    exact ⟨_, (flipVertical_keep F hx.1.ok).looks hx.1, flipY_unit F hx.2⟩
  have h9 : Holds (fun x => ∃ s, UnitLooks Lm c.textureColorSpace s x) o9 := by
    refine whenAsked_holds (fun _ r er => onPixels_holds ?_ h8 er) (fun _ _ h => h) h8 e9
    rintro x y ⟨s, hx⟩ e
    exact ⟨_, (mapPixels_keep L hx.1.ok e).looks hx.1, swizzle_unit hx.1.ok hx.float hx.2 e⟩
  have h10 : Holds (fun x => ∃ s, UnitLooks Lm c.textureColorSpace s x) o10 := by
    refine whenAsked_holds (fun _ r er => onPixels_holds ?_ h9 er) (fun _ _ h => h) h9 e10
    rintro x y ⟨s, hx⟩ e
    exact ⟨_, (preMultiplyAlpha_keep L hx.1.ok e).looks hx.1, pre_unit P hx.1.ok hx.float hx.2 e⟩
  refine onValid_holds (fun x y hx e => ?_) h10 e j rfl
  rw [C32_unchanged _ _ _ _ _ (Or.inl ht)] at e
  cases e
  exact hx.choose_spec.2

theorem load_unit (P : UnitPow Lm) (C : UnitConvert Lm FI) (F : LawfulFI (Arith.ieee Lm) FI)
    {read : Str → ColorSpace → Img? Dbl} (R : LoadsWell (Arith.ieee Lm) read)
    (hE : E.load = loadAndProcess (Arith.ieee Lm) FI read) {c : Cmd Dbl} (J : UnitJob Lm FI read c) {p : Str}
    {w h l : ℕ} (hw : w < 2 ^ 32) (hh : h < 2 ^ 32) {r : Img? Dbl × ℕ × ℕ} (e : E.load c p w h l = .ok (some r)) :
    (∀ g, r.1 = some g → UnitImage Lm g) ∧ r.2.1 < 2 ^ 32 ∧ r.2.2 < 2 ^ 32 := by
  rw [hE] at e
  unfold loadAndProcess at e
  cases hr : read p c.imageColorSpace with
  | none => rw [hr] at e; cases e
  | some i =>
    rw [hr] at e
    obtain ⟨o, eo, e⟩ := Res.bind_eq_ok.1 e
    cases e
    obtain ⟨h1, h2, h3⟩ := R _ _ _ hr
    have ht : (targetSize c i w h).1 < 2 ^ 32 ∧ (targetSize c i w h).2 < 2 ^ 32 := by
      by_cases hu : w = pow32 - 1 ∧ h = pow32 - 1
      · obtain ⟨rfl, rfl⟩ := hu
        exact target_small32 (c := c) h3
      · unfold targetSize
        rw [if_neg hu]
        exact ⟨hw, hh⟩
    refine ⟨fun g hg => ?_, ht⟩
    cases hg
    exact processLoaded_unit P C F J.normal J.type J.filter h1 h2 h3 (J.read _ _ hr) ht.1 ht.2 eo

theorem loadMain_unit (P : UnitPow Lm) (C : UnitConvert Lm FI) (F : LawfulFI (Arith.ieee Lm) FI)
    {read : Str → ColorSpace → Img? Dbl} (R : LoadsWell (Arith.ieee Lm) read)
    (hE : E.load = loadAndProcess (Arith.ieee Lm) FI read) {c : Cmd Dbl} (J : UnitJob Lm FI read c)
    {ps : List Str} {w h : ℕ} (hw : w < 2 ^ 32) (hh : h < 2 ^ 32) {r : List (Option (Image Dbl)) × ℕ × ℕ}
    (e : loadMain E c ps w h = .ok (some r)) :
    (∀ g, some g ∈ r.1 → UnitImage Lm g) ∧ r.2.1 < 2 ^ 32 ∧ r.2.2 < 2 ^ 32 := by
  induction ps generalizing w h r with
  | nil => cases e; exact ⟨by simp, hw, hh⟩
  | cons p ps ih =>
    simp only [loadMain, Res.bind_eq_ok] at e
    obtain ⟨o, ho, e⟩ := e
    cases o with
    | none => simp at e
    | some o =>
      simp only [Res.bind_eq_ok] at e
      obtain ⟨q, hq, e⟩ := e
      cases q with
      | none => simp at e
      | some q =>
        simp only [Res.ok.injEq, Option.some.injEq] at e
        subst e
        obtain ⟨k1, k2, k3⟩ := load_unit P C F R hE J hw hh ho
        obtain ⟨m1, m2⟩ := ih k2 k3 hq
        refine ⟨fun g hg => ?_, m2⟩
        rcases List.mem_cons.1 hg with hg | hg
        · exact k1 g hg.symm
        · exact m1 g hg

theorem loadCustom_unit (P : UnitPow Lm) (C : UnitConvert Lm FI) (F : LawfulFI (Arith.ieee Lm) FI)
    {read : Str → ColorSpace → Img? Dbl} (R : LoadsWell (Arith.ieee Lm) read)
    (hE : E.load = loadAndProcess (Arith.ieee Lm) FI read) {c : Cmd Dbl} (J : UnitJob Lm FI read c) {m : ℕ}
    {ms : CustomMipFiles} {w h : ℕ} (hw : w < 2 ^ 32) (hh : h < 2 ^ 32) {r : CustomMips (Image Dbl)}
    (e : loadCustom E c m ms w h = .ok (some r)) :
    ∀ x ∈ r, ∀ g, x.2.image = some (some g) → UnitImage Lm g := by
  induction ms generalizing w h r with
  | nil => cases e; simp
  | cons p ps ih =>
    unfold loadCustom at e
    split at e
    · cases e
    split at e
    · cases e
    simp only [Res.bind_eq_ok] at e
    obtain ⟨o, ho, e⟩ := e
    cases o with
    | none => simp at e
    | some o =>
      simp only [Res.bind_eq_ok] at e
      obtain ⟨q, hq, e⟩ := e
      cases q with
      | none => simp at e
      | some q =>
        simp only [Res.ok.injEq, Option.some.injEq] at e
        subst e
        obtain ⟨k1, k2, k3⟩ := load_unit P C F R hE J hw hh ho
        intro x hx g hg
        rcases List.mem_cons.1 hx with hx | hx
        · subst hx
          exact k1 g (Option.some.inj hg)
        · exact ih k2 k3 hq x hx g hg

/-- All images that the tool puts into the texture have colours from 0 to 1. -/
theorem loadImages_unit (P : UnitPow Lm) (C : UnitConvert Lm FI) (F : LawfulFI (Arith.ieee Lm) FI)
    {read : Str → ColorSpace → Img? Dbl} (R : LoadsWell (Arith.ieee Lm) read)
    (hE : E.load = loadAndProcess (Arith.ieee Lm) FI read) {c : Cmd Dbl} (J : UnitJob Lm FI read c)
    {r : List (Option (Image Dbl)) × CustomMips (Image Dbl)} (e : loadImages E c = .ok (some r)) :
    (∀ g, some g ∈ r.1 → UnitImage Lm g) ∧ ∀ x ∈ r.2, ∀ g, x.2.image = some (some g) → UnitImage Lm g := by
  simp only [loadImages, Res.bind_eq_ok] at e
  obtain ⟨o, ho, e⟩ := e
  cases o with
  | none => simp at e
  | some o =>
    simp only [Res.bind_eq_ok] at e
    obtain ⟨q, hq, e⟩ := e
    cases q with
    | none => simp at e
    | some q =>
      simp only [Res.ok.injEq, Option.some.injEq] at e
      subst e
      obtain ⟨k1, k2, k3⟩ := loadMain_unit P C F R hE J (by norm_num [unset, pow32]) (by norm_num [unset, pow32]) ho
      exact ⟨k1, loadCustom_unit P C F R hE J k2 k3 hq⟩

end Cuttlefish
