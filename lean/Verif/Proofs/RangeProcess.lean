import Verif.Proofs.UnitProcess
import Verif.Proofs.RangeIeee
import Verif.Props.C31Rounded
/-
The range of the values of the images that the tool processes.
-/
namespace Cuttlefish
open Spec
variable {Lm : Libm} {FI : FreeImage Dbl} {σ : Type} {E : ToolEnv (Image Dbl) Dbl σ} {lo hi : ℚ}

theorem adjust_ranged {m : ℕ} {off : ℤ} {v : Dbl} (hv : Ranged 0 1 v) (hm : m ≤ 65535) (h0 : -32768 ≤ off) (h1 : off ≤ 0) :
    Ranged off (m + off) ((Arith.ieee Lm).round ((Arith.ieee Lm).addS ((Arith.ieee Lm).mulS v ((Arith.ieee Lm).lit m))
      ((Arith.ieee Lm).lit off))) := by
  obtain ⟨q, rfl, q0, q1⟩ := hv
  have em : Dbl.ofQ (m : ℚ) = .fin m := by exact_mod_cast ofQ_nat (n := m) (by omega)
  have eo : Dbl.ofQ (off : ℚ) = .fin off := ofQ_int (n := off) (by rw [abs_le]; constructor <;> linarith)
  have hm' : (m : ℚ) ≤ 65535 := by exact_mod_cast hm
  have m0 : (0 : ℚ) ≤ m := by positivity
  have o0 : (-32768 : ℚ) ≤ off := by exact_mod_cast h0
  have o1 : (off : ℚ) ≤ 0 := by exact_mod_cast h1
  have rm : rne (m : ℚ) = m := by exact_mod_cast rne_int (n := (m : ℤ)) (by rw [abs_of_nonneg (by positivity)]; norm_cast; omega)
  have big : (2 : ℚ) ^ 17 ≤ 2 ^ (127 : ℤ) := by norm_num
  have p0 : 0 ≤ q * m := by positivity
  have p1 : q * m ≤ m := by nlinarith
  have a0 : 0 ≤ rne (q * m) := by rw [← rne_zero]; exact rne_mono p0
  have a1 : rne (q * m) ≤ m := by
    have := rne_mono p1
    rwa [rm] at this
  have ro : rne (off : ℚ) = off := rne_int (n := off) (by rw [abs_le]; constructor <;> linarith)
  have rmo : rne (m + off : ℚ) = m + off := by
    have := rne_int (n := (m : ℤ) + off) (by rw [abs_le]; constructor <;> (push_cast; linarith))
    exact_mod_cast this
  have b0 : (off : ℚ) ≤ rne (rne (q * m) + off) := by
    have := rne_mono (show (off : ℚ) ≤ rne (q * m) + off by linarith)
    rwa [ro] at this
  have b1 : rne (rne (q * m) + off) ≤ m + off := by
    have := rne_mono (show rne (q * m) + off ≤ m + off by linarith)
    rwa [rmo] at this
  have m1 : F32.round (q * m) = .fin (rne (q * m)) :=
    round_fin ((abs_le.2 ⟨by norm_num; linarith, by norm_num; linarith⟩ : |q * m| ≤ 2 ^ 17).trans big)
  have m2 : F32.round (rne (q * m) + off) = .fin (rne (rne (q * m) + off)) :=
    round_fin ((abs_le.2 ⟨by norm_num; linarith, by norm_num; linarith⟩ : |rne (q * m) + off| ≤ 2 ^ 17).trans big)
  have key : (Arith.ieee Lm).round ((Arith.ieee Lm).addS ((Arith.ieee Lm).mulS (.fin q) ((Arith.ieee Lm).lit m))
      ((Arith.ieee Lm).lit off)) = .fin (roundAwayQ (rne (rne (q * m) + off)) : ℤ) := by
    simp only [Arith.ieee, em, eo, F32.mulWith, m1, F32.addWith, m2, F32.roundAway]
  have e := abs_le.1 (roundAway_err (rne (rne (q * m) + off)))
  refine ⟨_, key, ?_, ?_⟩
  · have : (off : ℚ) - 1 < (roundAwayQ (rne (rne (q * m) + off)) : ℤ) := by linarith [e.1]
    have : off - 1 < roundAwayQ (rne (rne (q * m) + off)) := by exact_mod_cast this
    exact_mod_cast (by omega : off ≤ roundAwayQ (rne (rne (q * m) + off)))
  · have : ((roundAwayQ (rne (rne (q * m) + off)) : ℤ) : ℚ) < m + off + 1 := by linarith [e.2]
    have : roundAwayQ (rne (rne (q * m) + off)) < m + off + 1 := by exact_mod_cast this
    exact_mod_cast (by omega : roundAwayQ (rne (rne (q * m) + off)) ≤ m + off)

/-- The ranges of the types without normal maps. -/
theorem jobRange_type {c : Cmd Dbl} (hn : c.normalMap = false) (ht : c.type ∈ [TType.SNorm, .UInt, .Int]) {orig : IFormat}
    {k : ℕ} {v : Dbl} (hv : Ranged 0 1 v) :
    Ranged (jobRange c).1 (jobRange c).2 (adjustValue (Arith.ieee Lm) orig c.type k v) := by
  have hm : ∃ m : ℕ, adjustMultiply orig k = m ∧ m ≤ 65535 ∧ ∃ off : ℤ, adjustOffset orig c.type k = off ∧
      -32768 ≤ off ∧ off ≤ 0 ∧ (c.type = .UInt → off = 0) ∧ (c.type = .Int → (m : ℤ) + off ≤ 32767) := by
    unfold adjustMultiply adjustOffset
    by_cases hi : c.type = .Int
    · simp only [if_pos hi, hi, reduceCtorEq, false_implies, true_implies, true_and]
      split
      · exact ⟨255, by norm_num, by norm_num, -128, by norm_num, by norm_num, by norm_num, by norm_num⟩
      · exact ⟨255, by norm_num, by norm_num, -128, by norm_num, by norm_num, by norm_num, by norm_num⟩
      · exact ⟨255, by norm_num, by norm_num, -128, by norm_num, by norm_num, by norm_num, by norm_num⟩
      · exact ⟨65535, by norm_num, by norm_num, -32768, by norm_num, by norm_num, by norm_num, by norm_num⟩
      · exact ⟨65535, by norm_num, by norm_num, -32768, by norm_num, by norm_num, by norm_num, by norm_num⟩
      · exact ⟨65535, by norm_num, by norm_num, -32768, by norm_num, by norm_num, by norm_num, by norm_num⟩
      · exact ⟨31, by norm_num, by norm_num, -16, by norm_num, by norm_num, by norm_num, by norm_num⟩
      · exact ⟨31, by norm_num, by norm_num, -16, by norm_num, by norm_num, by norm_num, by norm_num⟩
      · exact ⟨31, by norm_num, by norm_num, -16, by norm_num, by norm_num, by norm_num, by norm_num⟩
      · exact ⟨31, by norm_num, by norm_num, -16, by norm_num, by norm_num, by norm_num, by norm_num⟩
      · exact ⟨31, by norm_num, by norm_num, -16, by norm_num, by norm_num, by norm_num, by norm_num⟩
      · exact ⟨63, by norm_num, by norm_num, -32, by norm_num, by norm_num, by norm_num, by norm_num⟩
      · exact ⟨0, by norm_num, by norm_num, 0, by split <;> simp_all, by norm_num, by norm_num, by norm_num⟩
    · simp only [if_neg hi, hi, false_implies, and_true]
      have h0 : ∃ off : ℤ, (0 : ℚ) = off ∧ -32768 ≤ off ∧ off ≤ 0 ∧ (c.type = .UInt → off = 0) :=
        ⟨0, by norm_num, by norm_num, le_rfl, fun _ => rfl⟩
      split
      · exact ⟨255, by norm_num, by norm_num, h0⟩
      · exact ⟨255, by norm_num, by norm_num, h0⟩
      · exact ⟨255, by norm_num, by norm_num, h0⟩
      · exact ⟨65535, by norm_num, by norm_num, h0⟩
      · exact ⟨65535, by norm_num, by norm_num, h0⟩
      · exact ⟨65535, by norm_num, by norm_num, h0⟩
      · exact ⟨31, by norm_num, by norm_num, h0⟩
      · exact ⟨31, by norm_num, by norm_num, h0⟩
      · exact ⟨31, by norm_num, by norm_num, h0⟩
      · exact ⟨31, by norm_num, by norm_num, h0⟩
      · exact ⟨31, by norm_num, by norm_num, h0⟩
      · exact ⟨63, by norm_num, by norm_num, h0⟩
      · exact ⟨0, by norm_num, by norm_num, h0⟩
  obtain ⟨m, em, m1, off, eo, o0, o1, o2, o3⟩ := hm
  simp only [List.mem_cons, List.not_mem_nil, or_false] at ht
  unfold jobRange
  rw [hn]
  simp only [Bool.false_eq_true, if_false]
  rcases ht with ht | ht | ht
  · obtain ⟨q, rfl, q0, q1⟩ := hv
    obtain ⟨e, b0, b1, -⟩ := adjust_snorm Lm orig k q0 q1
    rw [ht]
    exact ⟨_, e, b0, b1⟩
  · have := adjust_ranged (Lm := Lm) hv m1 o0 o1
    have m1' : (m : ℚ) ≤ 65535 := by exact_mod_cast m1
    rw [o2 ht] at this
    unfold adjustValue
    rw [ht] at eo ⊢
    rw [em, eo, o2 ht]
    exact ranged_wider (by norm_num) (by push_cast; linarith) this
  · have := adjust_ranged (Lm := Lm) hv m1 o0 o1
    have o0' : (-32768 : ℚ) ≤ off := by exact_mod_cast o0
    have o3' : (m : ℚ) + off ≤ 32767 := by exact_mod_cast o3 ht
    unfold adjustValue
    rw [ht] at eo ⊢
    rw [em, eo]
    exact ranged_wider (by linarith) (by linarith) this

/-- Adjusting the range of an image of floats with colours from 0 to 1. -/
theorem adjust_range {c : Cmd Dbl} (hn : c.normalMap = false) {i j : Image Dbl} (hi : ImgOk (Arith.ieee Lm) i)
    (hf : i.format = .RGBAF) (hu : UnitImage Lm i) {orig : IFormat}
    (e : adjustImageValueRange (Arith.ieee Lm) FI i c.type orig = .ok (some j)) :
    RangeImage Lm (jobRange c).1 (jobRange c).2 j := by
  have B := job_bounds c
  by_cases ha : c.type ∉ [TType.SNorm, .UInt, .Int] ∨ (if orig = .Invalid then i.format else orig) ∉ sources
  · rw [C32_unchanged _ _ _ _ _ ha] at e
    cases e
    exact range_wider B.zero B.one hu
  · push Not at ha
    obtain ⟨ht, ho⟩ := ha
    unfold adjustImageValueRange at e
    dsimp only at e
    generalize (if orig = IFormat.Invalid then i.format else orig) = orig' at e ho
    have hadj : adjusts orig' = true := by
      simp only [sources, List.mem_cons, List.not_mem_nil, or_false] at ho
      rcases ho with h | h | h | h | h | h | h | h <;> rw [h] <;> rfl
    rw [if_pos ⟨by simpa using ht, hadj⟩, hf] at e
    simp only [adjustedFormat, adjustSource, hf, adjustConverts, Bool.false_eq_true, if_false, Res.ok_bind, adjustAll] at e
    obtain ⟨k, ek, e⟩ := Res.bind_eq_ok.1 e
    cases e
    obtain ⟨j', e', h1, h2, h3, h4, h5⟩ := adjustLoop_spec (Arith.ieee Lm) (i := i) (by rw [hf]; simp [floats]) hi orig' c.type
    rw [ek] at e'
    cases e'
    rintro d ⟨x, y, ed⟩
    obtain ⟨k1, k2, k3⟩ := getPixel_some ed
    obtain ⟨l, el, el'⟩ := h5 (j.bmp.height - y - 1) (by omega) x (by omega)
    have ok := hi (j.bmp.height - y - 1) x (by omega) (by omega)
    rw [hf, el] at ok
    have : ∃ r g b a, l = [r, g, b, a] := by
      match l, ok with
      | [r, g, b, a], _ => exact ⟨_, _, _, _, rfl⟩
    obtain ⟨r, g, b, a, rfl⟩ := this
    have hget : getPixelImpl (Arith.ieee Lm) i.format (i.bmp.px (j.bmp.height - y - 1) x) = .ok ⟨r, g, b, a⟩ := by
      rw [el, hf]
      rfl
    have hc := unit_iff.1 (hu _ ⟨_, _, getPixel_line (by omega) (by omega) hget⟩)
    rw [h1, hf, el'] at k3
    have k3 : Res.ok (⟨_, _, _, _⟩ : Color Dbl) = .ok d := k3
    cases k3
    exact range_iff.2 ⟨jobRange_type hn ht hc.1, jobRange_type hn ht hc.2.1, jobRange_type hn ht hc.2.2.1,
      jobRange_type hn ht hc.2.2.2⟩

theorem flipX_range (F : LawfulFI (Arith.ieee Lm) FI) {i : Image Dbl} (hu : RangeImage Lm lo hi i) :
    RangeImage Lm lo hi (i.flipHorizontal FI).2 := by
  rintro d ⟨x, y, ed⟩
  obtain ⟨k1, k2, k3⟩ := getPixel_some ed
  obtain ⟨f1, f2, f3⟩ := F.flipHorizontal i.bmp
  have g1 : x < (FI.flipHorizontal i.bmp).2.width := k1
  have g2 : y < (FI.flipHorizontal i.bmp).2.height := k2
  have g3 : getPixelImpl (Arith.ieee Lm) i.format ((FI.flipHorizontal i.bmp).2.px
    ((FI.flipHorizontal i.bmp).2.height - y - 1) x) = .ok d := k3
  rw [f3 _ _ (by omega) (by omega)] at g3
  split at g3
  · exact hu d ⟨_, _, getPixel_line (by omega) (by omega) g3⟩
  · exact hu d ⟨_, _, getPixel_line (by omega) (by omega) g3⟩

theorem flipY_range (F : LawfulFI (Arith.ieee Lm) FI) {i : Image Dbl} (hu : RangeImage Lm lo hi i) :
    RangeImage Lm lo hi (i.flipVertical FI).2 := by
  rintro d ⟨x, y, ed⟩
  obtain ⟨k1, k2, k3⟩ := getPixel_some ed
  obtain ⟨f1, f2, f3⟩ := F.flipVertical i.bmp
  have g1 : x < (FI.flipVertical i.bmp).2.width := k1
  have g2 : y < (FI.flipVertical i.bmp).2.height := k2
  have g3 : getPixelImpl (Arith.ieee Lm) i.format ((FI.flipVertical i.bmp).2.px
    ((FI.flipVertical i.bmp).2.height - y - 1) x) = .ok d := k3
  rw [f3 _ _ (by omega) (by omega)] at g3
  split at g3
  · exact hu d ⟨_, _, getPixel_line (by omega) (by omega) g3⟩
  · exact hu d ⟨_, _, getPixel_line (by omega) (by omega) g3⟩

theorem swizzle_range (B : Bounds lo hi) {i : Image Dbl} (hi' : ImgOk (Arith.ieee Lm) i) (hf : IsFloat i.format)
    (hu : RangeImage Lm lo hi i) {r g b a : Channel} {j : Image Dbl} (e : i.swizzle (Arith.ieee Lm) r g b a = .ok j) :
    RangeImage Lm lo hi j := by
  refine map_range B hi' hf hu (fun c hc => ?_) e
  rw [range_iff] at hc ⊢
  obtain ⟨hr, hg, hb, ha⟩ := hc
  have s {n : Dbl} (hn : Ranged lo hi n) (ch : Channel) : Ranged lo hi (selectChannel c n ch) := by
    cases ch
    · exact hr
    · exact hg
    · exact hb
    · exact ha
    · exact hn
  exact ⟨s B.zeroIn r, s B.zeroIn g, s B.zeroIn b, s B.oneIn a⟩

/-- A normal map has values of the range of the type. -/
theorem normal_range (Q : RoundedSqrt Lm) (F : LawfulFI (Arith.ieee Lm) FI) {c : Cmd Dbl} (hn : c.normalMap = true)
    (hk : c.normalOptions.keepSign = false) {q : ℚ} (hh : c.normalHeight = .fin q) (hq : |q| ≤ 2 ^ 64) {i j : Image Dbl}
    (hi : ImgOk (Arith.ieee Lm) i) (hu : UnitImage Lm i)
    (e : i.createNormalMap (Arith.ieee Lm) FI (if isSigned c.type then { c.normalOptions with keepSign := true }
      else c.normalOptions) c.normalHeight .RGBF = .ok (some j)) : RangeImage Lm (jobRange c).1 (jobRange c).2 j := by
  have hr : LimitedReds Lm i := by
    intro d hd
    obtain ⟨q, e, q0, q1⟩ := (unit_iff.1 (hu d hd)).1
    exact ⟨q, e, by rw [abs_of_nonneg q0]; exact q1.trans (by norm_num [ones])⟩
  have signed : isSigned c.type = true ↔ c.type ∈ signedTypes := by
    cases c.type <;> simp [isSigned, signedTypes]
  rw [hh] at e
  unfold jobRange
  rw [if_pos hn]
  by_cases hs : isSigned c.type = true
  · rw [if_pos (signed.1 hs)]
    rw [if_pos hs] at e
    obtain ⟨r, e', -, k⟩ := C31_signed_partial Q F hi hr (o := { c.normalOptions with keepSign := true }) rfl hq
      (dst := .RGBF) (Or.inl rfl)
    rw [e] at e'
    cases e'
    obtain ⟨-, -, k3, k4, k5⟩ := k j rfl
    rintro d ⟨x, y, ed⟩
    obtain ⟨g1, g2, -⟩ := getPixel_some ed
    obtain ⟨-, -, -, -, r, g, b, -, ep, r1, r2, r3, r4, -⟩ := k5 x y (by omega) (by omega)
    rw [ed] at ep
    cases ep
    rw [abs_le] at r1 r2
    exact range_iff.2 ⟨⟨r, rfl, r1.1, r1.2⟩, ⟨g, rfl, r2.1, r2.2⟩, ⟨b, rfl, by simp only [allSame]; linarith, r4⟩,
      ⟨1, rfl, by norm_num [allSame], le_rfl⟩⟩
  · rw [if_neg (fun h => hs (signed.2 h))]
    rw [if_neg hs] at e
    obtain ⟨r, e', -, k⟩ := C31_unsigned_partial Q F hi hr hk hq (dst := .RGBF) (by simp [Tonal])
    rw [e] at e'
    cases e'
    exact (k j rfl).2.2.2.2.1

/-- A processed image has values of the range of its type if the image that was read has colours from 0 to 1. -/
theorem processLoaded_range (P : UnitPow Lm) (C : UnitConvert Lm FI) (F : LawfulFI (Arith.ieee Lm) FI) {c : Cmd Dbl}
    (U : UnitFilter Lm FI c.resizeFilter)
    (N : c.normalMap = true → RoundedSqrt Lm ∧ c.normalOptions.keepSign = false ∧
      (∃ h : ℚ, c.normalHeight = .fin h ∧ |h| ≤ 2 ^ 64) ∧ RangeFilter Lm FI (jobRange c).1 (jobRange c).2 c.resizeFilter ∧
      (c.type ∈ signedTypes → c.textureColorSpace = .Linear))
    {i j : Image Dbl} {w h l : ℕ} (hi : ImgOk (Arith.ieee Lm) i) (hcs : i.colorSpace = c.imageColorSpace)
    (hc : Spec.Countable i) (hu : UnitImage Lm i) (hw : w < 2 ^ 32) (hh : h < 2 ^ 32) (hN : c.normalMap = true → Counts (w, h))
    (e : processLoaded (Arith.ieee Lm) FI c i w h l = .ok (some j)) : RangeImage Lm (jobRange c).1 (jobRange c).2 j := by
  have L := lawful_ieee Lm
  have B := job_bounds c
  unfold processLoaded at e
  obtain ⟨o1, e1, e⟩ := Res.bind_eq_ok.1 e
  obtain ⟨o2, e2, e⟩ := Res.bind_eq_ok.1 e
  obtain ⟨tw, ew, e⟩ := Res.bind_eq_ok.1 e
  obtain ⟨th, eh, e⟩ := Res.bind_eq_ok.1 e
  obtain ⟨hl, rfl⟩ := thisSize_eq ew
  obtain ⟨-, rfl⟩ := thisSize_eq eh
  obtain ⟨o3, e3, e⟩ := Res.bind_eq_ok.1 e
  obtain ⟨o4, e4, e⟩ := Res.bind_eq_ok.1 e
  obtain ⟨o5, e5, e⟩ := Res.bind_eq_ok.1 e
  obtain ⟨n, e6, e⟩ := Res.bind_eq_ok.1 e
  obtain ⟨o7, e7, e⟩ := Res.bind_eq_ok.1 e
  obtain ⟨o8, e8, e⟩ := Res.bind_eq_ok.1 e
  obtain ⟨o9, e9, e⟩ := Res.bind_eq_ok.1 e
  obtain ⟨o10, e10, e⟩ := Res.bind_eq_ok.1 e
  have hsize : (if c.normalMap = true then (w, h) else (max (w / 2 ^ l) 1, max (h / 2 ^ l) 1)) =
      firstSize c (w, h) l := rfl
  rw [hsize] at e3 e6
  have hd1 : max (w / 2 ^ l) 1 < 2 ^ 32 := max_lt (lt_of_le_of_lt (Nat.div_le_self _ _) hw) (by norm_num)
  have hd2 : max (h / 2 ^ l) 1 < 2 ^ 32 := max_lt (lt_of_le_of_lt (Nat.div_le_self _ _) hh) (by norm_num)
  have hfirst : (firstSize c (w, h) l).1 < 2 ^ 32 ∧ (firstSize c (w, h) l).2 < 2 ^ 32 := by
    unfold firstSize
    split
    · exact ⟨hw, hh⟩
    · exact ⟨hd1, hd2⟩
  have h1 : Holds (UnitLooks Lm c.imageColorSpace (i.bmp.width, i.bmp.height)) o1 := by
    intro k hk
    have a := convertF_keep L F hi e1 k hk
    rw [hcs] at a
    refine ⟨a, ?_⟩
    exact whenAsked_holds (P := UnitImage Lm) (fun _ r er => onValid_holds (P := fun x => x = i)
      (fun x y hx ex => by rw [hx] at ex; exact convert_unit C F hi hu ex) (fun x hx => by cases hx; rfl) er) (fun _ _ h => h)
      (fun x hx => by cases hx; exact hu) e1 k hk
  have h2 : Holds (UnitLooks Lm c.textureColorSpace (i.bmp.width, i.bmp.height)) o2 := by
    intro k hk
    refine ⟨changeF_keep L (fun x hx => (h1 x hx).1) e2 k hk, ?_⟩
    exact whenAsked_holds (P := UnitLooks Lm c.imageColorSpace (i.bmp.width, i.bmp.height))
      (fun _ r er => onPixels_holds (fun x y hx e => change_unit P hx.1.ok hx.float hx.2 e) h1 er)
      (fun _ _ h => h.2) h1 e2 k hk
  have h3p := resizeTo_keep L F ⟨hc.1, hc.2.1⟩ (fun x hx => (h2 x hx).1) e3
  rw [Prod.mk.eta] at h3p
  have h3 : Holds (UnitLooks Lm c.textureColorSpace (firstSize c (w, h) l)) o3 := by
    intro k hk
    refine ⟨(h3p k hk).1, ?_⟩
    unfold resizeTo at e3
    split at e3
    · refine onValid_holds (fun x y hx e => ?_) h2 e3 k hk
      have hsz := hx.1.size
      simp only [Prod.mk.injEq] at hsz
      exact resize_unit P F hx.1.ok (by unfold Spec.Countable; rw [hsz.1, hsz.2]; exact hc) hx.float hx.2 hfirst.1 hfirst.2 U e
    · cases e3
      exact (h2 k hk).2
  have h4 : Holds (UnitLooks Lm c.textureColorSpace (turnedSize c (firstSize c (w, h) l))) o4 := by
    unfold turnedSize
    refine whenAsked_holds (fun hr r er => ?_) (fun hr i hi => ?_) h3 e4
    · rw [if_pos hr]
      exact onValid_holds (fun x y hx e => ⟨rotate_keep L F hx.1 e, rotate_unit F hx.1.ok hx.2 e⟩) h3 er
    · rw [if_neg (by simp [hr])]
      exact hi
  have h5 : Holds (UnitLooks Lm c.textureColorSpace (turnedSize c (firstSize c (w, h) l))) o5 := by
    refine whenAsked_holds (fun _ r er => onPixels_holds ?_ h4 er) (fun _ _ h => h) h4 e5
    rintro x y hx e
    exact ⟨(mapPixels_keep L hx.1.ok e).looks hx.1, gray_unit P hx.1.ok hx.float hx.2 e⟩
  by_cases hn : c.normalMap = true
  · -- a normal map
    obtain ⟨Q, n1, ⟨q, n2, n3⟩, n4, n5⟩ := N hn
    have hsz : firstSize c (w, h) l = (w, h) := by unfold firstSize; rw [if_pos hn]
    have h6 : Holds (fun x => (∃ s, Looks (Arith.ieee Lm) .RGBF c.textureColorSpace s x) ∧
        RangeImage Lm (jobRange c).1 (jobRange c).2 x) n.1 ∧ (n.1 ≠ none → n.2 = .RGBF) := by
      have keep := normal_keep L F (fun x hx => (h5 x hx).1) e6
      unfold lastFormat at keep
      rw [if_pos hn] at keep
      refine ⟨fun x hx => ⟨⟨_, keep x hx⟩, ?_⟩, fun hne => ?_⟩
      · unfold toolNormalMap at e6
        rw [if_pos hn] at e6
        obtain ⟨p1, f1, e6⟩ := Res.bind_eq_ok.1 e6
        obtain ⟨p2, f2, e6⟩ := Res.bind_eq_ok.1 e6
        cases e6
        have k1 : Holds (fun y => RangeImage Lm (jobRange c).1 (jobRange c).2 y ∧
            Looks (Arith.ieee Lm) .RGBF c.textureColorSpace (turnedSize c (firstSize c (w, h) l)) y) p1 := by
          refine onValid_holds (fun a b ha eb => ?_) h5 f1
          obtain ⟨g1, g2, g3, g4, g5⟩ := createNormalMap_keep F L eb
          exact ⟨normal_range Q F hn n1 n2 n3 ha.1.ok ha.2 eb, g1, g2, g3.trans ha.1.space, by rw [g4, g5]; exact ha.1.size⟩
        refine whenAsked_holds (fun _ r er => onValid_holds (fun a b ha eb => ?_) k1 er) (fun _ a ha => ha.1) k1 f2 x hx
        obtain ⟨ra, la⟩ := ha
        have pos : 0 < w ∧ 0 < h := by
          have : ∃ z, o3 = some z := by
            cases o3 with
            | some z => exact ⟨z, rfl⟩
            | none =>
              exfalso
              have t4 : o4 = none := by
                unfold whenAsked at e4
                split at e4 <;> cases e4 <;> rfl
              subst t4
              have t5 : o5 = none := by
                unfold whenAsked at e5
                split at e5 <;> cases e5 <;> rfl
              subst t5
              cases f1
              unfold whenAsked at f2
              split at f2 <;> cases f2 <;> cases hx
          obtain ⟨z, hz⟩ := this
          have := (h3p z hz).2
          rw [hsz] at this
          exact this
        obtain ⟨t1, t2⟩ := counts_turned (c := c) (hN hn) pos
        rw [hsz] at la
        have hcount := la.countable t1 t2
        have fl : IsFloat a.format := by rw [la.format]; exact Or.inl rfl
        by_cases hs : c.type ∈ signedTypes
        · exact resize_range B F la.ok hcount fl (la.space.trans (n5 hs)) ra hd1 hd2 n4 eb
        · have hr : jobRange c = (0, 1) := by
            unfold jobRange
            rw [if_pos hn, if_neg hs]
          rw [hr] at ra ⊢
          exact resize_unit P F la.ok hcount fl ra hd1 hd2 U eb
      · unfold toolNormalMap at e6
        rw [if_pos hn] at e6
        obtain ⟨p1, f1, e6⟩ := Res.bind_eq_ok.1 e6
        obtain ⟨p2, f2, e6⟩ := Res.bind_eq_ok.1 e6
        cases e6
        cases p2 with
        | none => exact absurd rfl hne
        | some z => exact (keep z rfl).format
    obtain ⟨h6, h6f⟩ := h6
    have fl {x : Image Dbl} (h : ∃ s, Looks (Arith.ieee Lm) .RGBF c.textureColorSpace s x) : IsFloat x.format := by
      rw [h.choose_spec.format]
      exact Or.inl rfl
    have h7 : Holds (fun x => (∃ s, Looks (Arith.ieee Lm) .RGBF c.textureColorSpace s x) ∧
        RangeImage Lm (jobRange c).1 (jobRange c).2 x) o7 := by
      refine whenAsked_holds (fun _ r er => onPixels_holds ?_ h6 er) (fun _ _ h => h) h6 e7
      rintro x y ⟨⟨s, hs⟩, hr⟩ e
      cases e
      exact ⟨⟨_, (flipHorizontal_keep F hs.ok).looks hs⟩, flipX_range F hr⟩
    have h8 : Holds (fun x => (∃ s, Looks (Arith.ieee Lm) .RGBF c.textureColorSpace s x) ∧
        RangeImage Lm (jobRange c).1 (jobRange c).2 x) o8 := by
      refine whenAsked_holds (fun _ r er => onPixels_holds ?_ h7 er) (fun _ _ h => h) h7 e8
      rintro x y ⟨⟨s, hs⟩, hr⟩ e
      cases e
      exact ⟨⟨_, (flipVertical_keep F hs.ok).looks hs⟩, flipY_range F hr⟩
    have h9 : Holds (fun x => (∃ s, Looks (Arith.ieee Lm) .RGBF c.textureColorSpace s x) ∧
        RangeImage Lm (jobRange c).1 (jobRange c).2 x) o9 := by
      refine whenAsked_holds (fun _ r er => onPixels_holds ?_ h8 er) (fun _ _ h => h) h8 e9
      rintro x y ⟨⟨s, hs⟩, hr⟩ e
      exact ⟨⟨_, (mapPixels_keep L hs.ok e).looks hs⟩, swizzle_range B hs.ok (fl ⟨s, hs⟩) hr e⟩
    have h10 : Holds (fun x => (∃ s, Looks (Arith.ieee Lm) .RGBF c.textureColorSpace s x) ∧
        RangeImage Lm (jobRange c).1 (jobRange c).2 x) o10 := by
      refine whenAsked_holds (fun _ r er => onPixels_holds ?_ h9 er) (fun _ _ h => h) h9 e10
      rintro x y ⟨⟨s, hs⟩, hr⟩ e
      unfold Image.preMultiplyAlpha at e
      rw [hs.format, if_neg (by simp)] at e
      cases e
      exact ⟨⟨s, hs⟩, hr⟩
    -- the format of the normal map is not adjusted
    have hfmt : o10 ≠ none → n.2 = .RGBF := by
      intro hne
      refine h6f (fun h0 => hne ?_)
      rw [h0] at e7
      have t7 : o7 = none := by
        unfold whenAsked at e7
        split at e7 <;> cases e7 <;> rfl
      subst t7
      have t8 : o8 = none := by
        unfold whenAsked at e8
        split at e8 <;> cases e8 <;> rfl
      subst t8
      have t9 : o9 = none := by
        unfold whenAsked at e9
        split at e9 <;> cases e9 <;> rfl
      subst t9
      unfold whenAsked at e10
      split at e10 <;> cases e10 <;> rfl
    cases o10 with
    | none => cases e
    | some x =>
      have e : adjustImageValueRange (Arith.ieee Lm) FI x c.type n.2 = .ok (some j) := e
      rw [hfmt (by simp), C32_unchanged _ _ _ _ _ (Or.inr (by simp [sources]))] at e
      cases e
      exact (h10 j rfl).2
  · have hn : c.normalMap = false := by simpa using hn
    have h6 : n = (o5, i.format) := by
      unfold toolNormalMap at e6
      rw [hn] at e6
      simp only [Bool.false_eq_true, if_false] at e6
      exact (Res.ok.inj e6).symm
    subst h6
    have h5 : Holds (fun x => ∃ s, UnitLooks Lm c.textureColorSpace s x) o5 := fun x hx => ⟨_, h5 x hx⟩
    have h7 : Holds (fun x => ∃ s, UnitLooks Lm c.textureColorSpace s x) o7 := by
      refine whenAsked_holds (fun _ r er => onPixels_holds ?_ h5 er) (fun _ _ h => h) h5 e7
      rintro x y ⟨s, hx⟩ e
      cases e
      exact ⟨_, (flipHorizontal_keep F hx.1.ok).looks hx.1, flipX_unit F hx.2⟩
    have h8 : Holds (fun x => ∃ s, UnitLooks Lm c.textureColorSpace s x) o8 := by
      refine whenAsked_holds (fun _ r er => onPixels_holds ?_ h7 er) (fun _ _ h => h) h7 e8
      rintro x y ⟨s, hx⟩ e
      cases e
      exact ⟨_, (flipVertical_keep F hx.1.ok).looks hx.1, flipY_unit F hx.2⟩
    have h9 : Holds (fun x => ∃ s, UnitLooks Lm c.textureColorSpace s x) o9 := by
      refine whenAsked_holds (fun _ r er => onPixels_holds ?_ h8 er) (fun _ _ h => h) h8 e9
      rintro x y ⟨s, hx⟩ e
      exact ⟨_, (mapPixels_keep L hx.1.ok e).looks hx.1, swizzle_unit hx.1.ok hx.float hx.2 e⟩
    have h10 : Holds (fun x => ∃ s, UnitLooks Lm c.textureColorSpace s x) o10 := by
      refine whenAsked_holds (fun _ r er => onPixels_holds ?_ h9 er) (fun _ _ h => h) h9 e10
      rintro x y ⟨s, hx⟩ e
      exact ⟨_, (preMultiplyAlpha_keep L hx.1.ok e).looks hx.1, pre_unit P hx.1.ok hx.float hx.2 e⟩
    refine onValid_holds (fun x y hx e => ?_) h10 e j rfl
    obtain ⟨s, hx⟩ := hx
    exact adjust_range hn hx.1.ok hx.1.format hx.2 e

/-- What is asked of a job that makes normal maps, without the sizes. -/
def NormalJob (Lm : Libm) (FI : FreeImage Dbl) (c : Cmd Dbl) : Prop :=
  c.normalMap = true → RoundedSqrt Lm ∧ c.normalOptions.keepSign = false ∧
    (∃ h : ℚ, c.normalHeight = .fin h ∧ |h| ≤ 2 ^ 64) ∧ RangeFilter Lm FI (jobRange c).1 (jobRange c).2 c.resizeFilter ∧
    (c.type ∈ signedTypes → c.textureColorSpace = .Linear)

/-- A loaded image has values of the range of the job, in the colour space of the texture. -/
def LoadedRange (Lm : Libm) (c : Cmd Dbl) (g : Image Dbl) : Prop :=
  RangeImage Lm (jobRange c).1 (jobRange c).2 g ∧ g.colorSpace = c.textureColorSpace

theorem load_range (P : UnitPow Lm) (C : UnitConvert Lm FI) (F : LawfulFI (Arith.ieee Lm) FI)
    {read : Str → ColorSpace → Img? Dbl} (R : LoadsWell (Arith.ieee Lm) read)
    (hE : E.load = loadAndProcess (Arith.ieee Lm) FI read) {c : Cmd Dbl} (J : RangeJob Lm FI read c)
    (N : NormalJob Lm FI c) {p : Str} {w h l : ℕ} (hw : w < 2 ^ 32) (hh : h < 2 ^ 32)
    (hN : c.normalMap = true → ∀ i, read p c.imageColorSpace = some i → Counts (targetSize c i w h))
    {r : Img? Dbl × ℕ × ℕ} (e : E.load c p w h l = .ok (some r)) :
    (∀ g, r.1 = some g → LoadedRange Lm c g) ∧ r.2.1 < 2 ^ 32 ∧ r.2.2 < 2 ^ 32 ∧
      (c.normalMap = true → Counts r.2) := by
  rw [hE] at e
  unfold loadAndProcess at e
  cases hr : read p c.imageColorSpace with
  | none => rw [hr] at e; cases e
  | some i =>
    rw [hr] at e
    obtain ⟨o, eo, e⟩ := Res.bind_eq_ok.1 e
    cases e
    obtain ⟨h1, h2, h3⟩ := R _ _ _ hr
    have ht : (targetSize c i w h).1 < 2 ^ 32 ∧ (targetSize c i w h).2 < 2 ^ 32 := by
      by_cases hu : w = pow32 - 1 ∧ h = pow32 - 1
      · obtain ⟨rfl, rfl⟩ := hu
        exact target_small32 (c := c) h3
      · unfold targetSize
        rw [if_neg hu]
        exact ⟨hw, hh⟩
    refine ⟨fun g hg => ?_, ht.1, ht.2, fun hn => hN hn i hr⟩
    cases hg
    exact ⟨processLoaded_range P C F J.filter N h1 h2 h3 (J.reads _ _ hr) ht.1 ht.2 (fun hn => hN hn i hr) eo,
      (processLoaded_shape (lawful_ieee Lm) F h1 h2 ⟨h3.1, h3.2.1⟩ eo).2.1⟩

theorem counts_kept {c : Cmd Dbl} {i : Image Dbl} {w h : ℕ} (hN : Counts (w, h)) : Counts (targetSize c i w h) := by
  rw [target_kept (by have := hN.1; simp only at this; omega)]
  exact hN

theorem loadMain_range (P : UnitPow Lm) (C : UnitConvert Lm FI) (F : LawfulFI (Arith.ieee Lm) FI)
    {read : Str → ColorSpace → Img? Dbl} (R : LoadsWell (Arith.ieee Lm) read)
    (hE : E.load = loadAndProcess (Arith.ieee Lm) FI read) {c : Cmd Dbl} (J : RangeJob Lm FI read c)
    (N : NormalJob Lm FI c) {ps : List Str} {w h : ℕ} (hw : w < 2 ^ 32) (hh : h < 2 ^ 32)
    (hN : c.normalMap = true → (∃ p, ps.head? = some p ∧ ∀ i, read p c.imageColorSpace = some i →
      Counts (targetSize c i w h)) ∨ Counts (w, h)) {r : List (Option (Image Dbl)) × ℕ × ℕ}
    (e : loadMain E c ps w h = .ok (some r)) :
    (∀ g, some g ∈ r.1 → LoadedRange Lm c g) ∧ r.2.1 < 2 ^ 32 ∧ r.2.2 < 2 ^ 32 ∧
      (c.normalMap = true → Counts r.2) := by
  induction ps generalizing w h r with
  | nil =>
    cases e
    refine ⟨by simp, hw, hh, fun hn => ?_⟩
    rcases hN hn with ⟨p, hp, -⟩ | hN
    · cases hp
    · exact hN
  | cons p ps ih =>
    simp only [loadMain, Res.bind_eq_ok] at e
    obtain ⟨o, ho, e⟩ := e
    cases o with
    | none => simp at e
    | some o =>
      simp only [Res.bind_eq_ok] at e
      obtain ⟨q, hq, e⟩ := e
      cases q with
      | none => simp at e
      | some q =>
        simp only [Res.ok.injEq, Option.some.injEq] at e
        subst e
        obtain ⟨k1, k2, k3, k4⟩ := load_range P C F R hE J N hw hh (fun hn i hi => by
          rcases hN hn with ⟨p', hp, k⟩ | hN
          · cases hp
            exact k i hi
          · exact counts_kept hN) ho
        obtain ⟨m1, m2⟩ := ih k2 k3 (fun hn => Or.inr (k4 hn)) hq
        refine ⟨fun g hg => ?_, m2⟩
        rcases List.mem_cons.1 hg with hg | hg
        · exact k1 g hg.symm
        · exact m1 g hg

theorem loadCustom_range (P : UnitPow Lm) (C : UnitConvert Lm FI) (F : LawfulFI (Arith.ieee Lm) FI)
    {read : Str → ColorSpace → Img? Dbl} (R : LoadsWell (Arith.ieee Lm) read)
    (hE : E.load = loadAndProcess (Arith.ieee Lm) FI read) {c : Cmd Dbl} (J : RangeJob Lm FI read c)
    (N : NormalJob Lm FI c) {m : ℕ} {ms : CustomMipFiles} {w h : ℕ} (hw : w < 2 ^ 32) (hh : h < 2 ^ 32)
    (hN : c.normalMap = true → Counts (w, h)) {r : CustomMips (Image Dbl)} (e : loadCustom E c m ms w h = .ok (some r)) :
    ∀ x ∈ r, ∀ g, x.2.image = some (some g) → LoadedRange Lm c g := by
  induction ms generalizing w h r with
  | nil => cases e; simp
  | cons p ps ih =>
    unfold loadCustom at e
    split at e
    · cases e
    split at e
    · cases e
    simp only [Res.bind_eq_ok] at e
    obtain ⟨o, ho, e⟩ := e
    cases o with
    | none => simp at e
    | some o =>
      simp only [Res.bind_eq_ok] at e
      obtain ⟨q, hq, e⟩ := e
      cases q with
      | none => simp at e
      | some q =>
        simp only [Res.ok.injEq, Option.some.injEq] at e
        subst e
        obtain ⟨k1, k2, k3, k4⟩ := load_range P C F R hE J N hw hh (fun hn i _ => counts_kept (hN hn)) ho
        intro x hx g hg
        rcases List.mem_cons.1 hx with hx | hx
        · subst hx
          exact k1 g (Option.some.inj hg)
        · exact ih k2 k3 k4 hq x hx g hg

/-- All images that the tool puts into the texture have values of the range of the job. -/
theorem loadImages_range (P : UnitPow Lm) (C : UnitConvert Lm FI) (F : LawfulFI (Arith.ieee Lm) FI)
    {read : Str → ColorSpace → Img? Dbl} (R : LoadsWell (Arith.ieee Lm) read)
    (hE : E.load = loadAndProcess (Arith.ieee Lm) FI read) {c : Cmd Dbl} (J : RangeJob Lm FI read c)
    (Q : c.normalMap = true → RoundedSqrt Lm) (hs : c.type = .UNorm ∨ c.textureColorSpace = .Linear)
    {r : List (Option (Image Dbl)) × CustomMips (Image Dbl)} (e : loadImages E c = .ok (some r)) :
    (∀ g, some g ∈ r.1 → LoadedRange Lm c g) ∧
      ∀ x ∈ r.2, ∀ g, x.2.image = some (some g) → LoadedRange Lm c g := by
  have N : NormalJob Lm FI c := fun hn => by
    obtain ⟨n1, n2, n3⟩ := J.normal hn
    refine ⟨Q hn, n1, n2, n3, fun h => ?_⟩
    rcases hs with hs | hs
    · rw [hs] at h
      simp [signedTypes] at h
    · exact hs
  simp only [loadImages, Res.bind_eq_ok] at e
  obtain ⟨o, ho, e⟩ := e
  cases o with
  | none => simp at e
  | some o =>
    simp only [Res.bind_eq_ok] at e
    obtain ⟨q, hq, e⟩ := e
    cases q with
    | none => simp at e
    | some q =>
      simp only [Res.ok.injEq, Option.some.injEq] at e
      subst e
      obtain ⟨k1, k2, k3, k4⟩ := loadMain_range P C F R hE J N (by norm_num [unset, pow32]) (by norm_num [unset, pow32])
        (fun hn => Or.inl (by
          obtain ⟨s1, s2, s3⟩ := J.sizes hn
          obtain ⟨p, ps, hp⟩ := List.exists_cons_of_ne_nil s1
          refine ⟨p, by rw [hp]; rfl, fun i hi => ?_⟩
          obtain ⟨t1, t2⟩ := target_asked (c := c) (R _ _ _ hi).2.2 s2
          exact s3 p i (by rw [hp]; rfl) hi _ _ t1 t2)) ho
      exact ⟨k1, loadCustom_range P C F R hE J N k2 k3 k4 hq⟩

end Cuttlefish
