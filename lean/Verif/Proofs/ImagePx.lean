import Verif.Proofs.ImageLoop
/-
Reading a stored pixel and storing it again.
-/
namespace Cuttlefish
open Spec
variable {N : Type} {A : Arith N}

theorem get_px {f : IFormat} {p : Px N} (h : PxOk A f p) : ∃ c, getPixelImpl A f p = .ok c := by
  unfold PxOk at h
  split at h <;> first | exact ⟨_, rfl⟩ | exact h.elim

theorem getField_upto (w : Int) (s n : Nat) : 0 ≤ getField w s n ∧ getField w s n ≤ 2 ^ n - 1 := by
  unfold getField
  have h2 : (0 : Int) < 2 ^ n := by positivity
  have := Int.emod_nonneg (w / 2 ^ s) h2.ne'
  have := Int.emod_lt_of_pos (w / 2 ^ s) h2
  omega

theorem Spec.LawfulArith.norm_int (L : LawfulArith A) {top m : Nat} {v : Int} (hm : m ∈ [31, 63, 255, 65535])
    (h0 : 0 ≤ v) (hv : v ≤ m) (ht : m ≤ top) : A.toNorm top m (A.fromNorm m v) = .ok v := by
  obtain ⟨n, rfl⟩ := Int.eq_ofNat_of_zero_le h0
  exact L.norm top m n hm (by omega) ht

/-- A colour read from an image can be stored again in an image of the same format, and reads as the
same colour. -/
theorem px_round (L : LawfulArith A) {f : IFormat} {p : Px N} {c : Color N} (h : PxOk A f p)
    (hc : getPixelImpl A f p = .ok c) :
    ∃ p', setPixelNoGrayscaleImpl A f c = .ok p' ∧ PxOk A f p' ∧ getPixelImpl A f p' = .ok c := by
  have same : setPixelNoGrayscaleImpl A f c = .ok p →
      ∃ p', setPixelNoGrayscaleImpl A f c = .ok p' ∧ PxOk A f p' ∧ getPixelImpl A f p' = .ok c :=
    fun e => ⟨p, e, h, hc⟩
  have int (lo hi v : Int) (h1 : lo ≤ v) (h2 : v ≤ hi) (h3 : -2 ^ 32 ≤ v) (h4 : v ≤ 2 ^ 32) :
      A.cast lo hi (A.lit v) = .ok v := L.int lo hi v h1 h2 (abs_le.2 ⟨h3, h4⟩)
  have h0 := h
  unfold PxOk at h
  split at h
  all_goals first | exact h.elim | skip
  all_goals simp only [getPixelImpl, Res.ok.injEq] at hc; subst hc
  case h_1 => exact same (by simp [setPixelNoGrayscaleImpl, L.norm_int (top := 255) (by simp) h.1 h.2 le_rfl])
  case h_2 => exact same (by simp [setPixelNoGrayscaleImpl, L.norm_int (top := 65535) (by simp) h.1 h.2 le_rfl])
  case h_3 w =>
    have hr := getField_upto w 10 5
    have hg := getField_upto w 5 5
    have hb := getField_upto w 0 5
    refine ⟨.ints [getField w 10 5 * 2 ^ 10 + getField w 5 5 * 2 ^ 5 + getField w 0 5], ?_, ?_, ?_⟩
    · simp [setPixelNoGrayscaleImpl, setPixelCommon,
        L.norm_int (top := 255) (m := 31) (by simp) hr.1 (by omega) (by omega),
        L.norm_int (top := 255) (m := 31) (by simp) hg.1 (by omega) (by omega),
        L.norm_int (top := 255) (m := 31) (by simp) hb.1 (by omega) (by omega)]
    · constructor <;> omega
    · simp only [getPixelImpl, Res.ok.injEq]
      generalize getField w 10 5 = r at *
      generalize getField w 5 5 = g at *
      generalize getField w 0 5 = b at *
      rw [show getField (r * 2 ^ 10 + g * 2 ^ 5 + b) 10 5 = r by unfold getField; omega,
        show getField (r * 2 ^ 10 + g * 2 ^ 5 + b) 5 5 = g by unfold getField; omega,
        show getField (r * 2 ^ 10 + g * 2 ^ 5 + b) 0 5 = b by unfold getField; omega]
  case h_4 w =>
    have hr := getField_upto w 11 5
    have hg := getField_upto w 5 6
    have hb := getField_upto w 0 5
    refine ⟨.ints [getField w 11 5 * 2 ^ 11 + getField w 5 6 * 2 ^ 5 + getField w 0 5], ?_, ?_, ?_⟩
    · simp [setPixelNoGrayscaleImpl, setPixelCommon,
        L.norm_int (top := 255) (m := 31) (by simp) hr.1 (by omega) (by omega),
        L.norm_int (top := 255) (m := 63) (by simp) hg.1 (by omega) (by omega),
        L.norm_int (top := 255) (m := 31) (by simp) hb.1 (by omega) (by omega)]
    · constructor <;> omega
    · simp only [getPixelImpl, Res.ok.injEq]
      generalize getField w 11 5 = r at *
      generalize getField w 5 6 = g at *
      generalize getField w 0 5 = b at *
      rw [show getField (r * 2 ^ 11 + g * 2 ^ 5 + b) 11 5 = r by unfold getField; omega,
        show getField (r * 2 ^ 11 + g * 2 ^ 5 + b) 5 6 = g by unfold getField; omega,
        show getField (r * 2 ^ 11 + g * 2 ^ 5 + b) 0 5 = b by unfold getField; omega]
  case h_5 =>
    obtain ⟨hr, hg, hb⟩ := h
    exact same (by simp [setPixelNoGrayscaleImpl, setPixelCommon,
      L.norm_int (top := 255) (by simp) hr.1 hr.2 le_rfl, L.norm_int (top := 255) (by simp) hg.1 hg.2 le_rfl,
      L.norm_int (top := 255) (by simp) hb.1 hb.2 le_rfl])
  case h_6 =>
    obtain ⟨hr, hg, hb⟩ := h
    exact same (by simp [setPixelNoGrayscaleImpl, setPixelCommon,
      L.norm_int (top := 65535) (by simp) hr.1 hr.2 le_rfl, L.norm_int (top := 65535) (by simp) hg.1 hg.2 le_rfl,
      L.norm_int (top := 65535) (by simp) hb.1 hb.2 le_rfl])
  case h_7 => exact same (by simp [setPixelNoGrayscaleImpl, setPixelCommon, h])
  case h_8 =>
    obtain ⟨hr, hg, hb, ha⟩ := h
    exact same (by simp [setPixelNoGrayscaleImpl, setPixelCommon,
      L.norm_int (top := 255) (by simp) hr.1 hr.2 le_rfl, L.norm_int (top := 255) (by simp) hg.1 hg.2 le_rfl,
      L.norm_int (top := 255) (by simp) hb.1 hb.2 le_rfl, L.norm_int (top := 255) (by simp) ha.1 ha.2 le_rfl])
  case h_9 =>
    obtain ⟨hr, hg, hb, ha⟩ := h
    exact same (by simp [setPixelNoGrayscaleImpl, setPixelCommon,
      L.norm_int (top := 65535) (by simp) hr.1 hr.2 le_rfl, L.norm_int (top := 65535) (by simp) hg.1 hg.2 le_rfl,
      L.norm_int (top := 65535) (by simp) hb.1 hb.2 le_rfl, L.norm_int (top := 65535) (by simp) ha.1 ha.2 le_rfl])
  case h_10 => exact same (by simp [setPixelNoGrayscaleImpl, setPixelCommon, h])
  case h_11 v => exact same (by
      simp only [setPixelNoGrayscaleImpl, setPixelCommon, int _ _ v h.1 h.2 (by omega) (by omega), Res.ok_bind])
  case h_12 v => exact same (by
      simp only [setPixelNoGrayscaleImpl, int 0 (2 ^ 16 - 1) v h.1 (by have := h.2; omega)
        (by have := h.1; omega) (by have := h.2; omega), Res.ok_bind])
  case h_13 v => exact same (by
      simp only [setPixelNoGrayscaleImpl, setPixelCommon, int _ _ v h.1 h.2 (by omega) (by omega), Res.ok_bind])
  case h_14 v => exact same (by
      simp only [setPixelNoGrayscaleImpl, setPixelCommon, int 0 (2 ^ 32 - 1) v h.1 h.2
        (by have := h.1; omega) (by have := h.2; omega), Res.ok_bind])
  case h_15 => exact same (by simp [setPixelNoGrayscaleImpl, h])
  case h_16 => exact same rfl
  case h_17 => exact same rfl

theorem Image.get_ok {i : Image N} {y x : Nat} (h : ImgOk A i) (hy : y < i.bmp.height) (hx : x < i.bmp.width) :
    ∃ c, i.get A y x = .ok c ∧ getPixelImpl A i.format (i.bmp.px y x) = .ok c := by
  obtain ⟨c, e⟩ := get_px (h y x hy hx)
  exact ⟨c, by simp [Image.get, Bitmap.read_ok hy hx, e], e⟩

theorem Image.get_eq {i : Image N} {y x : Nat} (hy : y < i.bmp.height) (hx : x < i.bmp.width) :
    i.get A y x = getPixelImpl A i.format (i.bmp.px y x) := by
  simp [Image.get, Bitmap.read_ok hy hx]

theorem Image.set_ok {i : Image N} {y x : Nat} {c : Color N} {p : Px N} (hy : y < i.bmp.height)
    (hx : x < i.bmp.width) (e : setPixelNoGrayscaleImpl A i.format c = .ok p) :
    i.set A y x c = .ok { i with bmp := i.bmp.upd y x p } := by
  simp [Image.set, e, Image.put_ok hy hx]

/-- Everything `setPixelNoGrayscaleImpl` stores is a pixel of the format. -/
theorem set_px (L : LawfulArith A) {f : IFormat} {p : Px N} {c : Color N}
    (h : setPixelNoGrayscaleImpl A f c = .ok p) : PxOk A f p := by
  have n255 {d : N} {v : Int} (h : A.toNorm 255 255 d = .ok v) : Upto 255 v := L.normRange 255 255 _ _ (by simp) le_rfl h
  have n65535 {d : N} {v : Int} (h : A.toNorm 65535 65535 d = .ok v) : Upto 65535 v :=
    L.normRange 65535 65535 _ _ (by simp) le_rfl h
  have n31 {d : N} {v : Int} (h : A.toNorm 255 31 d = .ok v) : Upto 31 v := L.normRange 255 31 _ _ (by simp) (by omega) h
  have n63 {d : N} {v : Int} (h : A.toNorm 255 63 d = .ok v) : Upto 63 v := L.normRange 255 63 _ _ (by simp) (by omega) h
  cases f <;> simp only [setPixelNoGrayscaleImpl, setPixelCommon, Res.bind_eq_ok, Res.ok.injEq, reduceCtorEq] at h
  case Gray8 => obtain ⟨v, e, rfl⟩ := h; exact n255 e
  case Gray16 => obtain ⟨v, e, rfl⟩ := h; exact n65535 e
  case RGB5 =>
    obtain ⟨r, er, g, eg, b, eb, rfl⟩ := h
    have := n31 er; have := n31 eg; have := n31 eb
    simp only [PxOk, Upto] at *; omega
  case RGB565 =>
    obtain ⟨r, er, g, eg, b, eb, rfl⟩ := h
    have := n31 er; have := n63 eg; have := n31 eb
    simp only [PxOk, Upto] at *; omega
  case RGB8 => obtain ⟨r, er, g, eg, b, eb, rfl⟩ := h; exact ⟨n255 er, n255 eg, n255 eb⟩
  case RGB16 => obtain ⟨r, er, g, eg, b, eb, rfl⟩ := h; exact ⟨n65535 er, n65535 eg, n65535 eb⟩
  case RGBF => subst h; exact ⟨L.single _, L.single _, L.single _⟩
  case RGBA8 => obtain ⟨r, er, g, eg, b, eb, a, ea, rfl⟩ := h; exact ⟨n255 er, n255 eg, n255 eb, n255 ea⟩
  case RGBA16 => obtain ⟨r, er, g, eg, b, eb, a, ea, rfl⟩ := h; exact ⟨n65535 er, n65535 eg, n65535 eb, n65535 ea⟩
  case RGBAF => subst h; exact ⟨L.single _, L.single _, L.single _, L.single _⟩
  case Int16 => obtain ⟨v, e, rfl⟩ := h; exact L.cast _ _ _ _ e
  case UInt16 => obtain ⟨v, e, rfl⟩ := h; exact L.cast _ _ _ _ e
  case Int32 => obtain ⟨v, e, rfl⟩ := h; exact L.cast _ _ _ _ e
  case UInt32 => obtain ⟨v, e, rfl⟩ := h; exact L.cast _ _ _ _ e
  case Float => subst h; exact L.single _
  case Double => subst h; trivial
  case Complex => subst h; trivial

end Cuttlefish
