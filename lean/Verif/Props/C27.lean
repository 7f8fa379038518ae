import Verif.Proofs.ImageMap
import Verif.Spec.Swizzle
import Verif.Spec.ToyImage
/-
C27: swizzle semantics, stated about `Image.swizzle` with IEEE arithmetic.
-/
namespace Cuttlefish
open Spec
variable {L : Libm} {i : Image Dbl}

/-- A channel that is read from an integer out of `m`. -/
def NormOf (L : Libm) (m : Nat) (n : Dbl) : Prop := ∃ v : Int, Upto m v ∧ n = (Arith.ieee L).fromNorm m v

theorem normOf_fin {m : Nat} {n : Dbl} (h0 : m ≠ 0) (hm : m ≤ 65535) (h : NormOf L m n) : n ≠ .nan := by
  obtain ⟨v, ⟨u0, u1⟩, rfl⟩ := h
  rw [fromNorm_ieee L h0 hm (by rw [abs_of_nonneg u0]; omega)]
  exact fun h => by cases h

theorem normOf_zero {m : Nat} (h0 : m ≠ 0) (hm : m ≤ 65535) : NormOf L m (.fin 0) := by
  refine ⟨0, ⟨le_rfl, by positivity⟩, ?_⟩
  rw [fromNorm_nearest h0 hm le_rfl (by positivity)]
  rw [Int.cast_zero, zero_div, ofQ_zero]

theorem normOf_one {m : Nat} (h0 : m ≠ 0) (hm : m ≤ 65535) : NormOf L m (.fin 1) := by
  refine ⟨m, ⟨by positivity, le_rfl⟩, ?_⟩
  rw [fromNorm_nearest h0 hm (by positivity) le_rfl]
  have : (m : ℚ) ≠ 0 := by exact_mod_cast h0
  rw [Int.cast_natCast, div_self this, ofQ_one]

/-- All channels of a colour, and those it is filled with, satisfy `P`; then so do those of every
selection. -/
theorem apply_all {P : Dbl → Prop} {c : Color Dbl} (s : Selection) (hr : P c.r) (hg : P c.g) (hb : P c.b)
    (ha : P c.a) (h0 : P (.fin 0)) (h1 : P (.fin 1)) :
    P (s.apply (.fin 0) (.fin 1) c).r ∧ P (s.apply (.fin 0) (.fin 1) c).g ∧
      P (s.apply (.fin 0) (.fin 1) c).b ∧ P (s.apply (.fin 0) (.fin 1) c).a := by
  obtain ⟨r, g, b, a⟩ := s
  refine ⟨?_, ?_, ?_, ?_⟩
  · cases r <;> assumption
  · cases g <;> assumption
  · cases b <;> assumption
  · cases a <;> assumption

theorem swizzle_eq (i : Image Dbl) (s : Selection) :
    i.swizzle (Arith.ieee L) s.r s.g s.b s.a = i.mapPixels (Arith.ieee L) (s.apply (.fin 0) (.fin 1)) := by
  unfold Image.swizzle
  refine congrArg (fun f => Image.mapPixels (Arith.ieee L) i f) (funext fun c => ?_)
  obtain ⟨r, g, b, a⟩ := s
  rw [litZero, litOne]
  simp only [Selection.apply, Color.mk.injEq]
  refine ⟨?_, ?_, ?_, ?_⟩
  · cases r <;> rfl
  · cases g <;> rfl
  · cases b <;> rfl
  · cases a <;> rfl

/-- `set` looks only at the channels the format keeps. -/
theorem set_kept (f : IFormat) (c : Color Dbl) :
    setPixelNoGrayscaleImpl (Arith.ieee L) f (kept (.fin 0) (.fin 1) f c) =
      setPixelNoGrayscaleImpl (Arith.ieee L) f c := by cases f <;> rfl

theorem inRange_int {lo hi v : ℤ} (h1 : lo ≤ v) (h2 : v ≤ hi) : InRange lo hi (.fin v) :=
  ⟨v, rfl, by have : (lo : ℚ) ≤ v := by exact_mod_cast h1
              linarith, by have : (v : ℚ) ≤ hi := by exact_mod_cast h2
                           linarith⟩

theorem single_zero : Dbl.single (.fin 0) = .fin 0 := by
  have h := Toy.ieee_zero Toy.libm
  rw [litZero] at h
  exact h

theorem single_one : Dbl.single (.fin 1) = .fin 1 := by
  have h : F32.round 1 = .fin (rne 1) := round_fin (by
    rw [abs_one]; exact one_le_zpow₀ (by norm_num) (by norm_num))
  rw [rne_exact (by simpa using rep_int (n := 1) (by norm_num))] at h
  exact h

/-- The pixel that holds the selected channels. -/
theorem swizzled_px {f : IFormat} {p : Px Dbl} {c : Color Dbl} (s : Selection) (hp : PxOk (Arith.ieee L) f p)
    (hc : getPixelImpl (Arith.ieee L) f p = .ok c) (h565 : f ≠ .RGB565) :
    ∃ p', PxOk (Arith.ieee L) f p' ∧ getPixelImpl (Arith.ieee L) f p' =
      .ok (kept (.fin 0) (.fin 1) f (s.apply (.fin 0) (.fin 1) c)) := by
  have norm {m : Nat} (h0 : m ≠ 0) (hm : m ≤ 65535) (hr : NormOf L m c.r) (hg : NormOf L m c.g)
      (hb : NormOf L m c.b) (ha : NormOf L m c.a) :=
    apply_all s hr hg hb ha (normOf_zero h0 hm) (normOf_one h0 hm)
  have int {lo hi : ℤ} (v : ℤ) (h1 : lo ≤ v) (h2 : v ≤ hi) (hlo : lo ≤ 0) (hhi : 1 ≤ hi) (hr : c.r = .fin v)
      (hg : c.g = .fin v) (hb : c.b = .fin v) (ha : c.a = .fin 1) :=
    (apply_all (P := fun d => ∃ v : ℤ, lo ≤ v ∧ v ≤ hi ∧ d = .fin v) s ⟨v, h1, h2, hr⟩ ⟨v, h1, h2, hg⟩
      ⟨v, h1, h2, hb⟩ ⟨1, by omega, by omega, by simpa using ha⟩ ⟨0, hlo, by omega, by simp⟩
      ⟨1, by omega, by omega, by simp⟩).1
  have flt (hr : Dbl.single c.r = c.r) (hg : Dbl.single c.g = c.g) (hb : Dbl.single c.b = c.b)
      (ha : Dbl.single c.a = c.a) := apply_all (P := fun d => Dbl.single d = d) s hr hg hb ha single_zero single_one
  cases f <;> unfold PxOk at hp <;> split at hp <;> simp only [reduceCtorEq] at *
  all_goals simp only [getPixelImpl, Res.ok.injEq] at hc
  all_goals subst hc
  all_goals try simp only [litOne, litZero] at *
  case h_1 =>
    obtain ⟨⟨v, u, e⟩, -⟩ := norm (m := 255) (by norm_num) (by norm_num) ⟨_, hp, rfl⟩ ⟨_, hp, rfl⟩ ⟨_, hp, rfl⟩
      (normOf_one (by norm_num) (by norm_num))
    exact ⟨.ints [v], u, by simp only [getPixelImpl, kept, e, litOne]⟩
  case h_2 =>
    obtain ⟨⟨v, u, e⟩, -⟩ := norm (m := 65535) (by norm_num) (by norm_num) ⟨_, hp, rfl⟩ ⟨_, hp, rfl⟩ ⟨_, hp, rfl⟩
      (normOf_one (by norm_num) (by norm_num))
    exact ⟨.ints [v], u, by simp only [getPixelImpl, kept, e, litOne]⟩
  case h_3 w _ =>
    obtain ⟨⟨r, ur, er⟩, ⟨g, ug, eg⟩, ⟨b, ub, eb⟩, -⟩ := norm (m := 31) (by norm_num) (by norm_num)
      ⟨_, getField_upto w 10 5, rfl⟩ ⟨_, getField_upto w 5 5, rfl⟩ ⟨_, getField_upto w 0 5, rfl⟩
      (normOf_one (by norm_num) (by norm_num))
    obtain ⟨f1, f2, f3⟩ := field_of_sum ug ub ur
    refine ⟨.ints [r * 2 ^ 10 + g * 2 ^ 5 + b], ?_, by simp only [getPixelImpl, kept, er, eg, eb, litOne, f1, f2, f3]⟩
    simp only [PxOk, Upto] at *
    omega
  case h_4 => exact absurd rfl h565
  case h_5 =>
    obtain ⟨⟨r, ur, er⟩, ⟨g, ug, eg⟩, ⟨b, ub, eb⟩, -⟩ := norm (m := 255) (by norm_num) (by norm_num)
      ⟨_, hp.1, rfl⟩ ⟨_, hp.2.1, rfl⟩ ⟨_, hp.2.2, rfl⟩ (normOf_one (by norm_num) (by norm_num))
    exact ⟨.ints [r, g, b], ⟨ur, ug, ub⟩, by simp only [getPixelImpl, kept, er, eg, eb, litOne]⟩
  case h_6 =>
    obtain ⟨⟨r, ur, er⟩, ⟨g, ug, eg⟩, ⟨b, ub, eb⟩, -⟩ := norm (m := 65535) (by norm_num) (by norm_num)
      ⟨_, hp.1, rfl⟩ ⟨_, hp.2.1, rfl⟩ ⟨_, hp.2.2, rfl⟩ (normOf_one (by norm_num) (by norm_num))
    exact ⟨.ints [r, g, b], ⟨ur, ug, ub⟩, by simp only [getPixelImpl, kept, er, eg, eb, litOne]⟩
  case h_7 =>
    obtain ⟨e1, e2, e3, -⟩ := flt hp.1 hp.2.1 hp.2.2 single_one
    exact ⟨.nums [_, _, _], ⟨e1, e2, e3⟩, by simp only [getPixelImpl, kept, litOne]⟩
  case h_8 =>
    obtain ⟨⟨r, ur, er⟩, ⟨g, ug, eg⟩, ⟨b, ub, eb⟩, ⟨a, ua, ea⟩⟩ := norm (m := 255) (by norm_num) (by norm_num)
      ⟨_, hp.1, rfl⟩ ⟨_, hp.2.1, rfl⟩ ⟨_, hp.2.2.1, rfl⟩ ⟨_, hp.2.2.2, rfl⟩
    exact ⟨.ints [r, g, b, a], ⟨ur, ug, ub, ua⟩, by simp only [getPixelImpl, kept, ← er, ← eg, ← eb, ← ea]⟩
  case h_9 =>
    obtain ⟨⟨r, ur, er⟩, ⟨g, ug, eg⟩, ⟨b, ub, eb⟩, ⟨a, ua, ea⟩⟩ := norm (m := 65535) (by norm_num) (by norm_num)
      ⟨_, hp.1, rfl⟩ ⟨_, hp.2.1, rfl⟩ ⟨_, hp.2.2.1, rfl⟩ ⟨_, hp.2.2.2, rfl⟩
    exact ⟨.ints [r, g, b, a], ⟨ur, ug, ub, ua⟩, by simp only [getPixelImpl, kept, ← er, ← eg, ← eb, ← ea]⟩
  case h_10 =>
    obtain ⟨e1, e2, e3, e4⟩ := flt hp.1 hp.2.1 hp.2.2.1 hp.2.2.2
    exact ⟨.nums [_, _, _, _], ⟨e1, e2, e3, e4⟩, rfl⟩
  case h_11 v _ =>
    have e := lit_fin (L := L) (v := v) (abs_le.2 (by omega))
    obtain ⟨t, t1, t2, et⟩ := int v hp.1 hp.2 (by norm_num) (by norm_num) e e e trivial
    exact ⟨.ints [t], ⟨t1, t2⟩, by simp only [getPixelImpl, kept, et, litOne, lit_fin (L := L) (v := t) (abs_le.2 (by omega))]⟩
  case h_12 v _ =>
    have e := lit_fin (L := L) (v := v) (abs_le.2 (by have := hp.1; have := hp.2; omega))
    obtain ⟨t, t1, t2, et⟩ := int v hp.1 hp.2 (by norm_num) (by norm_num) e e e trivial
    exact ⟨.ints [t], ⟨t1, t2⟩, by simp only [getPixelImpl, kept, et, litOne, lit_fin (L := L) (v := t) (abs_le.2 (by omega))]⟩
  case h_13 v _ =>
    have e := lit_fin (L := L) (v := v) (abs_le.2 (by omega))
    obtain ⟨t, t1, t2, et⟩ := int v hp.1 hp.2 (by norm_num) (by norm_num) e e e trivial
    exact ⟨.ints [t], ⟨t1, t2⟩, by simp only [getPixelImpl, kept, et, litOne, lit_fin (L := L) (v := t) (abs_le.2 (by omega))]⟩
  case h_14 v _ =>
    have e := lit_fin (L := L) (v := v) (abs_le.2 (by have := hp.1; have := hp.2; omega))
    obtain ⟨t, t1, t2, et⟩ := int v hp.1 hp.2 (by norm_num) (by norm_num) e e e trivial
    exact ⟨.ints [t], ⟨t1, t2⟩, by simp only [getPixelImpl, kept, et, litOne, lit_fin (L := L) (v := t) (abs_le.2 (by omega))]⟩
  case h_15 =>
    obtain ⟨e1, -⟩ := flt hp hp hp single_one
    exact ⟨.nums [_], e1, by simp only [getPixelImpl, kept, litOne]⟩
  case h_16 v _ =>
    exact ⟨.nums [(s.apply (.fin 0) (.fin 1) ⟨v, v, v, .fin 1⟩).r], trivial, by simp only [getPixelImpl, kept, litOne]⟩
  case h_17 v w _ =>
    exact ⟨.nums [(s.apply (.fin 0) (.fin 1) ⟨v, w, .fin 0, .fin 1⟩).r,
      (s.apply (.fin 0) (.fin 1) ⟨v, w, .fin 0, .fin 1⟩).g], trivial, by simp only [getPixelImpl, kept, litOne, litZero]⟩

/-- Colours made of channels read from an image can be stored in it. -/
theorem swizzled_storable {f : IFormat} {p : Px Dbl} {c : Color Dbl} (s : Selection)
    (hp : PxOk (Arith.ieee L) f p) (hc : getPixelImpl (Arith.ieee L) f p = .ok c) :
    Keepable f (s.apply (.fin 0) (.fin 1) c) := by
  by_cases h : f = .RGB565
  · subst h
    unfold PxOk at hp
    split at hp <;> simp only [reduceCtorEq] at *
    simp only [getPixelImpl, Res.ok.injEq] at hc
    have hr : c.r ≠ .nan := by
      rw [← hc]
      exact normOf_fin (m := 31) (L := L) (by norm_num) (by norm_num) ⟨_, getField_upto _ 11 5, rfl⟩
    have hg : c.g ≠ .nan := by
      rw [← hc]
      exact normOf_fin (m := 63) (L := L) (by norm_num) (by norm_num) ⟨_, getField_upto _ 5 6, rfl⟩
    have hb : c.b ≠ .nan := by
      rw [← hc]
      exact normOf_fin (m := 31) (L := L) (by norm_num) (by norm_num) ⟨_, getField_upto _ 0 5, rfl⟩
    have ha : c.a ≠ .nan := by
      rw [← hc, litOne]
      exact fun h => by cases h
    have := apply_all (P := fun d => d ≠ .nan) s hr hg hb ha (fun h => by cases h) (fun h => by cases h)
    exact ⟨this.1, this.2.1, this.2.2.1⟩
  · obtain ⟨p', okp, gp⟩ := swizzled_px s hp hc h
    obtain ⟨q, eq, -⟩ := px_round (lawful_ieee L) okp gp
    rw [set_kept] at eq
    by_contra hn
    rw [set_undefined hn] at eq
    cases eq

/-- `swizzle` is defined for every image and selection; every pixel gets the selected channels, as far
as the format keeps them.  In all formats but `RGB565` they are the same numbers; in `RGB565`, whose
green channel is wider than the others, they are the nearest ones. -/
theorem C27_swizzle (hi : ImgOk (Arith.ieee L) i) (s : Selection) :
    ∃ j, i.swizzle (Arith.ieee L) s.r s.g s.b s.a = .ok j ∧ ImgOk (Arith.ieee L) j ∧ j.format = i.format ∧
      j.colorSpace = i.colorSpace ∧ j.bmp.width = i.bmp.width ∧ j.bmp.height = i.bmp.height ∧
      ∀ x y c, i.getPixel (Arith.ieee L) x y = .ok (some c) → ∃ d,
        j.getPixel (Arith.ieee L) x y = .ok (some d) ∧ ReadBack i.format (s.apply (.fin 0) (.fin 1) c) d ∧
        (i.format ≠ .RGB565 → d = kept (.fin 0) (.fin 1) i.format (s.apply (.fin 0) (.fin 1) c)) := by
  rw [swizzle_eq]
  obtain ⟨j, e, h1, h2, h3, h4, h5, h6⟩ := mapPixels_spec (lawful_ieee L) hi
    (f := s.apply (.fin 0) (.fin 1)) (by
      intro y x hy hx c hc
      obtain ⟨p, d, e, -⟩ := set_read (L := L) (swizzled_storable s (hi y x hy hx) hc)
      exact ⟨p, e⟩)
  refine ⟨j, e, h1, h2, h3, h4, h5, ?_⟩
  intro x y c hc
  obtain ⟨p, d, okp, gc, sp, gd, jd⟩ := mapPixels_get (lawful_ieee L) hi h1 h2 h4 h5 h6 hc
  refine ⟨d, jd, ?_, ?_⟩
  · obtain ⟨p', d', e1, -, e2, rb⟩ := set_read (L := L) (swizzled_storable s okp gc)
    rw [sp] at e1
    cases e1
    rw [gd] at e2
    cases e2
    exact rb
  · intro h
    obtain ⟨p', okp', gp'⟩ := swizzled_px s okp gc h
    obtain ⟨q, eq, -, gq⟩ := px_round (lawful_ieee L) okp' gp'
    rw [set_kept, sp] at eq
    cases eq
    rw [gd] at gq
    cases gq
    rfl

/-- The identity swizzle changes no pixel, in every format. -/
theorem C27_identity (hi : ImgOk (Arith.ieee L) i) :
    ∃ j, i.swizzle (Arith.ieee L) .Red .Green .Blue .Alpha = .ok j ∧
      ∀ x y, j.getPixel (Arith.ieee L) x y = i.getPixel (Arith.ieee L) x y := by
  obtain ⟨j, e, h1, h2, h3, h4, h5, h6⟩ := mapPixels_spec (lawful_ieee L) hi (f := id) (by
      intro y x hy hx c hc
      obtain ⟨p, ep, -⟩ := px_round (lawful_ieee L) (hi y x hy hx) hc
      exact ⟨p, ep⟩)
  refine ⟨j, ?_, ?_⟩
  · rw [← e]
    exact swizzle_eq i ⟨.Red, .Green, .Blue, .Alpha⟩
  · intro x y
    by_cases hin : x < i.bmp.width ∧ y < i.bmp.height
    · obtain ⟨c, ec⟩ := get_px (hi (i.bmp.height - y - 1) x (by omega) hin.1)
      have hc : i.getPixel (Arith.ieee L) x y = .ok (some c) := by
        rw [getPixel_in hin.1 hin.2, ec]
        rfl
      obtain ⟨p, d, okp, gc, sp, gd, jd⟩ := mapPixels_get (lawful_ieee L) hi h1 h2 h4 h5 h6 hc
      obtain ⟨q, eq, -, gq⟩ := px_round (lawful_ieee L) okp gc
      rw [show setPixelNoGrayscaleImpl (Arith.ieee L) i.format c = .ok p from sp] at eq
      cases eq
      rw [gd] at gq
      cases gq
      rw [jd, hc]
    · rw [Image.getPixel, Image.getPixel, if_pos (by omega), if_pos (by omega)]

/-- Two swizzles of an image with four channels are one.  Missing: formats that do not keep all
channels, for which the claim is false (`C27_fails_three_channels`), and selections that move a filled
alpha channel to another one or the reverse (`C27_fails_filled`). -/
theorem C27_compose_partial (hi : ImgOk (Arith.ieee L) i)
    (hf : i.format = .RGBA8 ∨ i.format = .RGBA16 ∨ i.format = .RGBAF) (s t : Selection) (hst : s.Composable t) :
    ∃ j k l, i.swizzle (Arith.ieee L) s.r s.g s.b s.a = .ok j ∧
      j.swizzle (Arith.ieee L) t.r t.g t.b t.a = .ok k ∧
      i.swizzle (Arith.ieee L) (s.followedBy t).r (s.followedBy t).g (s.followedBy t).b (s.followedBy t).a = .ok l ∧
      ∀ x y, k.getPixel (Arith.ieee L) x y = l.getPixel (Arith.ieee L) x y := by
  obtain ⟨j, ej, j1, j2, j3, j4, j5, j6⟩ := C27_swizzle hi s
  obtain ⟨k, ek, k1, k2, k3, k4, k5, k6⟩ := C27_swizzle j1 t
  obtain ⟨l, el, l1, l2, l3, l4, l5, l6⟩ := C27_swizzle hi (s.followedBy t)
  refine ⟨j, k, l, ej, ek, el, ?_⟩
  intro x y
  by_cases hin : x < i.bmp.width ∧ y < i.bmp.height
  · obtain ⟨c, ec⟩ := get_px (hi (i.bmp.height - y - 1) x (by omega) hin.1)
    have hc : i.getPixel (Arith.ieee L) x y = .ok (some c) := by
      rw [getPixel_in hin.1 hin.2, ec]
      rfl
    have hne : i.format ≠ .RGB565 := by rcases hf with h | h | h <;> rw [h] <;> decide
    have hk : ∀ c, kept (F32.fin 0) (F32.fin 1) i.format c = c := by
      rcases hf with h | h | h <;> rw [h] <;> exact fun _ => rfl
    obtain ⟨d, hd, -, ed⟩ := j6 x y c hc
    obtain ⟨d', hd', -, ed'⟩ := k6 x y d hd
    obtain ⟨d'', hd'', -, ed''⟩ := l6 x y c hc
    have ed := ed hne
    have ed' := ed' (by rw [j2]; exact hne)
    have ed'' := ed'' hne
    rw [hk] at ed ed''
    rw [j2, hk] at ed'
    rw [hd', hd'', ed', ed'', ed]
    refine congrArg (fun c => Res.ok (some c)) ?_
    obtain ⟨sr, sg, sb, sa⟩ := s
    obtain ⟨tr, tg, tb, ta⟩ := t
    obtain ⟨h1, h2, h3, h4⟩ := hst
    simp only at h1 h2 h3 h4
    simp only [Selection.apply, Selection.followedBy, Color.mk.injEq]
    have nonalpha (u : Channel) (hu : sa = .None → u ≠ .Alpha) :
        choose (⟨choose c (F32.fin 0) sr, choose c (F32.fin 0) sg, choose c (F32.fin 0) sb,
          choose c (F32.fin 1) sa⟩ : Color Dbl) (F32.fin 0) u =
        choose c (F32.fin 0) (Selection.through ⟨sr, sg, sb, sa⟩ u) := by
      cases u
      case Alpha =>
        by_cases h : sa = .None
        · exact absurd rfl (hu h)
        · cases sa <;> first | rfl | exact absurd rfl h
      all_goals rfl
    refine ⟨nonalpha tr (fun h => (h1 h).1), nonalpha tg (fun h => (h1 h).2.1),
      nonalpha tb (fun h => (h1 h).2.2), ?_⟩
    cases ta
    case Red => cases sr <;> first | exact absurd rfl (h2 rfl) | rfl
    case Green => cases sg <;> first | exact absurd rfl (h3 rfl) | rfl
    case Blue => cases sb <;> first | exact absurd rfl (h4 rfl) | rfl
    all_goals rfl
  · rw [Image.getPixel, Image.getPixel, if_pos (by omega), if_pos (by omega)]

/-- A format without alpha: red moved to alpha and back is lost. -/
theorem C27_fails_three_channels :
    ∃ (i j k l : Image Dbl) (s t : Selection), ImgOk (Arith.ieee L) i ∧ i.format = .RGB8 ∧ s.Composable t ∧
      i.swizzle (Arith.ieee L) s.r s.g s.b s.a = .ok j ∧ j.swizzle (Arith.ieee L) t.r t.g t.b t.a = .ok k ∧
      i.swizzle (Arith.ieee L) (s.followedBy t).r (s.followedBy t).g (s.followedBy t).b (s.followedBy t).a = .ok l ∧
      k.getPixel (Arith.ieee L) 0 0 ≠ l.getPixel (Arith.ieee L) 0 0 := by
  have hi : ImgOk (Arith.ieee L) (⟨.RGB8, .Linear, ⟨1, 1, fun _ _ => .ints [0, 0, 0]⟩⟩ : Image Dbl) := by
    intro y x _ _
    simp [PxOk, Upto]
  obtain ⟨j, ej, j1, j2, j3, j4, j5, j6⟩ := C27_swizzle hi ⟨.Red, .Green, .Blue, .Red⟩
  obtain ⟨k, ek, k1, k2, k3, k4, k5, k6⟩ := C27_swizzle j1 ⟨.Alpha, .Green, .Blue, .Alpha⟩
  obtain ⟨l, el, l1, l2, l3, l4, l5, l6⟩ := C27_swizzle hi
    (Selection.followedBy ⟨.Red, .Green, .Blue, .Red⟩ ⟨.Alpha, .Green, .Blue, .Alpha⟩)
  refine ⟨_, j, k, l, ⟨.Red, .Green, .Blue, .Red⟩, ⟨.Alpha, .Green, .Blue, .Alpha⟩, hi, rfl, ?_, ej, ek, el, ?_⟩
  · simp [Selection.Composable]
  · have hc : (⟨.RGB8, .Linear, ⟨1, 1, fun _ _ => .ints [0, 0, 0]⟩⟩ : Image Dbl).getPixel (Arith.ieee L) 0 0 =
        .ok (some ⟨(Arith.ieee L).fromNorm 255 0, (Arith.ieee L).fromNorm 255 0, (Arith.ieee L).fromNorm 255 0,
          (Arith.ieee L).lit 1⟩) := rfl
    have hz : (Arith.ieee L).fromNorm 255 0 = .fin 0 := by
      rw [fromNorm_nearest (by norm_num) (by norm_num) le_rfl (by norm_num)]
      simp only [Int.cast_zero, zero_div, ofQ_zero]
    rw [hz, litOne] at hc
    obtain ⟨d, hd, -, ed⟩ := j6 0 0 _ hc
    obtain ⟨d', hd', -, ed'⟩ := k6 0 0 d hd
    obtain ⟨d'', hd'', -, ed''⟩ := l6 0 0 _ hc
    have ed := ed (by decide)
    have ed' := ed' (by rw [j2]; decide)
    have ed'' := ed'' (by decide)
    rw [j2] at ed'
    rw [hd', hd'']
    intro h
    have hr : d'.r = d''.r := by cases h; rfl
    rw [ed', ed'', ed] at hr
    simp [kept, Selection.apply, choose, Selection.followedBy, Selection.through] at hr

/-- Alpha filled with 1 and moved to red is 1, but no single swizzle fills red with 1. -/
theorem C27_fails_filled :
    ∃ (i j k : Image Dbl) (s t : Selection), ImgOk (Arith.ieee L) i ∧ i.format = .RGBA8 ∧
      i.swizzle (Arith.ieee L) s.r s.g s.b s.a = .ok j ∧ j.swizzle (Arith.ieee L) t.r t.g t.b t.a = .ok k ∧
      ∀ (u : Selection) l, i.swizzle (Arith.ieee L) u.r u.g u.b u.a = .ok l →
        k.getPixel (Arith.ieee L) 0 0 ≠ l.getPixel (Arith.ieee L) 0 0 := by
  have hi : ImgOk (Arith.ieee L) (⟨.RGBA8, .Linear, ⟨1, 1, fun _ _ => .ints [0, 0, 0, 0]⟩⟩ : Image Dbl) := by
    intro y x _ _
    simp [PxOk, Upto]
  obtain ⟨j, ej, j1, j2, j3, j4, j5, j6⟩ := C27_swizzle hi ⟨.Red, .Green, .Blue, .None⟩
  obtain ⟨k, ek, k1, k2, k3, k4, k5, k6⟩ := C27_swizzle j1 ⟨.Alpha, .Green, .Blue, .Alpha⟩
  refine ⟨_, j, k, ⟨.Red, .Green, .Blue, .None⟩, ⟨.Alpha, .Green, .Blue, .Alpha⟩, hi, rfl, ej, ek, ?_⟩
  intro u l el'
  obtain ⟨l', el, l1, l2, l3, l4, l5, l6⟩ := C27_swizzle hi u
  rw [el'] at el
  cases el
  have hc : (⟨.RGBA8, .Linear, ⟨1, 1, fun _ _ => .ints [0, 0, 0, 0]⟩⟩ : Image Dbl).getPixel (Arith.ieee L) 0 0 =
      .ok (some ⟨(Arith.ieee L).fromNorm 255 0, (Arith.ieee L).fromNorm 255 0, (Arith.ieee L).fromNorm 255 0,
        (Arith.ieee L).fromNorm 255 0⟩) := rfl
  have hz : (Arith.ieee L).fromNorm 255 0 = .fin 0 := by
    rw [fromNorm_nearest (by norm_num) (by norm_num) le_rfl (by norm_num)]
    simp only [Int.cast_zero, zero_div, ofQ_zero]
  rw [hz] at hc
  obtain ⟨d, hd, -, ed⟩ := j6 0 0 _ hc
  obtain ⟨d', hd', -, ed'⟩ := k6 0 0 d hd
  obtain ⟨d'', hd'', -, ed''⟩ := l6 0 0 _ hc
  have ed := ed (by decide)
  have ed' := ed' (by rw [j2]; decide)
  have ed'' := ed'' (by decide)
  rw [j2] at ed'
  rw [hd', hd'']
  intro h
  have hr : d'.r = d''.r := by cases h; rfl
  rw [ed', ed'', ed] at hr
  obtain ⟨ur, ug, ub, ua⟩ := u
  cases ur <;> simp [kept, Selection.apply, choose] at hr

/-- The hypotheses are met by the 3 x 2 image and by selections that swap channels. -/
example : ImgOk (Arith.ieee L) Toy.rgba ∧ (Toy.rgba (N := Dbl)).format = .RGBA8 ∧
    Selection.Composable ⟨.Blue, .None, .Red, .Alpha⟩ ⟨.Alpha, .Red, .Green, .None⟩ :=
  ⟨Toy.rgba_ok _, rfl, by simp [Selection.Composable]⟩

end Cuttlefish
