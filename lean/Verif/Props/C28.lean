import Verif.Proofs.Pixels
import Verif.Proofs.ImageGeom
import Verif.Spec.ToyImage
/-
C28: pixel access is a checked array.

Stated about `Image.getPixel` and `Image.setPixel` with IEEE arithmetic.  `ReadBack`, `GreyBack` and
`Keepable` (`Verif/Spec/Pixels.lean`) say what each format keeps of a colour.
-/
namespace Cuttlefish
open Spec
variable {L : Libm} {i : Image Dbl}

/-- Reading is defined at all coordinates and finds a pixel exactly inside the image. -/
theorem C28_get (hi : ImgOk (Arith.ieee L) i) (x y : Nat) :
    ∃ r, i.getPixel (Arith.ieee L) x y = .ok r ∧ (r.isSome ↔ x < i.bmp.width ∧ y < i.bmp.height) := by
  by_cases h : x < i.bmp.width ∧ y < i.bmp.height
  · obtain ⟨c, e⟩ := get_px (hi (i.bmp.height - y - 1) x (by omega) h.1)
    refine ⟨some c, ?_, by simp [h]⟩
    rw [getPixel_in h.1 h.2, e]
    rfl
  · refine ⟨none, ?_, by simp only [Option.isSome_none, Bool.false_eq_true, false_iff]; exact h⟩
    rw [Image.getPixel, if_pos (by omega)]

/-- Writing outside of the image returns false and changes nothing. -/
theorem C28_set_outside {x y : Nat} (h : i.bmp.width ≤ x ∨ i.bmp.height ≤ y) (c : Color Dbl) (gray : Bool) :
    i.setPixel (Arith.ieee L) x y c gray = .ok (false, i) := by
  rw [Image.setPixel, if_pos h]

/-- The image `j` is `i` with another pixel at `(x, y)`, which reads as `d`. -/
def Spec.OnlyPixel (A : Arith Dbl) (i j : Image Dbl) (x y : Nat) (d : Color Dbl) : Prop :=
  j.format = i.format ∧ j.colorSpace = i.colorSpace ∧ j.bmp.width = i.bmp.width ∧
    j.bmp.height = i.bmp.height ∧ j.getPixel A x y = .ok (some d) ∧
    ∀ x' y', (x', y') ≠ (x, y) → j.getPixel A x' y' = i.getPixel A x' y'

theorem onlyPixel_upd {A : Arith Dbl} {x y : Nat} {p : Px Dbl} {d : Color Dbl} (hx : x < i.bmp.width)
    (hy : y < i.bmp.height) (e : getPixelImpl A i.format p = .ok d) :
    OnlyPixel A i { i with bmp := i.bmp.upd (i.bmp.height - y - 1) x p } x y d := by
  refine ⟨rfl, rfl, rfl, rfl, ?_, ?_⟩
  · rw [getPixel_in (i := { i with bmp := i.bmp.upd (i.bmp.height - y - 1) x p }) hx hy]
    simp [Bitmap.upd, e]
  · intro x' y' hne
    by_cases h : x' < i.bmp.width ∧ y' < i.bmp.height
    · rw [getPixel_in (i := { i with bmp := i.bmp.upd (i.bmp.height - y - 1) x p }) h.1 h.2,
        getPixel_in h.1 h.2]
      simp only [Bitmap.upd]
      rw [if_neg]
      rintro ⟨h1, h2⟩
      apply hne
      rw [h2, Prod.mk.injEq]
      omega
    · rw [Image.getPixel, Image.getPixel, if_pos (by simp only [Bitmap.upd]; omega), if_pos (by omega)]

theorem imgOk_upd {A : Arith Dbl} {r x : Nat} {p : Px Dbl} (hi : ImgOk A i) (hp : PxOk A i.format p) :
    ImgOk A { i with bmp := i.bmp.upd r x p } := by
  intro y' x' hy' hx'
  simp only [Bitmap.upd] at hy' hx' ⊢
  split
  · exact hp
  · exact hi y' x' hy' hx'

/-- Writing inside of the image with `convertGrayscale` false: returns true, changes only the
addressed pixel, which then reads as the written colour quantised to the format.  Missing: colours
with a NaN, or beyond the integer formats, for which the write is undefined. -/
theorem C28_set_red_partial (hi : ImgOk (Arith.ieee L) i) {x y : Nat} (hx : x < i.bmp.width)
    (hy : y < i.bmp.height) {c : Color Dbl} (hc : Keepable i.format c) :
    ∃ j d, i.setPixel (Arith.ieee L) x y c false = .ok (true, j) ∧ ImgOk (Arith.ieee L) j ∧
      OnlyPixel (Arith.ieee L) i j x y d ∧ ReadBack i.format c d := by
  obtain ⟨p, d, e, okp, g, rb⟩ := set_read (L := L) hc
  refine ⟨{ i with bmp := i.bmp.upd (i.bmp.height - y - 1) x p }, d, ?_, imgOk_upd hi okp,
    onlyPixel_upd hx hy g, rb⟩
  rw [Image.setPixel, if_neg (by omega)]
  simp [Image.set_ok (show i.bmp.height - y - 1 < i.bmp.height by omega) hx e]

/-- The colours excluded above are exactly the ones whose conversion to the pixel type is undefined. -/
theorem C28_set_undefined {x y : Nat} (hx : x < i.bmp.width) (hy : y < i.bmp.height) {c : Color Dbl}
    (hc : ¬ Keepable i.format c) : i.setPixel (Arith.ieee L) x y c false = .ub := by
  rw [Image.setPixel, if_neg (by omega)]
  simp [Image.set, set_undefined (L := L) hc]

/-- Writing back a colour that was read from the image changes no pixel. -/
theorem C28_write_back (hi : ImgOk (Arith.ieee L) i) {x y : Nat} {c : Color Dbl}
    (hc : i.getPixel (Arith.ieee L) x y = .ok (some c)) :
    ∃ j, i.setPixel (Arith.ieee L) x y c false = .ok (true, j) ∧
      ∀ x' y', j.getPixel (Arith.ieee L) x' y' = i.getPixel (Arith.ieee L) x' y' := by
  obtain ⟨r, e, hr⟩ := C28_get hi x y
  rw [hc] at e
  cases e
  obtain ⟨hx, hy⟩ := hr.1 rfl
  have hpx := hi (i.bmp.height - y - 1) x (by omega) hx
  rw [getPixel_in hx hy] at hc
  obtain ⟨c', e1, e2⟩ := Res.bind_eq_ok.1 hc
  cases e2
  obtain ⟨p, ep, -, gp⟩ := px_round (lawful_ieee L) hpx e1
  refine ⟨{ i with bmp := i.bmp.upd (i.bmp.height - y - 1) x p }, ?_, ?_⟩
  · rw [Image.setPixel, if_neg (by omega)]
    simp [Image.set_ok (show i.bmp.height - y - 1 < i.bmp.height by omega) hx ep]
  · intro x' y'
    obtain ⟨-, -, -, -, o1, o2⟩ := onlyPixel_upd (i := i) hx hy gp
    by_cases hne : (x', y') = (x, y)
    · cases hne
      rw [o1, getPixel_in hx hy, e1]
      rfl
    · exact o2 x' y' hne

/-- Writing with `convertGrayscale` true: in a grey format of a linear image the pixel then reads as
the luminance of the colour, quantised; in other formats as the colour.  Missing: `UInt16`, where the
conversion is to a signed type (`C28_fails_uint16`); grey pixels of sRGB images, whose luminance is
computed from the encoded channels (`C28_fails_srgb`); colours outside of -1 to 1 in grey formats. -/
theorem C28_set_gray_partial (hi : ImgOk (Arith.ieee L) i) {x y : Nat} (hx : x < i.bmp.width)
    (hy : y < i.bmp.height) {c : Color Dbl} :
    (isGrayscaleFormat i.format = false → i.format ≠ .UInt16 → Keepable i.format c →
      ∃ j d, i.setPixel (Arith.ieee L) x y c true = .ok (true, j) ∧ ImgOk (Arith.ieee L) j ∧
        OnlyPixel (Arith.ieee L) i j x y d ∧ ReadBack i.format c d) ∧
    (isGrayscaleFormat i.format = true → i.colorSpace = .Linear →
      ∀ r g b : ℚ, c.r = .fin r → c.g = .fin g → c.b = .fin b → |r| ≤ 1 → |g| ≤ 1 → |b| ≤ 1 →
      ∃ j d, i.setPixel (Arith.ieee L) x y c true = .ok (true, j) ∧ ImgOk (Arith.ieee L) j ∧
        OnlyPixel (Arith.ieee L) i j x y d ∧ GreyBack i.format (luma r g b) d) := by
  constructor
  · intro hg hu hc
    obtain ⟨p, d, e, okp, g, rb⟩ := set_read (L := L) hc
    have e' : setPixelImpl (Arith.ieee L) i.format c = .ok p := by
      rw [← e]
      revert hg hu
      cases i.format <;> simp [isGrayscaleFormat, setPixelImpl, setPixelNoGrayscaleImpl]
    refine ⟨{ i with bmp := i.bmp.upd (i.bmp.height - y - 1) x p }, d, ?_, imgOk_upd hi okp,
      onlyPixel_upd hx hy g, rb⟩
    rw [Image.setPixel, if_neg (by omega)]
    simp [hg, e', Image.put_ok (show i.bmp.height - y - 1 < i.bmp.height by omega) hx]
  · intro hg hl r g b er eg eb hr hg' hb
    obtain ⟨p, d, e, okp, gd, rb⟩ := setGrey_read (L := L) hg er eg eb hr hg' hb
    refine ⟨{ i with bmp := i.bmp.upd (i.bmp.height - y - 1) x p }, d, ?_, imgOk_upd hi okp,
      onlyPixel_upd hx hy gd, rb⟩
    rw [Image.setPixel, if_neg (by omega)]
    simp [hl, e, Image.put_ok (show i.bmp.height - y - 1 < i.bmp.height by omega) hx]

/-- In a `UInt16` image the value 40000 can be stored, but writing it with `convertGrayscale` true (the
default) is undefined: it is converted to `int16_t` first. -/
theorem C28_fails_uint16 (hf : i.format = .UInt16) {x y : Nat} (hx : x < i.bmp.width)
    (hy : y < i.bmp.height) : Keepable i.format ⟨.fin 40000, .fin 0, .fin 0, .fin 1⟩ ∧
      i.setPixel (Arith.ieee L) x y ⟨.fin 40000, .fin 0, .fin 0, .fin 1⟩ true = .ub := by
  constructor
  · rw [hf]
    exact ⟨40000, rfl, by norm_num, by norm_num⟩
  · rw [Image.setPixel, if_neg (by omega)]
    have ic : (Arith.ieee L).cast = F32.cast := rfl
    have hn : ¬ InRange (-2 ^ 15) (2 ^ 15 - 1) (.fin 40000) := by
      rintro ⟨q, e, -, h⟩
      cases e
      norm_num at h
    simp only [hf, isGrayscaleFormat, Bool.false_eq_true, and_false, if_false, if_true, Res.ok_bind, setPixelImpl, ic,
      cast_not_range (by norm_num) (by norm_num) hn, Res.ub_bind]

/-- In a grey sRGB image the conversion through linear space has no effect: the pixel that is stored
is the one stored in an image marked as linear, the luminance of the encoded channels. -/
theorem C28_fails_srgb {x y : Nat} {c : Color Dbl} {j k : Image Dbl} (hl : i.colorSpace = .Linear)
    (e : i.setPixel (Arith.ieee L) x y c true = .ok (true, k))
    (e' : { i with colorSpace := .sRGB }.setPixel (Arith.ieee L) x y c true = .ok (true, j)) :
    ∀ x' y', j.getPixel (Arith.ieee L) x' y' = k.getPixel (Arith.ieee L) x' y' := by
  by_cases hout : i.bmp.width ≤ x ∨ i.bmp.height ≤ y
  · rw [Image.setPixel, if_pos hout] at e
    cases e
  have hx : x < i.bmp.width := by omega
  have hr : i.bmp.height - y - 1 < i.bmp.height := by omega
  rw [Image.setPixel, if_neg hout] at e
  rw [Image.setPixel, if_neg (by exact hout)] at e'
  simp only [hl, reduceCtorEq, false_and, if_false, if_true, Res.ok_bind, Res.bind_eq_ok] at e
  obtain ⟨p, hp, k', hk, ek⟩ := e
  rw [Image.put_ok hr hx] at hk
  cases hk
  cases ek
  -- the image after the first store differs from `i` at the pixel only
  have hm' : ∃ (q : Px Dbl) (m : Image Dbl), (m.format = i.format ∧ m.bmp = i.bmp ∨
      m.format = i.format ∧ m.bmp = i.bmp.upd (i.bmp.height - y - 1) x q) ∧
      (do
        let p ← setPixelImpl (Arith.ieee L) m.format c
        let i ← m.put (i.bmp.height - y - 1) x p
        Res.ok (true, i)) = .ok (true, j) := by
    by_cases hg : isGrayscaleFormat i.format = true
    · simp only [hg, true_and, if_true] at e'
      obtain ⟨m, hm, e'⟩ := Res.bind_eq_ok.1 e'
      unfold Image.set at hm
      obtain ⟨q, -, hq⟩ := Res.bind_eq_ok.1 hm
      rw [Image.put_ok (by exact hr) (by exact hx)] at hq
      cases hq
      exact ⟨q, ⟨i.format, .sRGB, i.bmp.upd (i.bmp.height - y - 1) x q⟩, Or.inr ⟨rfl, rfl⟩, e'⟩
    · simp only [hg, true_and, if_true, Bool.false_eq_true, if_false, Res.ok_bind] at e'
      exact ⟨.ints [], ⟨i.format, .sRGB, i.bmp⟩, Or.inl ⟨rfl, rfl⟩, e'⟩
  obtain ⟨q, m, hm', e'⟩ := hm'
  obtain ⟨p', hp', e'⟩ := Res.bind_eq_ok.1 e'
  obtain ⟨j', hj, ej⟩ := Res.bind_eq_ok.1 e'
  have hmf : m.format = i.format := by rcases hm' with h | h <;> exact h.1
  rw [hmf, hp] at hp'
  cases hp'
  have hput : j' = { m with bmp := m.bmp.upd (i.bmp.height - y - 1) x p } := by
    have : m.put (i.bmp.height - y - 1) x p = .ok { m with bmp := m.bmp.upd (i.bmp.height - y - 1) x p } := by
      apply Image.put_ok
      · rcases hm' with h | h <;> rw [h.2] <;> exact hr
      · rcases hm' with h | h <;> rw [h.2] <;> exact hx
    rw [this] at hj
    cases hj
    rfl
  cases ej
  subst hput
  have hb : m.bmp.upd (i.bmp.height - y - 1) x p = i.bmp.upd (i.bmp.height - y - 1) x p := by
    rcases hm' with h | h
    · rw [h.2]
    · rw [h.2]
      simp only [Bitmap.upd, Bitmap.mk.injEq, true_and]
      funext y' x'
      split <;> rfl
  intro x' y'
  simp only [Image.getPixel, Image.get, hb, hmf]

/-- The hypotheses are met: a colour out of range is stored in the middle of the 3 x 2 image. -/
example : ImgOk (Arith.ieee L) Toy.rgba ∧ 1 < (Toy.rgba (N := Dbl)).bmp.width ∧
    1 < (Toy.rgba (N := Dbl)).bmp.height ∧
    Keepable (Toy.rgba (N := Dbl)).format ⟨.fin (1 / 3), .inf false, .fin (-2), .fin 1⟩ :=
  ⟨Toy.rgba_ok _, by simp [Toy.rgba], by simp [Toy.rgba], by simp [Toy.rgba, Keepable]⟩

/-- A grey image. -/
def Toy.gray (f : IFormat) (cs : ColorSpace) : Image Dbl := ⟨f, cs, ⟨2, 2, fun y x => .ints [50 * y + x]⟩⟩

example : ImgOk (Arith.ieee L) (Toy.gray .Gray8 .Linear) ∧ ImgOk (Arith.ieee L) (Toy.gray .UInt16 .Linear) ∧
    isGrayscaleFormat (Toy.gray .Gray8 .Linear).format = true := by
  refine ⟨?_, ?_, rfl⟩ <;>
  · intro y x hy hx
    simp only [Toy.gray] at hy hx ⊢
    simp only [PxOk, Upto]
    omega

end Cuttlefish
