import Verif.Props.C55
/-
C56: masks and shifts address the channels of 16-bit and 32-bit pixels.

Stated about the description `PixelInfo` that `createImpl` makes (`redMask()`, `redShift()`, ... of class `Image`).
`pixelWord` and `Val` are in `Verif/Spec/Picture.lean`.
-/
namespace Cuttlefish
open Spec
variable {N : Type}

theorem shift_field (w n s : ℕ) : (w &&& ((2 ^ n - 1) * 2 ^ s)) >>> s = w / 2 ^ s % 2 ^ n := by
  rw [and_field, Nat.shiftRight_eq_div_pow, Nat.mul_div_cancel _ (by positivity)]

/-- An image of 16-bit words is made of a bitmap of 16-bit words. -/
theorem words_of {A : Arith N} {FP : FromPalette N} (hF : PaletteColors FP) {b : FIBitmap N} (hd : Documented A b)
    {cs : ColorSpace} {i : Image N} {info : PixelInfo} (h : createImpl FP (some b) cs .Invalid = some (i, info))
    (hf : i.format = .RGB5 ∨ i.format = .RGB565) :
    b.type = .BITMAP ∧ b.bpp = 16 ∧ i = ⟨getFormat b, cs, b.pixels⟩ ∧ info = pixelInfo b (getFormat b) := by
  obtain ⟨b', hu, hv, e⟩ := createImpl_some.1 h
  simp only [Prod.mk.injEq] at e
  obtain ⟨rfl, rfl⟩ := e
  simp only at hf
  have hc : b.color ≠ .Palette := by
    intro hc
    rw [usedBitmap, if_pos hc] at hu
    split at hu
    · have D := hF.to32 b b' hc hu
      have : getFormat b' = .RGBA8 := by
        rw [getFormat, D.type]
        simp [D.bpp]
      simp [this] at hf
    · have D := hF.to24 b b' hc hu
      have : getFormat b' = .RGB8 := by
        rw [getFormat, D.type]
        simp [D.bpp]
      simp [this] at hf
  rw [usedBitmap, if_neg hc] at hu
  cases hu
  refine ⟨?_, ?_, rfl, rfl⟩
  · by_contra ht
    rw [getFormat] at hf
    cases h : b.type <;> simp_all
  · by_contra h16
    rw [getFormat] at hf
    cases h : b.type <;> simp [h] at hf
    rw [if_neg h16] at hf
    split at hf
    · simp at hf
    · split at hf
      · simp at hf
      · split at hf <;> simp at hf

/-- The red and the green of 16-bit pixels: the word of the pixel, masked and shifted, is the channel that `getPixel`
reads, as a fraction of its largest value.  Missing: blue (`C56_fails_blue`) and the colours of 32-bit pixels
(`C56_fails_shift`). -/
theorem C56_words_partial (A : Arith N) (FP : FromPalette N) (hF : PaletteColors FP) (b : FIBitmap N) (hd : Documented A b)
    (cs : ColorSpace) (i : Image N) (info : PixelInfo) (h : createImpl FP (some b) cs .Invalid = some (i, info))
    (hf : i.format = .RGB5 ∨ i.format = .RGB565) (y x : ℕ) (hy : y < i.bmp.height) (hx : x < i.bmp.width) :
    ∃ w c, pixelWord (i.bmp.px (i.bmp.height - 1 - y) x) = some w ∧ i.getPixel A x y = .ok (some c) ∧
      c.r = (Val.frac ((w &&& info.redMask) >>> info.redShift : ℕ) (info.redMask >>> info.redShift)).read A ∧
      c.g = (Val.frac ((w &&& info.greenMask) >>> info.greenShift : ℕ) (info.greenMask >>> info.greenShift)).read A := by
  obtain ⟨ht, h16, rfl, rfl⟩ := words_of hF hd h hf
  obtain ⟨hm, hp⟩ := hd.words ht h16
  simp only at hy hx hf ⊢
  obtain ⟨v, hv, e⟩ := hp (b.pixels.height - 1 - y) x (by omega) hx
  rw [getPixel_in hx hy]
  simp only
  rw [show b.pixels.height - y - 1 = b.pixels.height - 1 - y by omega, e]
  have r5 : (v &&& 0x7C00) >>> 10 = v / 2 ^ 10 % 2 ^ 5 := shift_field v 5 10
  have g5 : (v &&& 0x03E0) >>> 5 = v / 2 ^ 5 % 2 ^ 5 := shift_field v 5 5
  have r6 : (v &&& 0xF800) >>> 11 = v / 2 ^ 11 % 2 ^ 5 := shift_field v 5 11
  have g6 : (v &&& 0x07E0) >>> 5 = v / 2 ^ 5 % 2 ^ 6 := shift_field v 6 5
  rcases hm with hm | hm
  · simp only [Prod.mk.injEq] at hm
    obtain ⟨m1, m2, m3⟩ := hm
    have hff : getFormat b = .RGB5 := by simp [getFormat, ht, h16, m2]
    rw [hff]
    refine ⟨v, _, by simp [pixelWord], rfl, ?_, ?_⟩
    · simp [pixelInfo, m1, shiftOf, r5, Val.read, Arith.fromNorm, getField]
    · simp [pixelInfo, m2, shiftOf, g5, Val.read, Arith.fromNorm, getField]
  · simp only [Prod.mk.injEq] at hm
    obtain ⟨m1, m2, m3⟩ := hm
    have hff : getFormat b = .RGB565 := by simp [getFormat, ht, h16, m2]
    rw [hff]
    refine ⟨v, _, by simp [pixelWord], rfl, ?_, ?_⟩
    · simp [pixelInfo, m1, shiftOf, r6, Val.read, Arith.fromNorm, getField]
    · simp [pixelInfo, m2, shiftOf, g6, Val.read, Arith.fromNorm, getField]

/-- The alpha of 32-bit pixels, with or without a palette before: the word of the pixel, masked and shifted, is the alpha
that `getPixel` reads; the formats without alpha have no mask for it. -/
theorem C56_alpha (A : Arith N) (FP : FromPalette N) (hF : PaletteColors FP) (b : FIBitmap N) (hd : Documented A b)
    (cs : ColorSpace) (i : Image N) (info : PixelInfo) (h : createImpl FP (some b) cs .Invalid = some (i, info)) :
    (i.format ≠ .RGBA8 → info.alphaMask = 0) ∧
    (i.format = .RGBA8 → ∀ y x, y < i.bmp.height → x < i.bmp.width → ∃ w c,
      pixelWord (i.bmp.px (i.bmp.height - 1 - y) x) = some w ∧ i.getPixel A x y = .ok (some c) ∧
      c.a = (Val.frac ((w &&& info.alphaMask) >>> info.alphaShift : ℕ) (info.alphaMask >>> info.alphaShift)).read A) := by
  have hD : ∀ (f : Unit) (name : List UInt8) (b' : FIBitmap N), (Toy.oneFile b).load f name = some b' → Documented A b' := by
    rintro _ _ _ ⟨⟩
    exact hd
  have hok := (C55_proper A FP hF (Toy.oneFile b) hD [] cs i info h).2.2.1
  obtain ⟨b', hu, hv, e⟩ := createImpl_some.1 h
  simp only [Prod.mk.injEq] at e
  obtain ⟨rfl, rfl⟩ := e
  refine ⟨fun hf => by simp only at hf; simp [pixelInfo, hf], ?_⟩
  intro hf y x hy hx
  have hp := hok (b'.pixels.height - 1 - y) x (by simp only at hy ⊢; omega) hx
  rw [getPixel_in hx hy]
  simp only at hf hp hy hx ⊢
  rw [hf] at hp ⊢
  rw [show b'.pixels.height - y - 1 = b'.pixels.height - 1 - y by omega]
  generalize b'.pixels.px (b'.pixels.height - 1 - y) x = p at hp
  rcases p with (_ | ⟨v1, _ | ⟨v2, _ | ⟨v3, _ | ⟨v4, _ | ⟨v5, vs⟩⟩⟩⟩⟩) | vs <;> try exact absurd hp id
  obtain ⟨⟨_, _⟩, ⟨_, _⟩, ⟨_, _⟩, ⟨_, _⟩⟩ := hp
  refine ⟨_, _, rfl, rfl, ?_⟩
  have ha : ((v3.toNat + 2 ^ 8 * v2.toNat + 2 ^ 16 * v1.toNat + 2 ^ 24 * v4.toNat) &&& 0xFF000000) >>> 24 = v4.toNat := by
    have := shift_field (v3.toNat + 2 ^ 8 * v2.toNat + 2 ^ 16 * v1.toNat + 2 ^ 24 * v4.toNat) 8 24
    rw [show (2 ^ 8 - 1) * 2 ^ 24 = 0xFF000000 by norm_num] at this
    rw [this]
    omega
  have h4 : ((v4.toNat : ℕ) : ℤ) = v4 := Int.toNat_of_nonneg (by assumption)
  simp only [pixelInfo, if_true, ha, Val.read, Arith.fromNorm, h4]
  rw [show 4278190080 >>> 24 = 255 by decide]

/-- A bitmap of one pixel of 16 or 32 bits. -/
def Toy.onePixel (N : Type) (bpp r g b : ℕ) (p : Px N) : FIBitmap N :=
  ⟨.BITMAP, bpp, .RGB, false, r, g, b, fun _ => (0, 0, 0), fun _ => 0, ⟨1, 1, fun _ _ => p⟩⟩

theorem Toy.onePixel_16 {A : Arith N} {v : ℕ} (hv : v < 2 ^ 16) :
    Documented A (Toy.onePixel N 16 0xF800 0x07E0 0x001F (.ints [(v : ℤ)])) :=
  ⟨by simp [Toy.onePixel], by simp [Toy.onePixel], by simp [Toy.onePixel], by simp [Toy.onePixel], by simp [Toy.onePixel],
    by simp [Toy.onePixel], by simp [Toy.onePixel], by simp [Toy.onePixel],
    fun _ _ => ⟨.inr rfl, fun _ _ _ _ => ⟨v, hv, rfl⟩⟩, by simp [Toy.onePixel], by simp [Toy.onePixel]⟩

theorem Toy.onePixel_32 {A : Arith N} {r g b a : ℤ} (h : PxOk A .RGBA8 (.ints [r, g, b, a])) :
    Documented A (Toy.onePixel N 32 0x00FF0000 0x0000FF00 0x000000FF (.ints [r, g, b, a])) :=
  ⟨by simp [Toy.onePixel], by simp [Toy.onePixel], by simp [Toy.onePixel], by simp [Toy.onePixel], by simp [Toy.onePixel],
    by simp [Toy.onePixel], by simp [Toy.onePixel], by simp [Toy.onePixel], by simp [Toy.onePixel],
    fun _ _ => ⟨rfl, fun _ _ _ _ => h⟩, by simp [Toy.onePixel]⟩

/-- The full claim is false: the mask of blue is the one of green.  A green pixel of an RGB565 image has no blue, but
the mask and the shift for blue give something else. -/
theorem C56_fails_blue : ∃ (b : FIBitmap ℝ) (i : Image ℝ) (info : PixelInfo), Documented Arith.exact b ∧
    createImpl Toy.palettes (some b) .Linear .Invalid = some (i, info) ∧ i.format = .RGB565 ∧
    info.blueMask = info.greenMask ∧ i.getPixel Arith.exact 0 0 = .ok (some ⟨0, 1, 0, 1⟩) ∧
    pixelWord (i.bmp.px 0 0) = some 0x07E0 ∧ (0x07E0 &&& info.blueMask) >>> info.blueShift = 0x07E0 := by
  refine ⟨Toy.onePixel ℝ 16 0xF800 0x07E0 0x001F (.ints [((0x07E0 : ℕ) : ℤ)]), _, _, Toy.onePixel_16 (by norm_num), rfl, rfl, rfl,
    ?_, rfl, by decide +kernel⟩
  rw [getPixel_in (by simp [Toy.onePixel]) (by simp [Toy.onePixel])]
  simp [Toy.onePixel, getFormat, getPixelImpl, getField, Arith.fromNorm, Arith.exact]

/-- The full claim is false: the colours of 32-bit pixels are not shifted.  The red of a red pixel is 255, but its mask
and its shift give 255 * 2^16. -/
theorem C56_fails_shift : ∃ (b : FIBitmap ℝ) (i : Image ℝ) (info : PixelInfo), Documented Arith.exact b ∧
    createImpl Toy.palettes (some b) .Linear .Invalid = some (i, info) ∧ i.format = .RGBA8 ∧
    i.getPixel Arith.exact 0 0 = .ok (some ⟨1, 0, 0, 1⟩) ∧ pixelWord (i.bmp.px 0 0) = some 0xFFFF0000 ∧
    (0xFFFF0000 &&& info.redMask) >>> info.redShift = 0xFF0000 := by
  refine ⟨Toy.onePixel ℝ 32 0x00FF0000 0x0000FF00 0x000000FF (.ints [255, 0, 0, 255]), _, _, Toy.onePixel_32 ?_, rfl, rfl, ?_, rfl,
    by decide +kernel⟩
  · simp [PxOk, Upto]
  · rw [getPixel_in (by simp [Toy.onePixel]) (by simp [Toy.onePixel])]
    simp [Toy.onePixel, getFormat, getPixelImpl, Arith.fromNorm, Arith.exact]

/-- A 16-bit image and a 32-bit image that meet the hypotheses. -/
example : (∃ i info, createImpl Toy.palettes (some (Toy.onePixel ℝ 16 0xF800 0x07E0 0x001F (.ints [((0x07E0 : ℕ) : ℤ)])))
      .Linear .Invalid = some (i, info) ∧ i.format = .RGB565 ∧ i.bmp.width = 1) ∧
    ∃ i info, createImpl Toy.palettes (some (Toy.onePixel ℝ 32 0x00FF0000 0x0000FF00 0x000000FF (.ints [255, 0, 0, 255])))
      .Linear .Invalid = some (i, info) ∧ i.format = .RGBA8 ∧ i.bmp.height = 1 :=
  ⟨⟨_, _, rfl, rfl, rfl⟩, ⟨_, _, rfl, rfl, rfl⟩⟩

end Cuttlefish
