import Verif.Proofs.Resize
import Verif.Spec.Normal
import Verif.Spec.ToyImage
/-
C31: normal maps.

Safety is stated for every arithmetic, the values in exact arithmetic.  `Around`, `unit`, `apart` and
`toUnsigned` are in `Verif/Spec/Normal.lean`, `stored` is in `Verif/Spec/Exact.lean`.
-/
namespace Cuttlefish
open Spec
variable {N : Type}

/-- The model's rows and columns around a position are those of the specification. -/
theorem neighbours_eq {wrap : Bool} {n k : Nat} (hk : k < n) : neighbours wrap n k =
    (before wrap n k, after wrap n k, if wrap = false ∧ (k = 0 ∨ k + 1 = n) then 1 else 2) := by
  unfold neighbours before after
  by_cases h0 : k = 0 <;> by_cases h1 : k = n - 1
  · have h2 : k + 1 = n := by omega
    have h3 : n = 1 := by omega
    subst h0 h3
    cases wrap <;> rfl
  · have h2 : k + 1 ≠ n := by omega
    have h3 : ¬ 0 = n - 1 := by omega
    have h4 : ¬ 1 = n := by omega
    cases wrap <;> simp [h0, h3, h4]
  · have h2 : k + 1 = n := by omega
    cases wrap <;> simp [h0, ← h1, h2]
  · have h2 : k + 1 ≠ n := by omega
    cases wrap <;> simp [h0, h1, h2]

theorem around_lt {wrap : Bool} {n k : Nat} (hk : k < n) : before wrap n k < n ∧ after wrap n k < n := by
  unfold before after
  constructor <;> split <;> try split
  all_goals omega

theorem apart_eq (wrap : Bool) (n k : Nat) :
    (((if wrap = false ∧ (k = 0 ∨ k + 1 = n) then 1 else 2 : ℕ)) : ℝ) = apart wrap n k := by
  unfold apart
  split <;> simp

/-- Counted from the other side. -/
theorem around_flip {wrap : Bool} {n y : Nat} (hy : y < n) :
    before wrap n (n - y - 1) = n - after wrap n y - 1 ∧ after wrap n (n - y - 1) = n - before wrap n y - 1 ∧
      apart wrap n (n - y - 1) = apart wrap n y := by
  have e1 : n - y - 1 = 0 ↔ y + 1 = n := by omega
  have e2 : n - y - 1 + 1 = n ↔ y = 0 := by omega
  refine ⟨?_, ?_, ?_⟩
  · unfold before after
    by_cases h : y + 1 = n
    · rw [if_pos (e1.2 h), if_pos h]
      cases wrap <;> simp <;> omega
    · rw [if_neg (by rwa [e1]), if_neg h]
      omega
  · unfold before after
    by_cases h : y = 0
    · rw [if_pos (e2.2 h), if_pos h]
      cases wrap <;> simp <;> omega
    · rw [if_neg (by rwa [e2]), if_neg h]
      omega
  · unfold apart
    simp only [e1, e2, or_comm]

/-- Every read of `createNormalMap` is inside of the image, for every arithmetic, size, option and
height: computing the normal of a pixel is always defined. -/
theorem C31_reads {A : Arith N} {i : Image N} (hi : ImgOk A i) (o : NormalOptions) (height : N) {x y : Nat}
    (hx : x < i.bmp.width) (hy : y < i.bmp.height) : ∃ c, normalAt A i o height y x = .ok c := by
  obtain ⟨y1, y2⟩ := around_lt (wrap := o.wrapY) hy
  obtain ⟨x1, x2⟩ := around_lt (wrap := o.wrapX) hx
  obtain ⟨c1, e1, -⟩ := Image.get_ok hi y1 hx
  obtain ⟨c2, e2, -⟩ := Image.get_ok hi y2 hx
  obtain ⟨c3, e3, -⟩ := Image.get_ok hi hy x1
  obtain ⟨c4, e4, -⟩ := Image.get_ok hi hy x2
  unfold normalAt
  simp only [neighbours_eq hx, neighbours_eq hy, e1, e2, e3, e4, Res.ok_bind]
  split <;> exact ⟨_, rfl⟩

/-- A unit vector with a positive third coordinate. -/
theorem unit_length (dx dy : ℝ) : (unit dx dy).r ^ 2 + (unit dx dy).g ^ 2 + (unit dx dy).b ^ 2 = 1 ∧
    0 < (unit dx dy).b ∧ -1 < (unit dx dy).r ∧ (unit dx dy).r < 1 := by
  have h0 : 0 < dx ^ 2 + dy ^ 2 + 1 := by positivity
  have hs : 0 < √(dx ^ 2 + dy ^ 2 + 1) := Real.sqrt_pos.2 h0
  have h1 : (unit dx dy).r ^ 2 + (unit dx dy).g ^ 2 + (unit dx dy).b ^ 2 = 1 := by
    simp only [unit, div_pow, Real.sq_sqrt h0.le]
    field_simp
  have h2 : 0 < (unit dx dy).b := by
    simp only [unit]
    positivity
  have h3 : (unit dx dy).r ^ 2 < 1 := by nlinarith [sq_nonneg (unit dx dy).g, pow_pos h2 2]
  have h4 := abs_lt.1 ((sq_lt_one_iff_abs_lt_one _).1 h3)
  exact ⟨h1, h2, h4.1, h4.2⟩

/-- What the code computes for a pixel is the normal of the specification. -/
theorem normal_eq {i : Image ℝ} (hi : ImgOk Arith.exact i) (o : NormalOptions) (height : ℝ) {x y : Nat}
    (hx : x < i.bmp.width) (hy : y < i.bmp.height) :
    ∃ left right up down, Around i o.wrapX o.wrapY x y left right up down ∧
      normalAt Arith.exact i o height (i.bmp.height - y - 1) x =
        .ok (if o.keepSign then unit ((left - right) * height / apart o.wrapX i.bmp.width x)
            ((down - up) * height / apart o.wrapY i.bmp.height y)
          else onColor toUnsigned (unit ((left - right) * height / apart o.wrapX i.bmp.width x)
            ((down - up) * height / apart o.wrapY i.bmp.height y))) := by
  obtain ⟨y1, y2⟩ := around_lt (wrap := o.wrapY) hy
  obtain ⟨x1, x2⟩ := around_lt (wrap := o.wrapX) hx
  obtain ⟨f1, f2, f3⟩ := around_flip (wrap := o.wrapY) hy
  have read {a b : Nat} (ha : a < i.bmp.width) (hb : b < i.bmp.height) :
      ∃ c, i.get Arith.exact (i.bmp.height - b - 1) a = .ok c ∧ i.getPixel Arith.exact a b = .ok (some c) := by
    obtain ⟨c, e1, e2⟩ := Image.get_ok hi (show i.bmp.height - b - 1 < i.bmp.height by omega) ha
    refine ⟨c, e1, ?_⟩
    rw [getPixel_in ha hb, e2]
    rfl
  obtain ⟨cd, ed, gd⟩ := read hx y2
  obtain ⟨cu, eu, gu⟩ := read hx y1
  obtain ⟨cl, el, gl⟩ := read x1 hy
  obtain ⟨cr, er, gr⟩ := read x2 hy
  refine ⟨cl.r, cr.r, cu.r, cd.r, ⟨⟨cl, gl, rfl⟩, ⟨cr, gr, rfl⟩, ⟨cu, gu, rfl⟩, cd, gd, rfl⟩, ?_⟩
  unfold normalAt
  simp only [neighbours_eq hx, neighbours_eq (show i.bmp.height - y - 1 < i.bmp.height by omega), f1, f2,
    ed, eu, el, er, Res.ok_bind, exact_lit, Rat.cast_natCast, apart_eq, f3]
  have half : ((0.5 : ℚ) : ℝ) = 1 / 2 := by norm_num
  simp only [Arith.exact, half, Rat.cast_one, ← sq]
  split
  · rfl
  · simp only [onColor, toUnsigned, unit]
    congr 2 <;> ring

/-- Storing a colour with `setPixelImpl`. -/
theorem exact_store_grey {f : IFormat} (hf : f ≠ .Invalid) {c : Color ℝ} (h1 : -1 < c.r) (h2 : c.r < 1) :
    ∃ p, setPixelImpl Arith.exact f c = .ok p ∧ PxOk Arith.exact f p ∧
      getPixelImpl Arith.exact f p = .ok (stored f (toGrey f c)) := by
  have w0 : whole c.r = 0 := by
    unfold whole
    split
    · rw [Int.floor_eq_iff]
      norm_num
      constructor <;> linarith
    · rw [Int.ceil_eq_iff]
      norm_num
      constructor <;> linarith
  have fit (hg : (toGrey f c).r = c.r ∨ intRange f = none) : Fitting f (toGrey f c) := by
    refine ⟨hf, fun lo hi h => ?_⟩
    rcases hg with hg | hg
    · rw [hg, w0]
      cases f <;> simp only [intRange, reduceCtorEq, Option.some.injEq, Prod.mk.injEq] at h <;>
        obtain ⟨rfl, rfl⟩ := h <;> norm_num
    · rw [hg] at h
      cases h
  have grey : Arith.exact.toGrayscale c.r c.g c.b = 0.2126 * c.r + 0.7152 * c.g + 0.0722 * c.b := by
    unfold Arith.toGrayscale
    simp only [Arith.exact]
    norm_num
    ring
  cases f
  case Invalid => exact absurd rfl hf
  case Gray8 | Gray16 | Float | Double =>
    obtain ⟨p, e1, e2, e3⟩ := exact_store (fit (Or.inr rfl))
    refine ⟨p, ?_, e2, e3⟩
    rw [← e1]
    simp only [setPixelImpl, setPixelNoGrayscaleImpl, grey, toGrey]
  case UInt16 =>
    obtain ⟨p, e1, e2, e3⟩ := exact_store (fit (Or.inl rfl))
    refine ⟨p, ?_, e2, e3⟩
    rw [← e1]
    simp only [setPixelImpl, setPixelNoGrayscaleImpl, toGrey, cast_whole, w0]
    rfl
  all_goals
    obtain ⟨p, e1, e2, e3⟩ := exact_store (fit (Or.inl rfl))
    exact ⟨p, e1, e2, e3⟩

/-- `createNormalMap` is defined for every image, option, height and format; either there is no memory
or every pixel of the result is the stored unit normal of the surface, which has a positive third
coordinate. -/
theorem C31_normals {FI : FreeImage ℝ} (LF : LawfulFI Arith.exact FI) {i : Image ℝ} (hi : ImgOk Arith.exact i)
    (o : NormalOptions) (height : ℝ) {dst : IFormat} (hdst : dst ≠ .Invalid) :
    ∃ r, i.createNormalMap Arith.exact FI o height dst = .ok r ∧ ∀ j, r = some j → ImgOk Arith.exact j ∧
      j.format = dst ∧ j.colorSpace = i.colorSpace ∧ j.bmp.width = i.bmp.width ∧ j.bmp.height = i.bmp.height ∧
      ∀ x y, x < i.bmp.width → y < i.bmp.height → ∃ left right up down n,
        Around i o.wrapX o.wrapY x y left right up down ∧
        n = unit ((left - right) * height / apart o.wrapX i.bmp.width x)
          ((down - up) * height / apart o.wrapY i.bmp.height y) ∧
        n.r ^ 2 + n.g ^ 2 + n.b ^ 2 = 1 ∧ 0 < n.b ∧
        j.getPixel Arith.exact x y =
          .ok (some (stored dst (toGrey dst (if o.keepSign then n else onColor toUnsigned n)))) := by
  unfold Image.createNormalMap
  cases hn : Image.new FI dst i.bmp.width i.bmp.height i.colorSpace with
  | none => exact ⟨none, rfl, by simp⟩
  | some new =>
    obtain ⟨n1, n2, n3, n4, -⟩ := new_ok LF hn
    obtain ⟨j, e, h1, h2, h3, h4, h5⟩ := write_grid (dst := new) (h := i.bmp.height) (w := i.bmp.width)
      (q := fun y x => (y, x))
      (P := fun l x p => PxOk Arith.exact dst p ∧ ∀ y, y < i.bmp.height → l = i.bmp.height - y - 1 →
        ∃ left right up down, Around i o.wrapX o.wrapY x y left right up down ∧
        getPixelImpl Arith.exact dst p = .ok (stored dst (toGrey dst (if o.keepSign then
          unit ((left - right) * height / apart o.wrapX i.bmp.width x)
          ((down - up) * height / apart o.wrapY i.bmp.height y) else onColor toUnsigned
          (unit ((left - right) * height / apart o.wrapX i.bmp.width x)
          ((down - up) * height / apart o.wrapY i.bmp.height y))))))
      (body := fun y x new => do
        let c ← normalAt Arith.exact i o height y x
        let p ← setPixelImpl Arith.exact dst c
        new.put y x p) (by
        intro l hl x hx d df dw dh dp
        obtain ⟨left, right, up, down, ar, en⟩ := normal_eq hi o height hx
          (show i.bmp.height - l - 1 < i.bmp.height by omega)
        rw [show i.bmp.height - (i.bmp.height - l - 1) - 1 = l by omega] at en
        generalize hu : unit ((left - right) * height / apart o.wrapX i.bmp.width x)
          ((down - up) * height / apart o.wrapY i.bmp.height (i.bmp.height - l - 1)) = u at *
        have hr : -1 < (if o.keepSign then u else onColor toUnsigned u).r ∧
            (if o.keepSign then u else onColor toUnsigned u).r < 1 := by
          obtain ⟨-, -, b1, b2⟩ := unit_length ((left - right) * height / apart o.wrapX i.bmp.width x)
            ((down - up) * height / apart o.wrapY i.bmp.height (i.bmp.height - l - 1))
          rw [hu] at b1 b2
          split
          · exact ⟨b1, b2⟩
          · simp only [onColor, toUnsigned]
            constructor <;> linarith
        obtain ⟨p, e1, e2, e3⟩ := exact_store_grey hdst hr.1 hr.2
        refine ⟨p, ⟨e2, ?_⟩, ?_⟩
        · intro y hy hly
          have : y = i.bmp.height - l - 1 := by omega
          subst this
          exact ⟨left, right, up, down, ar, by rw [hu]; exact e3⟩
        · rw [en, Res.ok_bind, e1, Res.ok_bind]
          exact Image.put_ok (i := d) (y := l) (x := x) (by omega) (by omega) _)
      (by intro y _ x _ y' _ x' _ h; simpa using h)
    refine ⟨some j, congrArg (fun r => r >>= fun d => Res.ok (some d)) e, ?_⟩
    rintro _ ⟨⟩
    refine ⟨?_, h1.trans n1, h2.trans n2, h3.trans n3, h4.trans n4, ?_⟩
    · intro y x hy hx
      rw [h1, n1]
      exact (h5 y (by omega) x (by omega)).1
    · intro x y hx hy
      obtain ⟨left, right, up, down, ar, e⟩ := (h5 (i.bmp.height - y - 1) (by omega) x hx).2 y hy rfl
      refine ⟨left, right, up, down, _, ar, rfl, (unit_length _ _).1, (unit_length _ _).2.1, ?_⟩
      rw [getPixel_in (by omega) (by omega), h4, n4, h1, n1, e]
      rfl

/-- A constant height map gives the straight-up normal everywhere: (0, 0, 1), or (1/2, 1/2, 1) if the sign
is not kept. -/
theorem C31_constant {FI : FreeImage ℝ} (LF : LawfulFI Arith.exact FI) {i : Image ℝ} (hi : ImgOk Arith.exact i)
    (o : NormalOptions) (height : ℝ) {dst : IFormat} (hdst : dst ≠ .Invalid) {v : ℝ}
    (hc : ∀ x y c, i.getPixel Arith.exact x y = .ok (some c) → c.r = v) {j : Image ℝ}
    (hj : i.createNormalMap Arith.exact FI o height dst = .ok (some j)) {x y : Nat} (hx : x < i.bmp.width)
    (hy : y < i.bmp.height) :
    j.getPixel Arith.exact x y = .ok (some (stored dst (toGrey dst
      (if o.keepSign then ⟨0, 0, 1, 1⟩ else ⟨1 / 2, 1 / 2, 1, 1⟩)))) := by
  obtain ⟨r, e, hr⟩ := C31_normals LF hi o height hdst
  rw [hj] at e
  cases e
  obtain ⟨-, -, -, -, -, hp⟩ := hr j rfl
  obtain ⟨left, right, up, down, n, ⟨⟨c1, g1, rfl⟩, ⟨c2, g2, rfl⟩, ⟨c3, g3, rfl⟩, c4, g4, rfl⟩, rfl, -, -, e⟩ :=
    hp x y hx hy
  have hu : unit ((c1.r - c2.r) * height / apart o.wrapX i.bmp.width x)
      ((c4.r - c3.r) * height / apart o.wrapY i.bmp.height y) = ⟨0, 0, 1, 1⟩ := by
    rw [hc _ _ _ g1, hc _ _ _ g2, hc _ _ _ g3, hc _ _ _ g4, sub_self, zero_mul, zero_div, zero_div, unit]
    norm_num
  rw [e, hu]
  have : onColor toUnsigned ⟨0, 0, 1, 1⟩ = ⟨1 / 2, 1 / 2, 1, 1⟩ := by
    simp only [onColor, toUnsigned]
    norm_num
  rw [this]

theorem ofQ_huge {q : ℚ} (h : RepD q) (hq : 2 ^ 1024 ≤ |q|) : Dbl.ofQ q = .inf (q < 0) := by
  rw [Dbl.ofQ, rneD_exact h, if_pos hq]

/-- In IEEE arithmetic large heights overflow: with the height 2^600 the normal of a step from 0 to 1 is
not a unit vector, its third coordinate is 0.  (`sqrt` of infinity is infinity.) -/
theorem C31_fails_overflow (L : Libm) (hs : L.sqrt (.inf false) = .inf false) :
    ∃ (i : Image Dbl) (q : ℚ) (n : Color Dbl), ImgOk (Arith.ieee L) i ∧
      (∀ x y c, i.getPixel (Arith.ieee L) x y = .ok (some c) → c.r = .fin 0 ∨ c.r = .fin 1) ∧
      normalAt (Arith.ieee L) i ⟨true, false, false⟩ (.fin q) 0 0 = .ok n ∧
      n.r = .fin 0 ∧ n.g = .fin 0 ∧ n.b = .fin 0 := by
  have o1 : Dbl.ofQ 1 = .fin 1 := ofQ_one
  have rep (e : ℕ) : RepD ((2 : ℚ) ^ e) := ⟨1, e, by norm_num, by omega, by simp⟩
  have repn : RepD (-(2 : ℚ) ^ 600) := ⟨-1, 600, by norm_num, by norm_num, by norm_num⟩
  have m1 : Dbl.ofQ (-(2 : ℚ) ^ 600) = .fin (-(2 : ℚ) ^ 600) := by
    rw [Dbl.ofQ, rneD_exact repn, if_neg]
    rw [abs_neg, abs_of_pos (by positivity), not_le]
    exact pow_lt_pow_right₀ (by norm_num) (by norm_num)
  have m2 : Dbl.ofQ ((2 : ℚ) ^ 1200) = .inf false := by
    have h0 : (0 : ℚ) < 2 ^ 1200 := by positivity
    rw [ofQ_huge (rep 1200) (by
      rw [abs_of_pos h0]
      exact pow_le_pow_right₀ (by norm_num) (by norm_num))]
    simp only [not_lt.2 h0.le, decide_false]
  have mn : Dbl.ofQ (-1) = .fin (-1) := by
    have := ofQ_int (n := -1) (by norm_num)
    simpa using this
  refine ⟨⟨.Double, .Linear, ⟨2, 1, fun _ x => .nums [if x = 0 then .fin 0 else .fin 1]⟩⟩, 2 ^ 600,
    ⟨.fin 0, .fin 0, .fin 0, .fin 1⟩, ?_, ?_, ?_, rfl, rfl, rfl⟩
  · intro y x _ _
    simp [PxOk]
  · intro x y c h
    obtain ⟨-, -, h⟩ := getPixel_some h
    simp only [getPixelImpl, Res.ok.injEq] at h
    rw [← h]
    by_cases hx : x = 0
    · left; simp [hx]
    · right; simp [hx]
  · have g0 : (⟨.Double, .Linear, ⟨2, 1, fun _ x => .nums [if x = 0 then .fin 0 else .fin 1]⟩⟩ : Image Dbl).get
        (Arith.ieee L) 0 0 = .ok ⟨.fin 0, .fin 0, .fin 0, (Arith.ieee L).lit 1⟩ := rfl
    have g1 : (⟨.Double, .Linear, ⟨2, 1, fun _ x => .nums [if x = 0 then .fin 0 else .fin 1]⟩⟩ : Image Dbl).get
        (Arith.ieee L) 0 1 = .ok ⟨.fin 1, .fin 1, .fin 1, (Arith.ieee L).lit 1⟩ := rfl
    have n0 : neighbours false 1 0 = (0, 0, 1) := rfl
    have n1 : neighbours false 2 0 = (0, 1, 1) := rfl
    unfold normalAt
    simp only [n0, n1, g0, g1, Res.ok_bind, if_true]
    have e1 : (0 : ℚ) + -0 = 0 := by norm_num
    have e2 : (0 : ℚ) + -1 = -1 := by norm_num
    have e3 : (-1 : ℚ) * 2 ^ 600 = -2 ^ 600 := by norm_num
    have e4 : -(2 : ℚ) ^ 600 * -2 ^ 600 = 2 ^ 1200 := by rw [neg_mul_neg, ← pow_add]
    have n10 : ¬ (1 : ℚ) = 0 := one_ne_zero
    simp only [Arith.ieee, F32.neg, F32.addWith, F32.mulWith, F32.divWith, Nat.cast_one, o1, e1, e2, e3, e4, mn,
      ofQ_zero, zero_mul, if_neg n10, div_one, zero_div, m1, m2, hs]

/-- Images of one pixel and larger ones meet the hypotheses, and the maps exist. -/
example : LawfulFI Arith.exact (Toy.fi Arith.exact true) ∧ ImgOk Arith.exact (Toy.rgba : Image ℝ) ∧
    ∃ j, (Toy.rgba : Image ℝ).createNormalMap Arith.exact (Toy.fi Arith.exact true) ⟨true, true, false⟩ 2 .RGBF =
      .ok (some j) := by
  refine ⟨Toy.fi_exact true, Toy.rgba_ok _, ?_⟩
  obtain ⟨r, e, -⟩ := C31_normals (Toy.fi_exact true) (Toy.rgba_ok _) ⟨true, true, false⟩ 2 (dst := .RGBF) (by simp)
  cases r with
  | some j => exact ⟨j, e⟩
  | none =>
    obtain ⟨_, -, h⟩ := Res.bind_eq_ok.1 e
    cases h

example : ImgOk Arith.exact (⟨.Float, .Linear, ⟨1, 1, fun _ _ => .nums [0.5]⟩⟩ : Image ℝ) ∧
    ∀ x y c, (⟨.Float, .Linear, ⟨1, 1, fun _ _ => .nums [0.5]⟩⟩ : Image ℝ).getPixel Arith.exact x y =
      .ok (some c) → c.r = 0.5 := by
  constructor
  · intro y x _ _
    simp [PxOk, Arith.exact]
  · intro x y c h
    obtain ⟨-, -, h⟩ := getPixel_some h
    cases h
    rfl

end Cuttlefish
