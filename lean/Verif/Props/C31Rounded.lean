import Verif.Props.C31
import Verif.Proofs.NormalIeee
import Verif.Proofs.ToneIeee
import Verif.Props.C48Rounded
import Verif.Spec.ToyPow
/-
C31 with the rounding of doubles.

`unit`, `AroundDoubles`, `apart` and `toUnsigned` are in `Verif/Spec/Normal.lean`, `RoundedSqrt` in `Verif/Spec/Sqrt.lean`,
`NearChannels` and `halfStep` in `Verif/Spec/Near.lean`, `shown` in `Verif/Spec/Convert.lean`.
-/
namespace Cuttlefish
open Spec
variable {Lm : Libm}

/-- The normal for the four heights around a pixel. -/
theorem normal_near (Q : RoundedSqrt Lm) {left right up down h : ℚ} (hl : |left| ≤ 2 ^ 32) (hr : |right| ≤ 2 ^ 32)
    (hu : |up| ≤ 2 ^ 32) (hd : |down| ≤ 2 ^ 32) (hh : |h| ≤ 2 ^ 64) {kx ky : ℕ} (hx : kx = 1 ∨ kx = 2) (hy : ky = 1 ∨ ky = 2) :
    ∃ dx dy z r g b : ℚ,
      (Arith.ieee Lm).div ((Arith.ieee Lm).mul ((Arith.ieee Lm).sub (.fin left) (.fin right)) (.fin h))
        ((Arith.ieee Lm).lit kx) = .fin dx ∧
      (Arith.ieee Lm).div ((Arith.ieee Lm).mul ((Arith.ieee Lm).sub (.fin down) (.fin up)) (.fin h))
        ((Arith.ieee Lm).lit ky) = .fin dy ∧
      (Arith.ieee Lm).sqrt ((Arith.ieee Lm).add ((Arith.ieee Lm).add ((Arith.ieee Lm).mul (.fin dx) (.fin dx))
        ((Arith.ieee Lm).mul (.fin dy) (.fin dy))) ((Arith.ieee Lm).lit 1)) = .fin z ∧
      (Arith.ieee Lm).div (.fin dx) (.fin z) = .fin r ∧ (Arith.ieee Lm).div (.fin dy) (.fin z) = .fin g ∧
      (Arith.ieee Lm).div ((Arith.ieee Lm).lit 1) (.fin z) = .fin b ∧
      |r| ≤ 1 ∧ |g| ≤ 1 ∧ 1 / 2 ^ 110 ≤ b ∧ b ≤ 1 ∧
      |(r : ℝ) - (unit ((left - right) * h / kx) ((down - up) * h / ky)).r| ≤ 1 / 2 ^ 45 ∧
      |(g : ℝ) - (unit ((left - right) * h / kx) ((down - up) * h / ky)).g| ≤ 1 / 2 ^ 45 ∧
      |(b : ℝ) - (unit ((left - right) * h / kx) ((down - up) * h / ky)).b| ≤ 1 / 2 ^ 45 := by
  have up' {q : ℚ} (h : |q| ≤ 2 ^ 32) : |q| ≤ 2 ^ 100 := pow_up h (by norm_num)
  have hh' : |h| ≤ 2 ^ 100 := pow_up hh (by norm_num)
  obtain ⟨dx, ex, rx, bx, nx⟩ := slope_near (Lm := Lm) hx (up' hl) (up' hr) hh'
  obtain ⟨dy, ey, ry, byy, ny⟩ := slope_near (Lm := Lm) hy (up' hd) (up' hu) hh'
  obtain ⟨z, ez, rz, z1, zx, zy, nz⟩ := length_near Q rx ry bx byy
  have exact_small {a b : ℚ} {k : ℕ} (hk : k = 1 ∨ k = 2) (ha : |a| ≤ 2 ^ 32) (hb : |b| ≤ 2 ^ 32) :
      |((a : ℝ) - b) * h / k| ≤ 2 ^ 97 := by
    have ha : |(a : ℝ)| ≤ 2 ^ 32 := by exact_mod_cast ha
    have hb : |(b : ℝ)| ≤ 2 ^ 32 := by exact_mod_cast hb
    have hh : |(h : ℝ)| ≤ 2 ^ 64 := by exact_mod_cast hh
    rw [abs_div, abs_mul, Nat.abs_cast]
    refine (div_le_self (by positivity) (by rcases hk with rfl | rfl <;> norm_num)).trans ?_
    calc |(a : ℝ) - b| * |(h : ℝ)| ≤ (2 ^ 32 + 2 ^ 32) * 2 ^ 64 := by
          gcongr
          exact (abs_sub _ _).trans (add_le_add ha hb)
      _ = _ := by norm_num
  have sx := exact_small hx hl hr
  have sy := exact_small hy hd hu
  generalize ((left : ℝ) - right) * h / kx = X at *
  generalize ((down : ℝ) - up) * h / ky = Y at *
  have T1 : 1 ≤ √((dx : ℝ) ^ 2 + dy ^ 2 + 1) := Real.one_le_sqrt.2 (by nlinarith [sq_nonneg (dx : ℝ), sq_nonneg (dy : ℝ)])
  have S1 : 1 ≤ √(X ^ 2 + Y ^ 2 + 1) := Real.one_le_sqrt.2 (by nlinarith [sq_nonneg X, sq_nonneg Y])
  have SX : |X| ≤ √(X ^ 2 + Y ^ 2 + 1) := Real.abs_le_sqrt (by nlinarith [sq_nonneg Y])
  have SY : |Y| ≤ √(X ^ 2 + Y ^ 2 + 1) := Real.abs_le_sqrt (by nlinarith [sq_nonneg X])
  obtain ⟨m1, m2, m3⟩ := unit_move (x := X) (y := Y) (x' := dx) (y' := dy) (e := 1 / 2 ^ 49)
    (by norm_num at nx ⊢; linarith) (by norm_num at ny ⊢; linarith)
  obtain ⟨r, er, r1, r2⟩ := quotient_near (Lm := Lm) z1 zx T1 nz
  obtain ⟨g, eg, g1, g2⟩ := quotient_near (Lm := Lm) z1 zy T1 nz
  obtain ⟨b, eb, b1, b2⟩ := quotient_near (Lm := Lm) (d := 1) z1 (by rwa [abs_one]) T1 nz
  have low : 1 / 2 ^ 110 ≤ b := by
    have zpos : 0 < z := by linarith
    have top : (z : ℝ) ≤ 2 ^ 110 := by
      have t : √((dx : ℝ) ^ 2 + dy ^ 2 + 1) ≤ |(dx : ℝ)| + |(dy : ℝ)| + 1 := by
        refine Real.sqrt_le_iff.2 ⟨by positivity, ?_⟩
        rw [← sq_abs (dx : ℝ), ← sq_abs (dy : ℝ)]
        nlinarith [mul_nonneg (abs_nonneg (dx : ℝ)) (abs_nonneg (dy : ℝ)), abs_nonneg (dx : ℝ), abs_nonneg (dy : ℝ)]
      have t1 := abs_sub_abs_le_abs_sub (dx : ℝ) X
      have t2 := abs_sub_abs_le_abs_sub (dy : ℝ) Y
      have t3 := (abs_le.1 nz).2
      norm_num at nx ny sx sy t3 ⊢
      linarith
    have top : z ≤ 2 ^ 110 := by exact_mod_cast top
    have eb' : (Arith.ieee Lm).div (.fin 1) (.fin z) = .fin (rneD (1 / z)) := by
      simp only [Arith.ieee, F32.divWith]
      rw [if_neg zpos.ne', ofQ_small]
      rw [abs_of_pos (by positivity)]
      exact ((div_le_one zpos).2 z1).trans (by norm_num)
    rw [eb'] at eb
    cases eb
    refine rneD_ge_of ⟨1, -110, by norm_num, by norm_num, by norm_num [zpow_neg]⟩ ?_
    exact one_div_le_one_div_of_le zpos top
  refine ⟨dx, dy, z, r, g, b, ex, ey, ez, er, eg, ?_, r1, g1, low, (abs_le.1 b1).2, ?_, ?_, ?_⟩
  · rw [show (Arith.ieee Lm).lit 1 = .fin 1 from ofQ_one, eb]
  · unfold unit
    dsimp only
    have t := abs_add_le ((r : ℝ) - dx / √((dx : ℝ) ^ 2 + dy ^ 2 + 1)) (dx / √((dx : ℝ) ^ 2 + dy ^ 2 + 1) - X / √(X ^ 2 + Y ^ 2 + 1))
    rw [sub_add_sub_cancel] at t
    norm_num at t m1 m2 m3 r2 ⊢
    linarith
  · unfold unit
    dsimp only
    have t := abs_add_le ((g : ℝ) - dy / √((dx : ℝ) ^ 2 + dy ^ 2 + 1)) (dy / √((dx : ℝ) ^ 2 + dy ^ 2 + 1) - Y / √(X ^ 2 + Y ^ 2 + 1))
    rw [sub_add_sub_cancel] at t
    norm_num at t m1 m2 m3 g2 ⊢
    linarith
  · unfold unit
    dsimp only
    rw [Rat.cast_one] at b2
    have t := abs_add_le ((b : ℝ) - 1 / √((dx : ℝ) ^ 2 + dy ^ 2 + 1)) (1 / √((dx : ℝ) ^ 2 + dy ^ 2 + 1) - 1 / √(X ^ 2 + Y ^ 2 + 1))
    rw [sub_add_sub_cancel] at t
    norm_num at t m1 m2 m3 b2 ⊢
    linarith

/-- From signed to unsigned. -/
theorem unsigned_near {v : ℚ} (h : |v| ≤ 1) : ∃ m : ℚ,
    (Arith.ieee Lm).add ((Arith.ieee Lm).mul (.fin v) ((Arith.ieee Lm).lit 0.5)) ((Arith.ieee Lm).lit 0.5) = .fin m ∧
      0 ≤ m ∧ m ≤ 1 ∧ |(m : ℝ) - toUnsigned v| ≤ 1 / 2 ^ 51 := by
  have rh : RepD (1 / 2) := ⟨1, -1, by norm_num, by norm_num, by norm_num [zpow_neg]⟩
  have eh : (Arith.ieee Lm).lit 0.5 = .fin (1 / 2) := by
    show Dbl.ofQ 0.5 = _
    rw [show (0.5 : ℚ) = 1 / 2 by norm_num, ofQ_small (by norm_num [abs_le]), rneD_exact rh]
  rw [eh]
  have b1 : |v * (1 / 2)| ≤ 1 / 2 := by
    rw [abs_mul, abs_of_pos (by norm_num : (0 : ℚ) < 1 / 2)]
    linarith
  have b2 := abs_le.1 (rneD_abs_le rh b1)
  have s0 : 0 ≤ rneD (v * (1 / 2)) + 1 / 2 := by linarith [b2.1]
  have s1 : rneD (v * (1 / 2)) + 1 / 2 ≤ 1 := by linarith [b2.2]
  refine ⟨rneD (rneD (v * (1 / 2)) + 1 / 2), ?_, (unit_round s0 s1).1, (unit_round s0 s1).2, ?_⟩
  · show F32.addWith Dbl.ofQ (Dbl.ofQ (v * (1 / 2))) (.fin (1 / 2)) = _
    rw [ofQ_small (b1.trans (by norm_num))]
    show Dbl.ofQ (rneD (v * (1 / 2)) + 1 / 2) = _
    rw [ofQ_small (by rw [abs_of_nonneg s0]; linarith)]
  · have e1 := round_real (v * (1 / 2))
    have e2 := rneD_unit s0 (by linarith)
    have hv : |(v : ℝ)| ≤ 1 := by exact_mod_cast h
    unfold toUnsigned
    push_cast at e1 e2
    rw [abs_mul, abs_of_pos (by norm_num : (0 : ℝ) < 1 / 2)] at e1
    have t := abs_add_le ((rneD (rneD (v * (1 / 2)) + 1 / 2) : ℝ) - (rneD (v * (1 / 2)) + 1 / 2)) (rneD (v * (1 / 2)) - v * (1 / 2))
    have e : (rneD (rneD (v * (1 / 2)) + 1 / 2) : ℝ) - (rneD (v * (1 / 2)) + 1 / 2) + (rneD (v * (1 / 2)) - v * (1 / 2)) =
        rneD (rneD (v * (1 / 2)) + 1 / 2) - (v / 2 + 1 / 2) := by ring
    rw [e] at t
    norm_num at t e1 e2 ⊢
    linarith

/-- All red channels of the image are finite and at most 2^32 in size. -/
def Spec.LimitedReds (L : Libm) (i : Image Dbl) : Prop :=
  ∀ c, DoubleColors L i c → ∃ q : ℚ, c.r = .fin q ∧ |q| ≤ 2 ^ 32

/-- What is computed for a pixel. -/
theorem normalAt_near (Q : RoundedSqrt Lm) {i : Image Dbl} (hi : ImgOk (Arith.ieee Lm) i) (hr : LimitedReds Lm i)
    (o : NormalOptions) {h : ℚ} (hh : |h| ≤ 2 ^ 64) {x y : ℕ} (hx : x < i.bmp.width) (hy : y < i.bmp.height) :
    ∃ left right up down : ℚ, AroundDoubles Lm i o.wrapX o.wrapY x y left right up down ∧
      ∃ (r g b : ℚ) (n : Color ℝ), n = unit ((left - right) * h / apart o.wrapX i.bmp.width x)
          ((down - up) * h / apart o.wrapY i.bmp.height y) ∧
        |r| ≤ 1 ∧ |g| ≤ 1 ∧ 1 / 2 ^ 110 ≤ b ∧ b ≤ 1 ∧ |(r : ℝ) - n.r| ≤ 1 / 2 ^ 45 ∧ |(g : ℝ) - n.g| ≤ 1 / 2 ^ 45 ∧
        |(b : ℝ) - n.b| ≤ 1 / 2 ^ 45 ∧
        normalAt (Arith.ieee Lm) i o (.fin h) (i.bmp.height - y - 1) x =
          .ok (if o.keepSign then ⟨.fin r, .fin g, .fin b, .fin 1⟩ else
            ⟨(Arith.ieee Lm).add ((Arith.ieee Lm).mul (.fin r) ((Arith.ieee Lm).lit 0.5)) ((Arith.ieee Lm).lit 0.5),
              (Arith.ieee Lm).add ((Arith.ieee Lm).mul (.fin g) ((Arith.ieee Lm).lit 0.5)) ((Arith.ieee Lm).lit 0.5),
              (Arith.ieee Lm).add ((Arith.ieee Lm).mul (.fin b) ((Arith.ieee Lm).lit 0.5)) ((Arith.ieee Lm).lit 0.5),
              .fin 1⟩) := by
  obtain ⟨y1, y2⟩ := around_lt (wrap := o.wrapY) hy
  obtain ⟨x1, x2⟩ := around_lt (wrap := o.wrapX) hx
  obtain ⟨f1, f2, f3⟩ := around_flip (wrap := o.wrapY) hy
  have read {a b : Nat} (ha : a < i.bmp.width) (hb : b < i.bmp.height) :
      ∃ c q, i.get (Arith.ieee Lm) (i.bmp.height - b - 1) a = .ok c ∧ i.getPixel (Arith.ieee Lm) a b = .ok (some c) ∧
        c.r = .fin q ∧ |q| ≤ 2 ^ 32 := by
    obtain ⟨c, e1, e2⟩ := Image.get_ok hi (show i.bmp.height - b - 1 < i.bmp.height by omega) ha
    have e : i.getPixel (Arith.ieee Lm) a b = .ok (some c) := by
      rw [getPixel_in ha hb, e2]
      rfl
    obtain ⟨q, hq⟩ := hr c ⟨_, _, e⟩
    exact ⟨c, q, e1, e, hq⟩
  obtain ⟨cd, qd, ed, gd, rd, bd⟩ := read hx y2
  obtain ⟨cu, qu, eu, gu, ru, bu⟩ := read hx y1
  obtain ⟨cl, ql, el, gl, rl, bl⟩ := read x1 hy
  obtain ⟨cr, qr, er, gr, rr, br⟩ := read x2 hy
  have k (wrap : Bool) (n k : ℕ) : (if wrap = false ∧ (k = 0 ∨ k + 1 = n) then 1 else 2 : ℕ) = 1 ∨
      (if wrap = false ∧ (k = 0 ∨ k + 1 = n) then 1 else 2 : ℕ) = 2 := by
    split
    · exact Or.inl rfl
    · exact Or.inr rfl
  obtain ⟨dx, dy, z, r, g, b, e1, e2, e3, e4, e5, e6, k1, k2, k3, k4, k5, k6, k7⟩ := normal_near Q bl br bu bd hh
    (k o.wrapX i.bmp.width x) (k o.wrapY i.bmp.height (i.bmp.height - y - 1))
  rw [apart_eq, apart_eq, f3] at k5 k6 k7
  refine ⟨ql, qr, qu, qd, ⟨⟨cl, gl, rl⟩, ⟨cr, gr, rr⟩, ⟨cu, gu, ru⟩, cd, gd, rd⟩, r, g, b, _, rfl, k1, k2, k3, k4, k5, k6, k7, ?_⟩
  unfold normalAt
  simp only [neighbours_eq hx, neighbours_eq (show i.bmp.height - y - 1 < i.bmp.height by omega), f1, f2,
    ed, eu, el, er, Res.ok_bind]
  rw [rd, ru, rl, rr, e1, e2, e3, e4, e5, e6, show (Arith.ieee Lm).lit 1 = .fin 1 from ofQ_one]
  split <;> rfl

/-- The loop over the pixels. -/
theorem normal_loop {FI : FreeImage Dbl} (F : LawfulFI (Arith.ieee Lm) FI) {i : Image Dbl} {o : NormalOptions} {h : Dbl}
    {dst : IFormat} (hdst : dst ≠ .Invalid) (P : ℕ → ℕ → Px Dbl → Prop)
    (hp : ∀ x y, x < i.bmp.width → y < i.bmp.height → ∃ c p,
      normalAt (Arith.ieee Lm) i o h (i.bmp.height - y - 1) x = .ok c ∧ setPixelImpl (Arith.ieee Lm) dst c = .ok p ∧ P x y p) :
    ∃ r, i.createNormalMap (Arith.ieee Lm) FI o h dst = .ok r ∧ (r = none → FI.alloc dst i.bmp.width i.bmp.height = none) ∧
      ∀ j, r = some j → j.format = dst ∧ j.colorSpace = i.colorSpace ∧ j.bmp.width = i.bmp.width ∧
        j.bmp.height = i.bmp.height ∧ ∀ x y, x < i.bmp.width → y < i.bmp.height → P x y (j.bmp.px (i.bmp.height - y - 1) x) := by
  unfold Image.createNormalMap
  cases hn : Image.new FI dst i.bmp.width i.bmp.height i.colorSpace with
  | none =>
    refine ⟨none, rfl, fun _ => ?_, by simp⟩
    unfold Image.new at hn
    revert hn
    cases FI.alloc dst i.bmp.width i.bmp.height <;> simp [hdst]
  | some new =>
    obtain ⟨n1, n2, n3, n4, -⟩ := new_ok F hn
    obtain ⟨j, e, h1, h2, h3, h4, h5⟩ := write_grid (dst := new) (h := i.bmp.height) (w := i.bmp.width)
      (q := fun y x => (y, x)) (P := fun l x p => P x (i.bmp.height - l - 1) p)
      (body := fun y x new => do
        let c ← normalAt (Arith.ieee Lm) i o h y x
        let p ← setPixelImpl (Arith.ieee Lm) dst c
        new.put y x p) (by
        intro l hl x hx d df dw dh dp
        obtain ⟨c, p, e1, e2, k⟩ := hp x (i.bmp.height - l - 1) hx (by omega)
        rw [show i.bmp.height - (i.bmp.height - l - 1) - 1 = l by omega] at e1
        refine ⟨p, k, ?_⟩
        rw [e1, Res.ok_bind, e2, Res.ok_bind]
        exact Image.put_ok (i := d) (y := l) (x := x) (by omega) (by omega) _)
      (by intro y _ x _ y' _ x' _ h; simpa using h)
    refine ⟨some j, congrArg (fun r => r >>= fun d => Res.ok (some d)) e, by simp, ?_⟩
    rintro _ ⟨⟩
    refine ⟨h1.trans n1, h2.trans n2, h3.trans n3, h4.trans n4, ?_⟩
    intro x y hx hy
    have := h5 (i.bmp.height - y - 1) (by omega) x hx
    rwa [show i.bmp.height - (i.bmp.height - y - 1) - 1 = y by omega] at this

/-- Storing the normal, with the formula for the brightness. -/
theorem store_near {f : IFormat} (hf : Tonal f) {c : Color Dbl} (hc : UnitColor c) {c' : Color ℝ}
    (hn : NearChannels (1 / 2 ^ 44) c c') : ∃ p d, setPixelImpl (Arith.ieee Lm) f c = .ok p ∧
      getPixelImpl (Arith.ieee Lm) f p = .ok d ∧ UnitColor d ∧
      NearChannels (halfStep f + 1 / 10 ^ 7) d (shown f (toGrey f c')) := by
  have weaken {c : Color Dbl} {d : Color ℝ} (h : NearChannels (halfStep f + 1 / 10 ^ 9 + 3 / 10 ^ 8) c d) :
      NearChannels (halfStep f + 1 / 10 ^ 7) c d := by
    have (v : Dbl) (x : ℝ) (h : NearReal (halfStep f + 1 / 10 ^ 9 + 3 / 10 ^ 8) v x) : NearReal (halfStep f + 1 / 10 ^ 7) v x := by
      obtain ⟨q, e, h⟩ := h
      exact ⟨q, e, h.trans (by norm_num; linarith)⟩
    exact ⟨this _ _ h.1, this _ _ h.2.1, this _ _ h.2.2.1, this _ _ h.2.2.2⟩
  have up' {v : Dbl} {x : ℝ} (h : NearReal (1 / 2 ^ 44) v x) : NearReal (1 / 10 ^ 9) v x := by
    obtain ⟨q, e, h⟩ := h
    exact ⟨q, e, h.trans (by norm_num)⟩
  by_cases hb : Brightness f
  · obtain ⟨⟨r, er, hr⟩, ⟨g, eg, hg⟩, ⟨b, eb, hb'⟩, ha⟩ := unit_iff.1 hc
    obtain ⟨z, ez, z0, z1, hz⟩ := gray_near (Lm := Lm) hr hg hb'
    obtain ⟨⟨r', er', nr⟩, ⟨g', eg', ng⟩, ⟨b', eb', nb⟩, na⟩ := hn
    rw [er] at er'
    rw [eg] at eg'
    rw [eb] at eb'
    cases er'
    cases eg'
    cases eb'
    have hs : setPixelImpl (Arith.ieee Lm) f c = setPixelNoGrayscaleImpl (Arith.ieee Lm) f ⟨.fin z, .fin z, .fin z, c.a⟩ := by
      rw [← ez, ← er, ← eg, ← eb]
      rcases hb with rfl | rfl | rfl | rfl <;> rfl
    have near : |(z : ℝ) - (0.2126 * c'.r + 0.7152 * c'.g + 0.0722 * c'.b)| ≤ 1 / 10 ^ 9 := by
      unfold luminance at hz
      rw [abs_le] at *
      norm_num at hz nr ng nb ⊢
      constructor <;> linarith [hz.1, hz.2, nr.1, nr.2, ng.1, ng.2, nb.1, nb.2]
    obtain ⟨p, d, e1, e2, k1, k2⟩ := shown_near (Lm := Lm) (c := ⟨.fin z, .fin z, .fin z, c.a⟩)
      (c' := ⟨0.2126 * c'.r + 0.7152 * c'.g + 0.0722 * c'.b, 0.2126 * c'.r + 0.7152 * c'.g + 0.0722 * c'.b,
        0.2126 * c'.r + 0.7152 * c'.g + 0.0722 * c'.b, c'.a⟩) (e := 1 / 10 ^ 9) hf
      (unit_iff.2 ⟨⟨z, rfl, z0, z1⟩, ⟨z, rfl, z0, z1⟩, ⟨z, rfl, z0, z1⟩, ha⟩) (by norm_num)
      ⟨⟨z, rfl, near⟩, ⟨z, rfl, near⟩, ⟨z, rfl, near⟩, up' na⟩
    refine ⟨p, d, hs.trans e1, e2, k1, ?_⟩
    have := weaken k2
    unfold shown at this ⊢
    rw [if_pos hb] at this ⊢
    rcases hb with rfl | rfl | rfl | rfl <;> exact this
  · obtain ⟨p, d, e1, e2, k1, k2⟩ := shown_near (Lm := Lm) (e := 1 / 10 ^ 9) hf hc (by norm_num)
      ⟨up' hn.1, up' hn.2.1, up' hn.2.2.1, up' hn.2.2.2⟩
    refine ⟨p, d, ?_, e2, k1, ?_⟩
    · rw [← e1]
      simp only [Tonal, List.mem_cons, List.not_mem_nil, or_false] at hf
      rcases hf with rfl | rfl | rfl | rfl | rfl | rfl | rfl | rfl | rfl | rfl | rfl | rfl <;>
        first | rfl | exact absurd (by simp [Brightness]) hb
    · have hg : toGrey f c' = c' := by
        unfold toGrey
        split <;> first | rfl | exact absurd (by simp [Brightness]) hb
      rw [hg]
      exact weaken k2

/-- A normal map of a height image of doubles without signs: it is defined for all sizes, all its colours are from 0 to 1, and
every pixel is within half a step of the format and 1e-7 of the unit vector at right angles to the surface, mapped to [0, 1]
(its luminance, for formats that have only a brightness). -/
theorem C31_unsigned_partial (Q : RoundedSqrt Lm) {FI : FreeImage Dbl} (F : LawfulFI (Arith.ieee Lm) FI) {i : Image Dbl}
    (hi : ImgOk (Arith.ieee Lm) i) (hr : LimitedReds Lm i) {o : NormalOptions} (ho : o.keepSign = false) {h : ℚ}
    (hh : |h| ≤ 2 ^ 64) {dst : IFormat} (hf : Tonal dst) :
    ∃ r, i.createNormalMap (Arith.ieee Lm) FI o (.fin h) dst = .ok r ∧
      (r = none → FI.alloc dst i.bmp.width i.bmp.height = none) ∧
      ∀ j, r = some j → j.format = dst ∧ j.colorSpace = i.colorSpace ∧ j.bmp.width = i.bmp.width ∧
        j.bmp.height = i.bmp.height ∧ UnitImage Lm j ∧
        ∀ x y, x < i.bmp.width → y < i.bmp.height → ∃ (left right up down : ℚ) (d : Color Dbl),
          AroundDoubles Lm i o.wrapX o.wrapY x y left right up down ∧ j.getPixel (Arith.ieee Lm) x y = .ok (some d) ∧
          NearChannels (halfStep dst + 1 / 10 ^ 7) d (shown dst (toGrey dst (onColor toUnsigned
            (unit ((left - right) * h / apart o.wrapX i.bmp.width x)
              ((down - up) * h / apart o.wrapY i.bmp.height y))))) := by
  obtain ⟨r, e, h0, h1⟩ := normal_loop F (h := .fin h) (o := o) (dst := dst) (i := i) (by rintro rfl; simp [Tonal] at hf)
    (fun x y p => ∃ (left right up down : ℚ) (d : Color Dbl), AroundDoubles Lm i o.wrapX o.wrapY x y left right up down ∧
      getPixelImpl (Arith.ieee Lm) dst p = .ok d ∧ UnitColor d ∧
      NearChannels (halfStep dst + 1 / 10 ^ 7) d (shown dst (toGrey dst (onColor toUnsigned
            (unit ((left - right) * h / apart o.wrapX i.bmp.width x)
              ((down - up) * h / apart o.wrapY i.bmp.height y)))))) (by
      intro x y hx hy
      obtain ⟨left, right, up, down, ar, r, g, b, n, en, b1, b2, b3, b4, n1, n2, n3, e⟩ := normalAt_near Q hi hr o hh hx hy
      rw [ho, if_neg Bool.false_ne_true] at e
      obtain ⟨mr, er, r0, r1, kr⟩ := unsigned_near (Lm := Lm) b1
      obtain ⟨mg, eg, g0, g1, kg⟩ := unsigned_near (Lm := Lm) b2
      obtain ⟨mb, eb, b0, b1, kb⟩ := unsigned_near (Lm := Lm) (v := b)
        (abs_le.2 ⟨by linarith [show (0 : ℚ) ≤ 1 / 2 ^ 110 by positivity], b4⟩)
      rw [er, eg, eb] at e
      have move {m v : ℚ} {w : ℝ} (h : |(m : ℝ) - toUnsigned v| ≤ 1 / 2 ^ 51) (k : |(v : ℝ) - w| ≤ 1 / 2 ^ 45) :
          |(m : ℝ) - toUnsigned w| ≤ 1 / 2 ^ 44 := by
        unfold toUnsigned at *
        rw [abs_le] at *
        norm_num at h k ⊢
        constructor <;> linarith [h.1, h.2, k.1, k.2]
      obtain ⟨p, d, e1, e2, k1, k2⟩ := store_near (Lm := Lm) (c := ⟨.fin mr, .fin mg, .fin mb, .fin 1⟩)
        (c' := onColor toUnsigned n) hf
        (unit_iff.2 ⟨⟨mr, rfl, r0, r1⟩, ⟨mg, rfl, g0, g1⟩, ⟨mb, rfl, b0, b1⟩, unit_one⟩)
        ⟨⟨mr, rfl, move kr n1⟩, ⟨mg, rfl, move kg n2⟩, ⟨mb, rfl, move kb n3⟩, 1, rfl, by
          rw [en]
          simp [onColor, unit]⟩
      exact ⟨_, p, e, e1, left, right, up, down, d, ar, e2, k1, en ▸ k2⟩)
  refine ⟨r, e, h0, ?_⟩
  intro j hj
  obtain ⟨a1, a2, a3, a4, a5⟩ := h1 j hj
  refine ⟨a1, a2, a3, a4, ?_, ?_⟩
  · rintro c ⟨x, y, hc⟩
    obtain ⟨d1, d2, d3⟩ := getPixel_some hc
    rw [a3] at d1
    rw [a4] at d2 d3
    obtain ⟨-, -, -, -, d, -, e2, k, -⟩ := a5 x y d1 d2
    rw [a1, e2] at d3
    cases d3
    exact k
  · intro x y hx hy
    obtain ⟨left, right, up, down, d, ar, e2, -, k⟩ := a5 x y hx hy
    refine ⟨left, right, up, down, d, ar, ?_, k⟩
    rw [getPixel_in (by omega) (by omega), a1, a4, e2]
    rfl

/-- Rounding a number from -1 to 1 to single precision. -/
theorem single_signed {z : ℚ} (h : |z| ≤ 1) :
    ∃ s : ℚ, Dbl.single (.fin z) = .fin s ∧ |s| ≤ 1 ∧ |(s : ℝ) - z| ≤ 3 / 10 ^ 8 := by
  have neg : SingleBound (-1) := ⟨⟨-1, 0, by norm_num, by norm_num, by norm_num⟩, by norm_num⟩
  obtain ⟨s, e, s0, s1⟩ := ranged_single neg unit_single_one ⟨z, rfl, (abs_le.1 h).1, (abs_le.1 h).2⟩
  refine ⟨s, e, abs_le.2 ⟨s0, s1⟩, ?_⟩
  have e' : F32.round z = .fin s := e
  unfold F32.round at e'
  split at e'
  · cases e'
  cases e'
  have := rne_abs (q := z) (e := -1) (by norm_num) (by simpa using h)
  have : |rne z - z| ≤ 3 / 10 ^ 8 := this.trans (by norm_num [zpow_neg])
  have : ((|rne z - z| : ℚ) : ℝ) ≤ ((3 / 10 ^ 8 : ℚ) : ℝ) := Rat.cast_le.2 this
  push_cast at this
  exact this

/-- A normal map of a height image of doubles with signs, stored as floats: it is defined for all sizes, and every pixel is
within 1e-7 of the unit vector at right angles to the surface.  Its coordinates are from -1 to 1, the third is positive, and its
squared length is 1 up to 1e-6. -/
theorem C31_signed_partial (Q : RoundedSqrt Lm) {FI : FreeImage Dbl} (F : LawfulFI (Arith.ieee Lm) FI) {i : Image Dbl}
    (hi : ImgOk (Arith.ieee Lm) i) (hr : LimitedReds Lm i) {o : NormalOptions} (ho : o.keepSign = true) {h : ℚ}
    (hh : |h| ≤ 2 ^ 64) {dst : IFormat} (hf : dst = .RGBF ∨ dst = .RGBAF) :
    ∃ r, i.createNormalMap (Arith.ieee Lm) FI o (.fin h) dst = .ok r ∧
      (r = none → FI.alloc dst i.bmp.width i.bmp.height = none) ∧
      ∀ j, r = some j → j.format = dst ∧ j.colorSpace = i.colorSpace ∧ j.bmp.width = i.bmp.width ∧
        j.bmp.height = i.bmp.height ∧
        ∀ x y, x < i.bmp.width → y < i.bmp.height → ∃ (left right up down r g b : ℚ),
          AroundDoubles Lm i o.wrapX o.wrapY x y left right up down ∧
          j.getPixel (Arith.ieee Lm) x y = .ok (some ⟨.fin r, .fin g, .fin b, .fin 1⟩) ∧
          |r| ≤ 1 ∧ |g| ≤ 1 ∧ 0 < b ∧ b ≤ 1 ∧ |r ^ 2 + g ^ 2 + b ^ 2 - 1| ≤ 1 / 10 ^ 6 ∧
          NearChannels (1 / 10 ^ 7) ⟨.fin r, .fin g, .fin b, .fin 1⟩
            (unit ((left - right) * h / apart o.wrapX i.bmp.width x) ((down - up) * h / apart o.wrapY i.bmp.height y)) := by
  obtain ⟨r, e, h0, h1⟩ := normal_loop F (h := .fin h) (o := o) (dst := dst) (i := i) (by rcases hf with rfl | rfl <;> simp)
    (fun x y p => ∃ (left right up down r g b : ℚ), AroundDoubles Lm i o.wrapX o.wrapY x y left right up down ∧
      getPixelImpl (Arith.ieee Lm) dst p = .ok ⟨.fin r, .fin g, .fin b, .fin 1⟩ ∧
      |r| ≤ 1 ∧ |g| ≤ 1 ∧ 0 < b ∧ b ≤ 1 ∧ |r ^ 2 + g ^ 2 + b ^ 2 - 1| ≤ 1 / 10 ^ 6 ∧
          NearChannels (1 / 10 ^ 7) ⟨.fin r, .fin g, .fin b, .fin 1⟩
            (unit ((left - right) * h / apart o.wrapX i.bmp.width x) ((down - up) * h / apart o.wrapY i.bmp.height y))) (by
      intro x y hx hy
      obtain ⟨left, right, up, down, ar, r, g, b, n, en, b1, b2, b3, b4, n1, n2, n3, e⟩ := normalAt_near Q hi hr o hh hx hy
      rw [ho, if_pos rfl] at e
      have low : SingleBound (1 / 2 ^ 110) := ⟨⟨1, -110, by norm_num, by norm_num, by norm_num [zpow_neg]⟩, by norm_num [abs_le]⟩
      have pos : (0 : ℚ) < 1 / 2 ^ 110 := by positivity
      have b5 : |b| ≤ 1 := abs_le.2 ⟨by linarith, b4⟩
      obtain ⟨sr, er, r1, kr⟩ := single_signed b1
      obtain ⟨sg, eg, g1, kg⟩ := single_signed b2
      obtain ⟨sb, eb, c1, kb⟩ := single_signed b5
      have e1 : Dbl.single (.fin 1) = .fin 1 := by decide +kernel
      have c0 : 1 / 2 ^ 110 ≤ sb := by
        obtain ⟨s, e, s0, s1⟩ := ranged_single low unit_single_one ⟨b, rfl, b3, b4⟩
        rw [eb] at e
        cases e
        exact s0
      have move {s v : ℚ} {w : ℝ} (h : |(s : ℝ) - v| ≤ 3 / 10 ^ 8) (k : |(v : ℝ) - w| ≤ 1 / 2 ^ 45) :
          |(s : ℝ) - w| ≤ 1 / 10 ^ 7 := by
        rw [abs_le] at *
        norm_num at h k ⊢
        constructor <;> linarith [h.1, h.2, k.1, k.2]
      have m1 := move kr n1
      have m2 := move kg n2
      have m3 := move kb n3
      have len : |sr ^ 2 + sg ^ 2 + sb ^ 2 - 1| ≤ 1 / 10 ^ 6 := by
        have one := (unit_length ((left - right) * h / apart o.wrapX i.bmp.width x)
          ((down - up) * h / apart o.wrapY i.bmp.height y)).1
        rw [← en] at one
        have sq {s : ℚ} {w : ℝ} (h1 : |s| ≤ 1) (h2 : |(s : ℝ) - w| ≤ 1 / 10 ^ 7) : |(s : ℝ) ^ 2 - w ^ 2| ≤ 3 / 10 ^ 7 := by
          have h1 : |(s : ℝ)| ≤ 1 := by exact_mod_cast h1
          rw [show (s : ℝ) ^ 2 - w ^ 2 = (s - w) * (2 * s - (s - w)) by ring, abs_mul]
          have : |2 * (s : ℝ) - (s - w)| ≤ 3 := by
            refine (abs_sub _ _).trans ?_
            rw [abs_mul, abs_two]
            norm_num at h2 ⊢
            linarith
          calc |(s : ℝ) - w| * |2 * (s : ℝ) - (s - w)| ≤ 1 / 10 ^ 7 * 3 := by gcongr
            _ = _ := by norm_num
        have q1 := sq r1 m1
        have q2 := sq g1 m2
        have q3 := sq c1 m3
        have : |(sr : ℝ) ^ 2 + sg ^ 2 + sb ^ 2 - 1| ≤ 1 / 10 ^ 6 := by
          rw [abs_le] at *
          norm_num at q1 q2 q3 ⊢
          constructor <;> linarith [q1.1, q1.2, q2.1, q2.2, q3.1, q3.2]
        have : ((|sr ^ 2 + sg ^ 2 + sb ^ 2 - 1| : ℚ) : ℝ) ≤ ((1 / 10 ^ 6 : ℚ) : ℝ) := by
          push_cast
          exact this
        exact Rat.cast_le.1 this
      refine ⟨_, .nums (if dst = .RGBF then [.fin sr, .fin sg, .fin sb] else [.fin sr, .fin sg, .fin sb, .fin 1]), e, ?_,
        left, right, up, down, sr, sg, sb, ar, ?_, r1, g1, pos.trans_le c0, (abs_le.1 c1).2, len,
        ⟨sr, rfl, en ▸ m1⟩, ⟨sg, rfl, en ▸ m2⟩, ⟨sb, rfl, en ▸ m3⟩, 1, rfl, by simp [unit]⟩
      · rcases hf with rfl | rfl
        · show Res.ok (Px.nums [Dbl.single (.fin r), Dbl.single (.fin g), Dbl.single (.fin b)]) = _
          rw [er, eg, eb]
          rfl
        · show Res.ok (Px.nums [Dbl.single (.fin r), Dbl.single (.fin g), Dbl.single (.fin b), Dbl.single (.fin 1)]) = _
          rw [er, eg, eb, e1]
          rfl
      · rcases hf with rfl | rfl
        · rw [← ieee_one (Lm := Lm)]
          rfl
        · rfl)
  refine ⟨r, e, h0, ?_⟩
  intro j hj
  obtain ⟨a1, a2, a3, a4, a5⟩ := h1 j hj
  refine ⟨a1, a2, a3, a4, ?_⟩
  intro x y hx hy
  obtain ⟨left, right, up, down, r, g, b, ar, e2, k⟩ := a5 x y hx hy
  refine ⟨left, right, up, down, r, g, b, ar, ?_, k⟩
  rw [getPixel_in (by omega) (by omega), a1, a4, e2]
  rfl

/-- Between equal heights. -/
theorem flat_near (Q : RoundedSqrt Lm) (v h : ℚ) (k : ℕ) (hk : k = 1 ∨ k = 2) :
    (Arith.ieee Lm).div ((Arith.ieee Lm).mul ((Arith.ieee Lm).sub (.fin v) (.fin v)) (.fin h)) ((Arith.ieee Lm).lit k) = .fin 0 ∧
    (Arith.ieee Lm).sqrt ((Arith.ieee Lm).add ((Arith.ieee Lm).add ((Arith.ieee Lm).mul (.fin 0) (.fin 0))
      ((Arith.ieee Lm).mul (.fin 0) (.fin 0))) ((Arith.ieee Lm).lit 1)) = .fin 1 ∧
    (Arith.ieee Lm).div (.fin 0) (.fin 1) = .fin 0 ∧ (Arith.ieee Lm).div (.fin 1) (.fin 1) = .fin 1 := by
  have o1 : Dbl.ofQ 1 = .fin 1 := ofQ_one
  have n10 : ¬ (1 : ℚ) = 0 := one_ne_zero
  have s1 : Lm.sqrt (.fin 1) = .fin 1 := by
    obtain ⟨z, e, -, h⟩ := Q 1 (by norm_num)
    have := h 1 ⟨1, 0, by norm_num, by norm_num, by norm_num⟩
    rw [Rat.cast_one, Real.sqrt_one, sub_self, abs_zero] at this
    have : (z : ℝ) = 1 := sub_eq_zero.1 (abs_nonpos_iff.1 this)
    rw [e, show z = 1 by exact_mod_cast this]
  have lk : Dbl.ofQ (k : ℚ) = .fin k := by
    have := ofQ_int (n := k) (by rcases hk with rfl | rfl <;> norm_num)
    simpa using this
  have k0 : ¬ (k : ℚ) = 0 := by rcases hk with rfl | rfl <;> norm_num
  simp only [Arith.ieee, F32.neg, F32.addWith, F32.mulWith, F32.divWith, o1, lk, ← sub_eq_add_neg, sub_self, ofQ_zero,
    zero_mul, zero_div, div_one, if_neg n10, if_neg k0, s1, add_zero, zero_add, and_self]

/-- An image of constant height has, with every finite factor, exactly the straight-up normal everywhere. -/
theorem C31_constant_rounded (Q : RoundedSqrt Lm) {FI : FreeImage Dbl} (F : LawfulFI (Arith.ieee Lm) FI) {i : Image Dbl}
    (hi : ImgOk (Arith.ieee Lm) i) {v : ℚ} (hv : ∀ c, DoubleColors Lm i c → c.r = .fin v) (o : NormalOptions) (h : ℚ)
    {dst : IFormat} (hf : dst = .RGBF ∨ dst = .RGBAF) :
    ∃ r, i.createNormalMap (Arith.ieee Lm) FI o (.fin h) dst = .ok r ∧
      (r = none → FI.alloc dst i.bmp.width i.bmp.height = none) ∧
      ∀ j, r = some j → j.format = dst ∧ j.colorSpace = i.colorSpace ∧ j.bmp.width = i.bmp.width ∧
        j.bmp.height = i.bmp.height ∧
        ∀ x y, x < i.bmp.width → y < i.bmp.height → j.getPixel (Arith.ieee Lm) x y =
          .ok (some (if o.keepSign then ⟨.fin 0, .fin 0, .fin 1, .fin 1⟩ else ⟨.fin (1 / 2), .fin (1 / 2), .fin 1, .fin 1⟩)) := by
  obtain ⟨r, e, h0, h1⟩ := normal_loop F (h := .fin h) (o := o) (dst := dst) (i := i) (by rcases hf with rfl | rfl <;> simp)
    (fun _ _ p => getPixelImpl (Arith.ieee Lm) dst p =
      .ok (if o.keepSign then ⟨.fin 0, .fin 0, .fin 1, .fin 1⟩ else ⟨.fin (1 / 2), .fin (1 / 2), .fin 1, .fin 1⟩)) (by
      intro x y hx hy
      obtain ⟨y1, y2⟩ := around_lt (wrap := o.wrapY) hy
      obtain ⟨x1, x2⟩ := around_lt (wrap := o.wrapX) hx
      obtain ⟨f1, f2, f3⟩ := around_flip (wrap := o.wrapY) hy
      have read {a b : Nat} (ha : a < i.bmp.width) (hb : b < i.bmp.height) :
          ∃ c, i.get (Arith.ieee Lm) (i.bmp.height - b - 1) a = .ok c ∧ c.r = .fin v := by
        obtain ⟨c, e1, e2⟩ := Image.get_ok hi (show i.bmp.height - b - 1 < i.bmp.height by omega) ha
        have e : i.getPixel (Arith.ieee Lm) a b = .ok (some c) := by
          rw [getPixel_in ha hb, e2]
          rfl
        exact ⟨c, e1, hv c ⟨_, _, e⟩⟩
      obtain ⟨cd, ed, rd⟩ := read hx y2
      obtain ⟨cu, eu, ru⟩ := read hx y1
      obtain ⟨cl, el, rl⟩ := read x1 hy
      obtain ⟨cr, er, rr⟩ := read x2 hy
      have k (wrap : Bool) (n k : ℕ) : (if wrap = false ∧ (k = 0 ∨ k + 1 = n) then 1 else 2 : ℕ) = 1 ∨
          (if wrap = false ∧ (k = 0 ∨ k + 1 = n) then 1 else 2 : ℕ) = 2 := by
        split
        · exact Or.inl rfl
        · exact Or.inr rfl
      obtain ⟨p1, p2, p3, p4⟩ := flat_near Q v h _ (k o.wrapX i.bmp.width x)
      obtain ⟨q1, -⟩ := flat_near Q v h _ (k o.wrapY i.bmp.height (i.bmp.height - y - 1))
      have half : (Arith.ieee Lm).lit 0.5 = .fin (1 / 2) := by
        show Dbl.ofQ 0.5 = _
        decide +kernel
      have m0 : (Arith.ieee Lm).add ((Arith.ieee Lm).mul (.fin 0) (.fin (1 / 2))) (.fin (1 / 2)) = .fin (1 / 2) := by
        show F32.addWith Dbl.ofQ (F32.mulWith Dbl.ofQ (.fin 0) (.fin (1 / 2))) (.fin (1 / 2)) = _
        decide +kernel
      have m1 : (Arith.ieee Lm).add ((Arith.ieee Lm).mul (.fin 1) (.fin (1 / 2))) (.fin (1 / 2)) = .fin 1 := by
        show F32.addWith Dbl.ofQ (F32.mulWith Dbl.ofQ (.fin 1) (.fin (1 / 2))) (.fin (1 / 2)) = _
        decide +kernel
      have t0 : Dbl.single (.fin 0) = .fin 0 := by decide +kernel
      have th : Dbl.single (.fin (1 / 2)) = .fin (1 / 2) := by decide +kernel
      have t1 : Dbl.single (.fin 1) = .fin 1 := by decide +kernel
      have en : normalAt (Arith.ieee Lm) i o (.fin h) (i.bmp.height - y - 1) x = .ok (if o.keepSign then
          ⟨.fin 0, .fin 0, .fin 1, .fin 1⟩ else ⟨.fin (1 / 2), .fin (1 / 2), .fin 1, .fin 1⟩) := by
        unfold normalAt
        simp only [neighbours_eq hx, neighbours_eq (show i.bmp.height - y - 1 < i.bmp.height by omega), f1, f2,
          ed, eu, el, er, Res.ok_bind]
        rw [rd, ru, rl, rr, p1, q1, p2, show (Arith.ieee Lm).lit 1 = .fin 1 from ofQ_one, p3, p4, half, m0, m1]
        split <;> rfl
      have st (c : Color Dbl) (s1 : Dbl.single c.r = c.r) (s2 : Dbl.single c.g = c.g) (s3 : Dbl.single c.b = c.b)
          (s4 : c.a = .fin 1) : ∃ p, setPixelImpl (Arith.ieee Lm) dst c = .ok p ∧
            getPixelImpl (Arith.ieee Lm) dst p = .ok c := by
        obtain ⟨r, g, b, a⟩ := c
        dsimp only at s1 s2 s3 s4
        subst s4
        rcases hf with rfl | rfl
        · refine ⟨_, rfl, ?_⟩
          show Res.ok (⟨Dbl.single r, Dbl.single g, Dbl.single b, (Arith.ieee Lm).lit 1⟩ : Color Dbl) = _
          rw [s1, s2, s3, ieee_one]
        · refine ⟨_, rfl, ?_⟩
          show Res.ok (⟨Dbl.single r, Dbl.single g, Dbl.single b, Dbl.single (.fin 1)⟩ : Color Dbl) = _
          rw [s1, s2, s3, t1]
      obtain ⟨p, e1, e2⟩ := st (if o.keepSign then ⟨.fin 0, .fin 0, .fin 1, .fin 1⟩ else
        ⟨.fin (1 / 2), .fin (1 / 2), .fin 1, .fin 1⟩) (by split <;> assumption) (by split <;> assumption)
        (by split <;> assumption) (by split <;> rfl)
      exact ⟨_, p, en, e1, e2⟩)
  refine ⟨r, e, h0, ?_⟩
  intro j hj
  obtain ⟨a1, a2, a3, a4, a5⟩ := h1 j hj
  refine ⟨a1, a2, a3, a4, ?_⟩
  intro x y hx hy
  rw [getPixel_in (by omega) (by omega), a1, a4, a5 x y hx hy]
  rfl

/-- There is a nearest double. -/
theorem nearest_exists (r : ℝ) : ∃ z : ℚ, IsDouble z ∧ ∀ s, IsDouble s → |(z : ℝ) - r| ≤ |(s : ℝ) - r| := by
  have fin : {s : ℚ | IsDouble s ∧ |(s : ℝ) - r| ≤ |r|}.Finite := by
    refine ((Set.finite_Icc (-⌈2 * |r| * 2 ^ 1074⌉) ⌈2 * |r| * 2 ^ 1074⌉).image
      (fun n : ℤ => (n : ℚ) * (2 : ℚ) ^ (-1074 : ℤ))).subset ?_
    rintro s ⟨h1, h2⟩
    obtain ⟨n, e⟩ : ∃ n : ℤ, s = n * (2 : ℚ) ^ (-1074 : ℤ) := by
      obtain ⟨m, k, -, hk, e⟩ := h1
      refine ⟨m * 2 ^ (k + 1074).toNat, ?_⟩
      rw [e, Int.cast_mul, mul_assoc]
      push_cast
      rw [← zpow_natCast, ← zpow_add₀ (by norm_num), Int.toNat_of_nonneg (by omega)]
      congr 2
      omega
    refine ⟨n, ?_, e.symm⟩
    have h3 : |(s : ℝ)| ≤ 2 * |r| := by
      have := abs_sub_abs_le_abs_sub (s : ℝ) r
      linarith
    have h4 : |(n : ℝ)| ≤ 2 * |r| * 2 ^ 1074 := by
      have e' : (s : ℝ) = n * (2 : ℝ) ^ (-1074 : ℤ) := by rw [e]; push_cast; rfl
      rw [e', abs_mul, abs_of_pos (by positivity : (0 : ℝ) < 2 ^ (-1074 : ℤ)), zpow_neg, ← div_eq_mul_inv,
        div_le_iff₀ (by positivity)] at h3
      exact h3
    have h5 := abs_le.1 (h4.trans (Int.le_ceil _))
    constructor
    · exact_mod_cast h5.1
    · exact_mod_cast h5.2
  have zero : IsDouble 0 := ⟨0, 0, by norm_num, by norm_num, by norm_num⟩
  obtain ⟨z, ⟨h1, h2⟩, h3⟩ := Set.exists_min_image _ (fun s : ℚ => |(s : ℝ) - r|) fin ⟨0, zero, by simp⟩
  refine ⟨z, h1, fun s hs => ?_⟩
  by_cases h : |(s : ℝ) - r| ≤ |r|
  · exact h3 s ⟨hs, h⟩
  · exact h2.trans (not_le.1 h).le

/-- A C library with a correctly rounded root. -/
noncomputable def Toy.rooted : Libm where
  sqrt
    | .fin q => .fin (nearest_exists (√(q : ℝ))).choose
    | v => v
  pow := Toy.accurate.pow

theorem Toy.rooted_sqrt : RoundedSqrt Toy.rooted :=
  fun q _ => ⟨_, rfl, (nearest_exists (√(q : ℝ))).choose_spec⟩

/-- An image of 3 x 2 pixels with a step, and one of constant height. -/
example : RoundedSqrt Toy.rooted ∧ LawfulFI (Arith.ieee Toy.rooted) (Toy.fi (Arith.ieee Toy.rooted) true) ∧
    ImgOk (Arith.ieee Toy.rooted) Toy.srgb3x2 ∧ LimitedReds Toy.rooted Toy.srgb3x2 ∧ |(3 : ℚ)| ≤ 2 ^ 64 ∧ Tonal .RGB8 ∧
    ∃ j, Toy.srgb3x2.createNormalMap (Arith.ieee Toy.rooted) (Toy.fi (Arith.ieee Toy.rooted) true) ⟨true, true, false⟩ (.fin 3)
      .RGBF = .ok (some j) := by
  have lim : LimitedReds Toy.rooted Toy.srgb3x2 := by
    intro c hc
    obtain ⟨q, e, h0, h1⟩ := (unit_iff.1 ((Toy.srgb3x2_ok _).2.2 c hc)).1
    exact ⟨q, e, by rw [abs_of_nonneg h0]; exact le_trans h1 (by norm_num [ones])⟩
  refine ⟨Toy.rooted_sqrt, Toy.fi_ieee _ true, (Toy.srgb3x2_ok _).1, lim, by norm_num [abs_le], by simp [Tonal], ?_⟩
  obtain ⟨r, e, h, -⟩ := C31_signed_partial Toy.rooted_sqrt (Toy.fi_ieee _ true) (Toy.srgb3x2_ok _).1 lim
    (o := ⟨true, true, false⟩) rfl (h := 3) (by norm_num [abs_le]) (dst := .RGBF) (Or.inl rfl)
  cases r with
  | some j => exact ⟨j, e⟩
  | none => exact absurd (h rfl) (by simp [Toy.fi, Toy.srgb3x2])

example : ImgOk (Arith.ieee Toy.rooted) (⟨.Double, .Linear, ⟨3, 2, fun _ _ => .nums [.fin (1 / 4)]⟩⟩ : Image Dbl) ∧
    ∀ c, DoubleColors Toy.rooted (⟨.Double, .Linear, ⟨3, 2, fun _ _ => .nums [.fin (1 / 4)]⟩⟩ : Image Dbl) c →
      c.r = .fin (1 / 4) := by
  constructor
  · intro y x _ _
    simp [PxOk]
  · rintro c ⟨x, y, e⟩
    obtain ⟨-, -, h⟩ := getPixel_some e
    cases h
    rfl

end Cuttlefish
