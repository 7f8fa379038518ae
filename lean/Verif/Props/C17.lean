import Verif.Proofs.Sample
/-
C17: normalised quantisation.
-/
namespace Cuttlefish
open Spec
variable {Img : Type}

/-- In every UNorm surface, the field of a channel that is not NaN exists, is in range and is the
nearest value to the clamped channel up to the rounding of one single precision product: it differs
from `channel * (2^n - 1)` by at most a half plus `2^(n-25)`.

Partial: the full claim is a difference of at most a half.  It is false, see `C17_fails_near_tie`.
(Also the surface has to fit the 32-bit counters.) -/
theorem C17_unorm_partial (X : Ext) (view : Img → FImg) (W : World Img) (t t' : Tex Img) (f : Format)
    (hC : Conversion X view W t t' f .UNorm) (cs : List (Chan × Nat)) (hl : layout f = some cs)
    (face : Option CubeFace) (m d : Nat) (img : FImg) (bytes : List UInt8)
    (hS : Surface view t t' face m d img bytes) (hf : Fits f img.width img.height)
    (x y : Nat) (hx : x < img.width) (hy : y < img.height)
    (hst : ∀ e ∈ cs, Storable .UNorm e.2 (e.1.of (img.px x y)))
    (ch : Chan) (n : Nat) (he : (ch, n) ∈ cs) :
    (∃ v, FieldIs f bytes img.width x y ch v) ∧
    ∀ v, FieldIs f bytes img.width x y ch v → IsUNorm n (ch.of (img.px x y)) v := by
  have key := hS.field hC hl hf (by simp) (by simp) hx hy hst he
  obtain ⟨⟨k, a, hk, -⟩, -⟩ := hC.effect
  refine ⟨⟨_, (key _).2 rfl⟩, ?_⟩
  intro v hv
  rw [(key v).1 hv]
  exact stored_all hk hl he (hst _ he).2.1

/-- Same for SNorm surfaces; the most negative two's complement value never occurs. -/
theorem C17_snorm_partial (X : Ext) (view : Img → FImg) (W : World Img) (t t' : Tex Img) (f : Format)
    (hC : Conversion X view W t t' f .SNorm) (cs : List (Chan × Nat)) (hl : layout f = some cs)
    (face : Option CubeFace) (m d : Nat) (img : FImg) (bytes : List UInt8)
    (hS : Surface view t t' face m d img bytes) (hf : Fits f img.width img.height)
    (x y : Nat) (hx : x < img.width) (hy : y < img.height)
    (hst : ∀ e ∈ cs, Storable .SNorm e.2 (e.1.of (img.px x y)))
    (ch : Chan) (n : Nat) (he : (ch, n) ∈ cs) :
    (∃ v, FieldIs f bytes img.width x y ch v) ∧
    ∀ v, FieldIs f bytes img.width x y ch v → IsSNorm n (ch.of (img.px x y)) v := by
  have key := hS.field hC hl hf (by simp) (by simp) hx hy hst he
  obtain ⟨⟨k, a, hk, -⟩, -⟩ := hC.effect
  refine ⟨⟨_, (key _).2 rfl⟩, ?_⟩
  intro v hv
  rw [(key v).1 hv]
  exact stored_all hk hl he (hst _ he).2.1

theorem norm_width {c : Features} {f : Format} {t : TType} {k : Conv}
    (hk : createConverter c f t = some k) (ht : t = .UNorm ∨ t = .SNorm) {cs : List (Chan × Nat)}
    (hl : layout f = some cs) {e : Chan × Nat} (he : e ∈ cs) : 1 ≤ e.2 ∧ e.2 ≤ 16 := by
  have := List.all_eq_true.1 (layout_widths hk hl) e he
  simp only [Bool.and_eq_true, Bool.or_eq_true, decide_eq_true_eq, bne_iff_ne] at this
  obtain ⟨⟨⟨h1, h2⟩, h3⟩, h4⟩ := this
  refine ⟨h1, ?_⟩
  rcases ht with rfl | rfl
  · rcases h2 with h | h
    · exact absurd rfl h
    · exact h
  · rcases h3 with h | h
    · exact absurd rfl h
    · exact h

theorem clampQ_of {lo hi : ℚ} {w : Nat} {c : ℚ} (h : clampVal lo hi (F32.ofBits w) = some c) :
    clampQ lo hi w = c := by
  unfold clampQ; rw [h]; rfl

/-- A value that is already representable is stored exactly: if the channel is the float nearest to
`k / (2^n - 1)`, the field is `k`. -/
theorem C17_unorm_exact (X : Ext) (view : Img → FImg) (W : World Img) (t t' : Tex Img) (f : Format)
    (hC : Conversion X view W t t' f .UNorm) (cs : List (Chan × Nat)) (hl : layout f = some cs)
    (face : Option CubeFace) (m d : Nat) (img : FImg) (bytes : List UInt8)
    (hS : Surface view t t' face m d img bytes) (hf : Fits f img.width img.height)
    (x y : Nat) (hx : x < img.width) (hy : y < img.height)
    (hst : ∀ e ∈ cs, Storable .UNorm e.2 (e.1.of (img.px x y)))
    (ch : Chan) (n : Nat) (he : (ch, n) ∈ cs) (k : Nat) (hk : k ≤ 2 ^ n - 1)
    (hval : F32.ofBits (ch.of (img.px x y)) = F32.round ((k : ℚ) / (2 ^ n - 1))) :
    FieldIs f bytes img.width x y ch k := by
  have key := hS.field hC hl hf (by simp) (by simp) hx hy hst he
  obtain ⟨⟨kk, a, hkk, -⟩, -⟩ := hC.effect
  obtain ⟨hn1, hn2⟩ := norm_width hkk (Or.inl rfl) hl he
  rw [key]
  obtain ⟨c, hc, -, herr⟩ := stored_unorm (n := n) (w := ch.of (img.px x y)) (by omega) (hst _ he).2.1
  have hpow : (2 : ℕ) ≤ 2 ^ n := by
    calc 2 = 2 ^ 1 := rfl
      _ ≤ 2 ^ n := Nat.pow_le_pow_right (by norm_num) hn1
  have hm0 : (0 : ℚ) < 2 ^ n - 1 := by
    have : (2 : ℚ) ≤ 2 ^ n := by exact_mod_cast hpow
    linarith
  have hkq : (k : ℚ) ≤ 2 ^ n - 1 := by
    have : ((k + 1 : ℕ) : ℚ) ≤ ((2 ^ n : ℕ) : ℚ) := by exact_mod_cast (by omega)
    push_cast at this; linarith
  have h01 : 0 ≤ (k : ℚ) / (2 ^ n - 1) ∧ (k : ℚ) / (2 ^ n - 1) ≤ 1 :=
    ⟨by positivity, div_le_one_of_le₀ hkq hm0.le⟩
  rw [round_fin (by
    rw [abs_of_nonneg h01.1]
    exact le_trans h01.2 (by norm_num))] at hval
  have hr0 : 0 ≤ rne ((k : ℚ) / (2 ^ n - 1)) := by
    have := rne_mono h01.1; rwa [rne_zero] at this
  have hr1 : rne ((k : ℚ) / (2 ^ n - 1)) ≤ 1 := by
    have := rne_mono h01.2
    have h1 := rne_int (n := 1) (by norm_num)
    push_cast at h1
    rwa [h1] at this
  rw [hval] at hc
  simp only [clampVal, Option.some.injEq, min_eq_right hr1, max_eq_right hr0] at hc
  have hmz : (((2 : ℤ) ^ n - 1 : ℤ) : ℚ) = 2 ^ n - 1 := by push_cast; rfl
  have hpz : (2 : ℤ) ≤ 2 ^ n := by exact_mod_cast hpow
  have hkz : (k : ℤ) ≤ 2 ^ n - 1 := by
    have : ((k + 1 : ℕ) : ℤ) ≤ ((2 ^ n : ℕ) : ℤ) := by exact_mod_cast (by omega)
    push_cast at this; linarith
  have := exact_core (k := k) (m := 2 ^ n - 1) (d := (quantQ .UNorm n (ch.of (img.px x y)) : ℕ))
    (n := n) (c := c) hn2 (by omega) (by omega) (by rw [abs_of_nonneg (by positivity)]; exact hkz)
    (by rw [hmz, ← hc]; push_cast; rfl) (by rw [hmz]; exact_mod_cast herr)
  exact_mod_cast this.symm

/-- Same for SNorm: the float nearest to `k / (2^(n-1) - 1)` is stored as `k`, negative or not. -/
theorem C17_snorm_exact (X : Ext) (view : Img → FImg) (W : World Img) (t t' : Tex Img) (f : Format)
    (hC : Conversion X view W t t' f .SNorm) (cs : List (Chan × Nat)) (hl : layout f = some cs)
    (face : Option CubeFace) (m d : Nat) (img : FImg) (bytes : List UInt8)
    (hS : Surface view t t' face m d img bytes) (hf : Fits f img.width img.height)
    (x y : Nat) (hx : x < img.width) (hy : y < img.height)
    (hst : ∀ e ∈ cs, Storable .SNorm e.2 (e.1.of (img.px x y)))
    (ch : Chan) (n : Nat) (he : (ch, n) ∈ cs) (hn : 2 ≤ n) (k : ℤ) (hk : |k| ≤ 2 ^ (n - 1) - 1)
    (hval : F32.ofBits (ch.of (img.px x y)) = F32.round ((k : ℚ) / (2 ^ (n - 1) - 1))) :
    ∃ v, FieldIs f bytes img.width x y ch v ∧ signedVal n v = k := by
  have key := hS.field hC hl hf (by simp) (by simp) hx hy hst he
  obtain ⟨⟨kk, a, hkk, -⟩, -⟩ := hC.effect
  obtain ⟨hn1, hn2⟩ := norm_width hkk (Or.inr rfl) hl he
  refine ⟨_, (key _).2 rfl, ?_⟩
  obtain ⟨c, hc, -, -, herr⟩ := stored_snorm (n := n) (w := ch.of (img.px x y)) hn1 hn2 (hst _ he).2.1
  have hpow : (2 : ℤ) ≤ 2 ^ (n - 1) := by
    calc (2 : ℤ) = 2 ^ 1 := rfl
      _ ≤ 2 ^ (n - 1) := pow_le_pow_right₀ (by norm_num) (by omega)
  have hmz : (((2 : ℤ) ^ (n - 1) - 1 : ℤ) : ℚ) = 2 ^ (n - 1) - 1 := by push_cast; rfl
  have hmpos : (0 : ℤ) < 2 ^ (n - 1) - 1 := by omega
  have hm0 : (0 : ℚ) < 2 ^ (n - 1) - 1 := by rw [← hmz]; exact Int.cast_pos.2 hmpos
  have hkq : |(k : ℚ)| ≤ 2 ^ (n - 1) - 1 := by rw [← hmz]; exact_mod_cast hk
  have h01 : -1 ≤ (k : ℚ) / (2 ^ (n - 1) - 1) ∧ (k : ℚ) / (2 ^ (n - 1) - 1) ≤ 1 := by
    rw [← abs_le, abs_div, abs_of_pos hm0]
    exact div_le_one_of_le₀ hkq hm0.le
  rw [round_fin (le_trans (abs_le.2 h01) (by norm_num))] at hval
  have i1 := rne_int (n := 1) (by norm_num)
  have i2 := rne_int (n := -1) (by norm_num)
  push_cast at i1 i2
  have hr0 : -1 ≤ rne ((k : ℚ) / (2 ^ (n - 1) - 1)) := by
    have := rne_mono h01.1; rwa [i2] at this
  have hr1 : rne ((k : ℚ) / (2 ^ (n - 1) - 1)) ≤ 1 := by
    have := rne_mono h01.2
    rwa [i1] at this
  rw [hval] at hc
  simp only [clampVal, Option.some.injEq, min_eq_right hr1, max_eq_right hr0] at hc
  exact exact_core (k := k) (m := 2 ^ (n - 1) - 1)
    (d := signedVal n (quantQ .SNorm n (ch.of (img.px x y))))
    (n := n - 1) (c := c) (by omega) (by omega) (by omega) hk
    (by rw [hmz, ← hc]) (by rw [hmz]; exact herr)

/-- Storing is monotone: between any two texels of any two UNorm surfaces, if the clamped channel
does not decrease, neither does a field of the same width. -/
theorem C17_unorm_mono (X : Ext) (view : Img → FImg) (W : World Img)
    (t₁ t₁' t₂ t₂' : Tex Img) (f₁ f₂ : Format)
    (hC₁ : Conversion X view W t₁ t₁' f₁ .UNorm) (hC₂ : Conversion X view W t₂ t₂' f₂ .UNorm)
    (cs₁ cs₂ : List (Chan × Nat)) (hl₁ : layout f₁ = some cs₁) (hl₂ : layout f₂ = some cs₂)
    (face₁ face₂ : Option CubeFace) (m₁ d₁ m₂ d₂ : Nat) (img₁ img₂ : FImg) (bytes₁ bytes₂ : List UInt8)
    (hS₁ : Surface view t₁ t₁' face₁ m₁ d₁ img₁ bytes₁)
    (hS₂ : Surface view t₂ t₂' face₂ m₂ d₂ img₂ bytes₂)
    (hf₁ : Fits f₁ img₁.width img₁.height) (hf₂ : Fits f₂ img₂.width img₂.height)
    (x₁ y₁ x₂ y₂ : Nat) (hx₁ : x₁ < img₁.width) (hy₁ : y₁ < img₁.height)
    (hx₂ : x₂ < img₂.width) (hy₂ : y₂ < img₂.height)
    (hst₁ : ∀ e ∈ cs₁, Storable .UNorm e.2 (e.1.of (img₁.px x₁ y₁)))
    (hst₂ : ∀ e ∈ cs₂, Storable .UNorm e.2 (e.1.of (img₂.px x₂ y₂)))
    (ch₁ ch₂ : Chan) (n : Nat) (he₁ : (ch₁, n) ∈ cs₁) (he₂ : (ch₂, n) ∈ cs₂) (c₁ c₂ : ℚ)
    (hc₁ : clampVal 0 1 (F32.ofBits (ch₁.of (img₁.px x₁ y₁))) = some c₁)
    (hc₂ : clampVal 0 1 (F32.ofBits (ch₂.of (img₂.px x₂ y₂))) = some c₂) (hle : c₁ ≤ c₂)
    (v₁ v₂ : Nat) (hv₁ : FieldIs f₁ bytes₁ img₁.width x₁ y₁ ch₁ v₁)
    (hv₂ : FieldIs f₂ bytes₂ img₂.width x₂ y₂ ch₂ v₂) : v₁ ≤ v₂ := by
  rw [(hS₁.field hC₁ hl₁ hf₁ (by simp) (by simp) hx₁ hy₁ hst₁ he₁ v₁).1 hv₁,
    (hS₂.field hC₂ hl₂ hf₂ (by simp) (by simp) hx₂ hy₂ hst₂ he₂ v₂).1 hv₂]
  apply unorm_mono
  rw [clampQ_of hc₁, clampQ_of hc₂]
  exact hle

/-- Same for SNorm, comparing the signed values. -/
theorem C17_snorm_mono (X : Ext) (view : Img → FImg) (W : World Img)
    (t₁ t₁' t₂ t₂' : Tex Img) (f₁ f₂ : Format)
    (hC₁ : Conversion X view W t₁ t₁' f₁ .SNorm) (hC₂ : Conversion X view W t₂ t₂' f₂ .SNorm)
    (cs₁ cs₂ : List (Chan × Nat)) (hl₁ : layout f₁ = some cs₁) (hl₂ : layout f₂ = some cs₂)
    (face₁ face₂ : Option CubeFace) (m₁ d₁ m₂ d₂ : Nat) (img₁ img₂ : FImg) (bytes₁ bytes₂ : List UInt8)
    (hS₁ : Surface view t₁ t₁' face₁ m₁ d₁ img₁ bytes₁)
    (hS₂ : Surface view t₂ t₂' face₂ m₂ d₂ img₂ bytes₂)
    (hf₁ : Fits f₁ img₁.width img₁.height) (hf₂ : Fits f₂ img₂.width img₂.height)
    (x₁ y₁ x₂ y₂ : Nat) (hx₁ : x₁ < img₁.width) (hy₁ : y₁ < img₁.height)
    (hx₂ : x₂ < img₂.width) (hy₂ : y₂ < img₂.height)
    (hst₁ : ∀ e ∈ cs₁, Storable .SNorm e.2 (e.1.of (img₁.px x₁ y₁)))
    (hst₂ : ∀ e ∈ cs₂, Storable .SNorm e.2 (e.1.of (img₂.px x₂ y₂)))
    (ch₁ ch₂ : Chan) (n : Nat) (he₁ : (ch₁, n) ∈ cs₁) (he₂ : (ch₂, n) ∈ cs₂) (c₁ c₂ : ℚ)
    (hc₁ : clampVal (-1) 1 (F32.ofBits (ch₁.of (img₁.px x₁ y₁))) = some c₁)
    (hc₂ : clampVal (-1) 1 (F32.ofBits (ch₂.of (img₂.px x₂ y₂))) = some c₂) (hle : c₁ ≤ c₂)
    (v₁ v₂ : Nat) (hv₁ : FieldIs f₁ bytes₁ img₁.width x₁ y₁ ch₁ v₁)
    (hv₂ : FieldIs f₂ bytes₂ img₂.width x₂ y₂ ch₂ v₂) : signedVal n v₁ ≤ signedVal n v₂ := by
  obtain ⟨⟨kk, a, hkk, -⟩, -⟩ := hC₁.effect
  obtain ⟨hn1, hn2⟩ := norm_width hkk (Or.inr rfl) hl₁ he₁
  rw [(hS₁.field hC₁ hl₁ hf₁ (by simp) (by simp) hx₁ hy₁ hst₁ he₁ v₁).1 hv₁,
    (hS₂.field hC₂ hl₂ hf₂ (by simp) (by simp) hx₂ hy₂ hst₂ he₂ v₂).1 hv₂]
  apply snorm_mono hn1 hn2 (hst₁ _ he₁).2.1 (hst₂ _ he₂).2.1
  rw [clampQ_of hc₁, clampQ_of hc₂]
  exact hle

/-- The full claim (at most half a step) is false just below a tie: the channel word `0x3F010101`
is 8454401 / 2^24; times 255 it is 128.49999994, but the single precision product rounds to 128.5
and 129 is stored in an R8 surface. -/
theorem C17_fails_near_tie : (∃ t t', Conversion Toy.ext Toy.view Toy.real t t' .R8 .UNorm ∧
      Surface Toy.view t t' none 0 0 (Toy.view ⟨1, 1, true, .Linear, [0x3F010101]⟩) [129]) ∧
    F32.ofBits 0x3F010101 = .fin (8454401 / 2 ^ 24) ∧
    (1 : ℚ) / 2 < |129 - (8454401 / 2 ^ 24) * 255| ∧ |128 - ((8454401 : ℚ) / 2 ^ 24) * 255| < 1 / 2 := by
  refine ⟨?_, by decide +kernel, by norm_num [abs_of_pos], by norm_num [abs_of_neg]⟩
  obtain ⟨t, t', h1, h2⟩ := Toy.sample
    (ops := Toy.single 1 1 [0x3F010101]) (f := .R8) (ty := .UNorm)
    (face := none) (m := 0) (d := 0) (expected := [129]) (g := ⟨1, 1, true, .Linear, [0x3F010101]⟩)
    (Toy.single_safe _ _ _ (by norm_num) (by norm_num)) (by decide +kernel)
  exact ⟨t, t', h1, h2⟩

/-- A conversion meeting the hypotheses: SNorm values -1, 0.5 and minus infinity. -/
example : ∃ t t', Conversion Toy.ext Toy.view Toy.real t t' .R8 .SNorm ∧
    Surface Toy.view t t' none 0 0
      (Toy.view ⟨3, 1, true, .Linear, [0xBF800000, 0x3F000000, 0xFF800000]⟩) [0x81, 64, 0x81] ∧
    Fits .R8 3 1 ∧ Storable .SNorm 8 0xFF800000 := by
  obtain ⟨t, t', h1, h2⟩ := Toy.sample
    (ops := Toy.single 3 1 [0xBF800000, 0x3F000000, 0xFF800000]) (f := .R8) (ty := .SNorm)
    (face := none) (m := 0) (d := 0) (expected := [0x81, 64, 0x81])
    (g := ⟨3, 1, true, .Linear, [0xBF800000, 0x3F000000, 0xFF800000]⟩)
    (Toy.single_safe _ _ _ (by norm_num) (by norm_num)) (by decide +kernel)
  exact ⟨t, t', h1, h2, ⟨by norm_num, by norm_num, by simp only [layout]; decide⟩,
    by norm_num, by decide +kernel, by simp, by simp⟩

end Cuttlefish
