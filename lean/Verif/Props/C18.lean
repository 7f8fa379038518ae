import Verif.Proofs.Sample
/-
C18: integer formats saturate.
-/
namespace Cuttlefish
open Spec
variable {Img : Type}

/-- In every UInt surface the field of a channel is the nearest integer to the channel clamped to
`0 .. 2^n - 1`: values out of range, infinities included, are stored as the limits.

Partial: `Storable` excludes NaN, and for 32-bit channels values from 2^32 on (and plus infinity),
for which the claim is false: the conversion is undefined, see `C18_fails_uint32` and
`C18_fails_nan`.  (Also the surface has to fit the 32-bit counters.) -/
theorem C18_uint_partial (X : Ext) (view : Img → FImg) (W : World Img) (t t' : Tex Img) (f : Format)
    (hC : Conversion X view W t t' f .UInt) (cs : List (Chan × Nat)) (hl : layout f = some cs)
    (face : Option CubeFace) (m d : Nat) (img : FImg) (bytes : List UInt8)
    (hS : Surface view t t' face m d img bytes) (hf : Fits f img.width img.height)
    (x y : Nat) (hx : x < img.width) (hy : y < img.height)
    (hst : ∀ e ∈ cs, Storable .UInt e.2 (e.1.of (img.px x y)))
    (ch : Chan) (n : Nat) (he : (ch, n) ∈ cs) :
    (∃ v, FieldIs f bytes img.width x y ch v) ∧
    ∀ v, FieldIs f bytes img.width x y ch v → IsUInt n (ch.of (img.px x y)) v := by
  have key := hS.field hC hl hf (by simp) (by simp) hx hy hst he
  obtain ⟨⟨k, a, hk, -⟩, -⟩ := hC.effect
  refine ⟨⟨_, (key _).2 rfl⟩, ?_⟩
  intro v hv
  rw [(key v).1 hv]
  exact stored_all hk hl he (hst _ he).2.1

/-- Same for Int surfaces and the range `-2^(n-1) .. 2^(n-1) - 1`; for 32 bits values from 2^31 on
are excluded, see `C18_fails_int32`. -/
theorem C18_int_partial (X : Ext) (view : Img → FImg) (W : World Img) (t t' : Tex Img) (f : Format)
    (hC : Conversion X view W t t' f .Int) (cs : List (Chan × Nat)) (hl : layout f = some cs)
    (face : Option CubeFace) (m d : Nat) (img : FImg) (bytes : List UInt8)
    (hS : Surface view t t' face m d img bytes) (hf : Fits f img.width img.height)
    (x y : Nat) (hx : x < img.width) (hy : y < img.height)
    (hst : ∀ e ∈ cs, Storable .Int e.2 (e.1.of (img.px x y)))
    (ch : Chan) (n : Nat) (he : (ch, n) ∈ cs) :
    (∃ v, FieldIs f bytes img.width x y ch v) ∧
    ∀ v, FieldIs f bytes img.width x y ch v → IsInt n (ch.of (img.px x y)) v := by
  have key := hS.field hC hl hf (by simp) (by simp) hx hy hst he
  obtain ⟨⟨k, a, hk, -⟩, -⟩ := hC.effect
  refine ⟨⟨_, (key _).2 rfl⟩, ?_⟩
  intro v hv
  rw [(key v).1 hv]
  exact stored_all hk hl he (hst _ he).2.1

/-- Saturation spelled out for 8- and 16-bit (and packed) channels: everything at or above the
largest value is stored as the largest value, everything at or below zero as zero. -/
theorem C18_uint_saturates (n w v : Nat) (hv : IsUInt n w v) :
    (F32.ofBits w = .inf false → v = 2 ^ n - 1) ∧ (F32.ofBits w = .inf true → v = 0) ∧
    (∀ q, F32.ofBits w = .fin q → 2 ^ n - 1 ≤ q → v = 2 ^ n - 1) ∧
    (∀ q, F32.ofBits w = .fin q → q ≤ 0 → v = 0) := by
  obtain ⟨c, hc, hle, herr⟩ := hv
  have hp : (1 : ℚ) ≤ 2 ^ n := one_le_pow₀ (by norm_num)
  have hcast := two_pow_cast n
  have top : c = 2 ^ n - 1 → v = 2 ^ n - 1 := by
    intro h
    rw [h, ← hcast] at herr
    have h1 := (abs_le.1 herr).1
    have : ((2 ^ n - 1 : ℕ) : ℚ) < (v + 1 : ℕ) := by push_cast at h1 ⊢; linarith
    have : 2 ^ n - 1 < v + 1 := by exact_mod_cast this
    omega
  have bot : c = 0 → v = 0 := by
    intro h
    rw [h] at herr
    have h1 := (abs_le.1 herr).2
    have : (v : ℚ) < 1 := by linarith
    have : v < 1 := by exact_mod_cast this
    omega
  refine ⟨fun h => top ?_, fun h => bot ?_, fun q h hq => top ?_, fun q h hq => bot ?_⟩
  · rw [h] at hc; simpa [clampVal] using hc.symm
  · rw [h] at hc; simpa [clampVal] using hc.symm
  · rw [h] at hc
    simp only [clampVal, Option.some.injEq] at hc
    rw [← hc, min_eq_left hq, max_eq_right (by linarith)]
  · rw [h] at hc
    simp only [clampVal, Option.some.injEq] at hc
    rw [← hc, max_eq_left (le_trans (min_le_right _ _) hq)]

/-- Saturation of signed channels. -/
theorem C18_int_saturates (n w v : Nat) (hv : IsInt n w v) :
    (F32.ofBits w = .inf false → signedVal n v = 2 ^ (n - 1) - 1) ∧
    (F32.ofBits w = .inf true → signedVal n v = -2 ^ (n - 1)) ∧
    (∀ q, F32.ofBits w = .fin q → 2 ^ (n - 1) - 1 ≤ q → signedVal n v = 2 ^ (n - 1) - 1) ∧
    (∀ q, F32.ofBits w = .fin q → q ≤ -2 ^ (n - 1) → signedVal n v = -2 ^ (n - 1)) := by
  obtain ⟨c, hc, hle, herr⟩ := hv
  have hp : (1 : ℚ) ≤ 2 ^ (n - 1) := one_le_pow₀ (by norm_num)
  have near : ∀ z : ℤ, c = z → signedVal n v = z := by
    intro z h
    rw [h] at herr
    have h1 : |signedVal n v - z| < 1 := by
      have : ((|signedVal n v - z| : ℤ) : ℚ) < 1 := by
        push_cast; exact lt_of_le_of_lt herr (by norm_num)
      exact_mod_cast this
    have := Int.abs_lt_one_iff.1 h1
    omega
  refine ⟨fun h => near _ ?_, fun h => near _ ?_, fun q h hq => near _ ?_, fun q h hq => near _ ?_⟩
  · rw [h] at hc; simp [clampVal] at hc; rw [← hc]; push_cast; rfl
  · rw [h] at hc; simp [clampVal] at hc; rw [← hc]; push_cast; rfl
  · rw [h] at hc
    simp only [clampVal, Option.some.injEq] at hc
    rw [← hc, min_eq_left hq, max_eq_right (by linarith)]; push_cast; rfl
  · rw [h] at hc
    simp only [clampVal, Option.some.injEq] at hc
    rw [← hc, max_eq_left (le_trans (min_le_right _ _) hq)]; push_cast; rfl

/-- The full claim is false for 32-bit unsigned channels: 4294967296 and plus infinity make the
conversion undefined, because the largest value is rounded up when it becomes a float. -/
theorem C18_fails_uint32 :
    F32.ofBits 0x4F800000 = .fin (2 ^ 32) ∧ F32.ofBits 0x7F800000 = .inf false ∧
    ∀ v ∈ [0x4F800000, 0x7F800000], ∃ t outs,
      run Toy.real none (Toy.single 1 1 [v]) = .ok (outs, t) ∧
      t.convert Toy.real.feat Toy.real.hw Toy.real.enc .R32 .UInt .Normal .Standard {} 1 = .ub := by
  refine ⟨by decide +kernel, by decide +kernel, ?_⟩
  intro v hv
  simp only [List.mem_cons, List.not_mem_nil, or_false] at hv
  rcases hv with rfl | rfl <;> exact Toy.undef (by decide +kernel)

/-- The full claim is false for 32-bit signed channels: 2147483648 and plus infinity. -/
theorem C18_fails_int32 :
    F32.ofBits 0x4F000000 = .fin (2 ^ 31) ∧ F32.ofBits 0x7F800000 = .inf false ∧
    ∀ v ∈ [0x4F000000, 0x7F800000], ∃ t outs,
      run Toy.real none (Toy.single 1 1 [v]) = .ok (outs, t) ∧
      t.convert Toy.real.feat Toy.real.hw Toy.real.enc .R32 .Int .Normal .Standard {} 1 = .ub := by
  refine ⟨by decide +kernel, by decide +kernel, ?_⟩
  intro v hv
  simp only [List.mem_cons, List.not_mem_nil, or_false] at hv
  rcases hv with rfl | rfl <;> exact Toy.undef (by decide +kernel)

/-- NaN passes the clamp and makes every integer and normalised conversion undefined. -/
theorem C18_fails_nan (X : Ext) (k : Conv) (hk : (∃ s c, k = .unorm s c) ∨ (∃ s c, k = .snorm s c) ∨
    (∃ b s c, k = .int b s c)) (v : Nat) (hv : F32.ofBits v = .nan) : chanBytes X k v = .ub := by
  rcases hk with ⟨s, c, rfl⟩ | ⟨s, c, rfl⟩ | ⟨b, s, c, rfl⟩
  · simp only [chanBytes]; rw [toUNorm_nan hv]; rfl
  · simp only [chanBytes]; rw [toSNorm_nan hv]; rfl
  · simp only [chanBytes]; rw [toInt_nan hv]; rfl

/-- Hypotheses met: R16 Int of 40000, minus infinity and -1.5; R32 UInt of the largest float below
2^32. -/
example : (∃ t t', Conversion Toy.ext Toy.view Toy.real t t' .R16 .Int ∧
    Surface Toy.view t t' none 0 0
      (Toy.view ⟨3, 1, true, .Linear, [0x471C4000, 0xFF800000, 0xBFC00000]⟩)
      [0xFF, 0x7F, 0x00, 0x80, 0xFE, 0xFF]) ∧
    (∃ t t', Conversion Toy.ext Toy.view Toy.real t t' .R32 .UInt ∧
      Surface Toy.view t t' none 0 0 (Toy.view ⟨1, 1, true, .Linear, [0x4F7FFFFF]⟩)
        [0x00, 0xFF, 0xFF, 0xFF]) ∧
    Fits .R16 3 1 ∧ Storable .Int 16 0xFF800000 ∧ Storable .UInt 32 0x4F7FFFFF := by
  refine ⟨?_, ?_, ⟨by norm_num, by norm_num, by simp only [layout]; decide⟩, ?_, ?_⟩
  · obtain ⟨t, t', h1, h2⟩ := Toy.sample
      (ops := Toy.single 3 1 [0x471C4000, 0xFF800000, 0xBFC00000]) (f := .R16) (ty := .Int)
      (face := none) (m := 0) (d := 0) (expected := [0xFF, 0x7F, 0x00, 0x80, 0xFE, 0xFF])
      (g := ⟨3, 1, true, .Linear, [0x471C4000, 0xFF800000, 0xBFC00000]⟩)
      (Toy.single_safe _ _ _ (by norm_num) (by norm_num)) (by decide +kernel)
    exact ⟨t, t', h1, h2⟩
  · obtain ⟨t, t', h1, h2⟩ := Toy.sample
      (ops := Toy.single 1 1 [0x4F7FFFFF]) (f := .R32) (ty := .UInt)
      (face := none) (m := 0) (d := 0) (expected := [0x00, 0xFF, 0xFF, 0xFF])
      (g := ⟨1, 1, true, .Linear, [0x4F7FFFFF]⟩)
      (Toy.single_safe _ _ _ (by norm_num) (by norm_num)) (by decide +kernel)
    exact ⟨t, t', h1, h2⟩
  · exact ⟨by norm_num, by decide +kernel, by simp, by simp⟩
  · exact ⟨by norm_num, by decide +kernel, fun _ _ => by decide +kernel, by simp⟩

end Cuttlefish
