import Verif.Proofs.HalfTexels
import Verif.Proofs.Sample
/-
C62: half float formats store the nearest half float of every channel.
-/
namespace Cuttlefish
open Spec

/-- In every converted surface of a format with 16-bit float channels every channel of every texel is
a half float nearest to the channel of the pixel, in the place the format name says, whatever the
pixel holds (NaN and infinities included); and the fields fill the texel.  It needs a processor with
the conversion instruction or a library function that rounds to nearest. -/
theorem C62_halves (X : Ext) (hX : NearestHalves X) {Img : Type} (view : Img → FImg) (W : World Img)
    (t t' : Tex Img) (f : Format) (cs : List (Chan × Nat)) (hl : layout f = some cs)
    (h16 : ∀ e ∈ cs, e.2 = 16) (hC : Conversion X view W t t' f .Float) (face : Option CubeFace)
    (m d : Nat) (img : FImg) (bytes : List UInt8) (hS : Surface view t t' face m d img bytes)
    (hf : Fits f img.width img.height) (x y : Nat) (hx : x < img.width) (hy : y < img.height)
    (hw : ∀ e ∈ cs, e.1.of (img.px x y) < 2 ^ 32) :
    ∃ h : Chan → Nat, (∀ e ∈ cs, IsHalf (e.1.of (img.px x y)) (h e.1)) ∧
      texelFields cs (texelAt bytes (blockSize f) img.width x y) = cs.map (fun e => (e.1, h e.1)) ∧
      8 * (texelAt bytes (blockSize f) img.width x y).length = bitsOf cs := by
  refine ⟨fun c => X.half (c.of (img.px x y)), fun e he => half_spec hX (hw e he), ?_⟩
  exact hS.halves hC hl hf h16 hx hy (fun e he => (half_spec hX (hw e he)).1)

/-- With the instruction (F16C on x86, or ARM) ties go to the even half float. -/
theorem C62_hardware (X : Ext) (hX : (∃ ecx, X.cpu = .sse ecx ∧ ecx / 2 ^ 29 % 2 = 1) ∨ X.cpu = .neon)
    (w : Nat) : IsHalf w (X.half w) ∧ TiesEven w (X.half w) := by
  have : X.half w = hardwareHalf w := by
    unfold Ext.half
    rw [if_pos]
    rcases hX with ⟨ecx, he, hb⟩ | he
    · rw [he]; exact (cpu_bit ecx).2 hb
    · rw [he]; rfl
  rw [this]
  exact hardwareHalf_spec w

/-- A channel that is a half float already keeps its value. -/
theorem C62_exact (w h h' : Nat) (v : ℚ) (hh : IsHalf w h) (hv : halfVal h' = .fin v)
    (hw : F32.ofBits w = .fin v) : halfVal h = .fin v := by
  obtain ⟨-, -, hh⟩ := hh
  rw [hw] at hh
  simp only at hh
  have hlt : ¬ 65520 ≤ |v| := by
    obtain ⟨he, hm⟩ := halfVal_fin hv
    generalize h' % 2 ^ 15 = n at he hm
    have hb : magVal (n) ≤ 65504 := by
      unfold magVal
      split
      · rename_i hs
        have : (n : ℚ) ≤ 1024 := by exact_mod_cast hs.le
        have h2 : ((n : ℕ) : ℚ) / 2 ^ 24 ≤ ((n : ℕ) : ℚ) :=
          div_le_self (by positivity) (by norm_num)
        linarith
      · have e1 : n / 1024 ≤ 30 := by omega
        have e2 : ((n % 1024 : ℕ) : ℚ) ≤ 1023 := by
          exact_mod_cast (by omega : n % 1024 ≤ 1023)
        have e3 : (2 : ℚ) ^ (n / 1024) ≤ 2 ^ 30 := pow_le_pow_right₀ (by norm_num) e1
        rw [div_le_iff₀ (by norm_num)]
        calc _ ≤ (1024 + 1023 : ℚ) * 2 ^ 30 := by gcongr
          _ ≤ _ := by norm_num
    rw [he, abs_mul]
    have h0 := magVal_nonneg (n)
    rw [abs_of_nonneg h0]
    split <;> norm_num <;> linarith
  rw [if_neg hlt] at hh
  obtain ⟨u, hu, hall⟩ := hh
  have := hall h' v hv
  rw [sub_self, abs_zero] at this
  have : u = v := sub_eq_zero.1 (abs_eq_zero.1 (le_antisymm this (abs_nonneg _)))
  rw [hu, this]

/-- Half floats keep the order of the numbers. -/
theorem C62_order (w w' h h' : Nat) (p q u v : ℚ) (hw : F32.ofBits w = .fin p)
    (hw' : F32.ofBits w' = .fin q) (hh : IsHalf w h) (hh' : IsHalf w' h') (hu : halfVal h = .fin u)
    (hv : halfVal h' = .fin v) (hpq : p < q) : u ≤ v := by
  obtain ⟨-, -, hh⟩ := hh
  obtain ⟨-, -, hh'⟩ := hh'
  rw [hw] at hh
  rw [hw'] at hh'
  simp only at hh hh'
  split at hh
  · rw [hu] at hh; cases hh
  split at hh'
  · rw [hv] at hh'; cases hh'
  obtain ⟨u', hu', n1⟩ := hh
  obtain ⟨v', hv', n2⟩ := hh'
  rw [hu] at hu'
  rw [hv] at hv'
  simp only [F32.fin.injEq] at hu' hv'
  subst hu' hv'
  have a := n1 h' v hv
  have b := n2 h u hu
  by_contra hc
  have hc := not_le.1 hc
  rcases le_or_gt p v with h1 | h1
  · -- p ≤ v < u
    rw [abs_of_nonneg (by linarith), abs_of_nonneg (by linarith)] at a
    linarith
  · rcases le_or_gt u q with h2 | h2
    · rw [abs_of_nonpos (a := v - q) (by linarith), abs_of_nonpos (a := u - q) (by linarith)] at b
      linarith
    · -- v < p < q < u
      rw [abs_of_nonneg (a := u - p) (by linarith), abs_of_nonpos (a := v - p) (by linarith)] at a
      rw [abs_of_nonpos (a := v - q) (by linarith), abs_of_nonneg (a := u - q) (by linarith)] at b
      linarith

/-- An R16G16 float surface on a processor with the instruction: the pixels hold 1, the number
1 + 2^-11 halfway between two half floats, 65520 and NaN. -/
example : NearestHalves Toy.ext ∧
    ∃ t t', Conversion Toy.ext Toy.view Toy.real t t' .R16G16 .Float ∧
    Surface Toy.view t t' none 0 0
      (Toy.view ⟨4, 1, true, .Linear, [0x3F800000, 0x3F801000, 0x477FF000, 0x7FC00000]⟩)
      [0x00, 0x3C, 0x00, 0x3C, 0x00, 0x3C, 0x00, 0x3C, 0x00, 0x7C, 0x00, 0x7C, 0x00, 0x7E, 0x00, 0x7E] ∧
    Fits .R16G16 4 1 ∧ layout .R16G16 = some [(.R, 16), (.G, 16)] := by
  refine ⟨Or.inl ⟨0xFFFAF38F, rfl, by norm_num⟩, ?_⟩
  obtain ⟨t, t', h1, h2⟩ := Toy.sample
    (ops := Toy.single 4 1 [0x3F800000, 0x3F801000, 0x477FF000, 0x7FC00000])
    (f := .R16G16) (ty := .Float) (face := none) (m := 0) (d := 0)
    (expected := [0x00, 0x3C, 0x00, 0x3C, 0x00, 0x3C, 0x00, 0x3C, 0x00, 0x7C, 0x00, 0x7C,
      0x00, 0x7E, 0x00, 0x7E])
    (g := ⟨4, 1, true, .Linear, [0x3F800000, 0x3F801000, 0x477FF000, 0x7FC00000]⟩)
    (Toy.single_safe _ _ _ (by norm_num) (by norm_num)) (by decide +kernel)
  exact ⟨t, t', h1, h2, ⟨by norm_num, by norm_num, by simp only [layout]; decide⟩, rfl⟩

/-- A half float word and the float of the same number: 1.5 is stored as 1.5. -/
example : IsHalf 0x3FC00000 0x3E00 ∧ halfVal 0x3E00 = .fin (3 / 2) ∧
    F32.ofBits 0x3FC00000 = .fin (3 / 2) := by
  refine ⟨?_, by decide +kernel, by decide +kernel⟩
  have := (hardwareHalf_spec 0x3FC00000).1
  rwa [show hardwareHalf 0x3FC00000 = 0x3E00 by decide +kernel] at this

end Cuttlefish
