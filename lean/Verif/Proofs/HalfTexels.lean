import Verif.Proofs.HalfFloat
import Verif.Proofs.Converted
/-
Texels of the half float formats and of the two packed float formats.
-/
namespace Cuttlefish
open Spec

variable {X : Ext} {Img : Type} {view : Img → FImg} {W : World Img} {t t' : Tex Img} {f : Format}
  {ty : TType} {face : Option CubeFace} {m d : Nat} {img : FImg} {bytes : List UInt8}

theorem half_texel (X : Ext) (n : Nat) (p : Pixel) (hx : ∀ c ∈ rgba n, X.half (c.of p) < 2 ^ 16) :
    ∃ bs, texelBytes X (.half n) p = .ok bs ∧ 8 * bs.length = bitsOf ((rgba n).map (fun c => (c, 16))) ∧
      texelFields ((rgba n).map (fun c => (c, 16))) bs =
        ((rgba n).map (fun c => (c, 16))).map (fun e => (e.1, X.half (e.1.of p))) := by
  obtain ⟨bs, h1, h2, h3⟩ := array_texel X (.half n) p 2 X.half (rgba n)
    (fun c hc => ⟨rfl, by simpa using hx c hc⟩)
  refine ⟨bs.flatten, ?_, ?_, ?_⟩
  · show (do
        let bs ← mapRes (chanBytes X (.half n)) (p.chans.take n)
        pure bs.flatten) = _
    rw [rgba_chans, h1]
    rfl
  · rw [h2]; exact (bitsOf_map 2 _).symm
  · rw [texelFields, if_pos (isArray_map 2 _), List.map_map]
    exact h3

/-- The formats stored as half floats. -/
theorem half_conv {c : Features} {f : Format} {k : Conv} {cs : List (Chan × Nat)}
    (hk : createConverter c f .Float = some k) (hl : layout f = some cs) (h16 : ∀ e ∈ cs, e.2 = 16) :
    ∃ n, k = .half n ∧ cs = (rgba n).map (fun c => (c, 16)) := by
  cases f <;> simp only [layout, reduceCtorEq, Option.some.injEq] at hl <;> subst hl <;>
    first
      | (exfalso; simp at h16; done)
      | (simp only [createConverter, create16, Option.some.injEq] at hk
         exact ⟨_, hk.symm, rfl⟩)
      | (exfalso; simp [createConverter, create8, create32, ifUNorm] at hk; done)

/-- The fields of a texel of half floats. -/
theorem Spec.Surface.halves (hC : Conversion X view W t t' f .Float)
    (hS : Surface view t t' face m d img bytes) {cs : List (Chan × Nat)} (hl : layout f = some cs)
    (hf : Fits f img.width img.height) (h16 : ∀ e ∈ cs, e.2 = 16) {x y : Nat} (hx : x < img.width)
    (hy : y < img.height) (hh : ∀ e ∈ cs, X.half (e.1.of (img.px x y)) < 2 ^ 16) :
    texelFields cs (texelAt bytes (blockSize f) img.width x y) =
      cs.map (fun e => (e.1, X.half (e.1.of (img.px x y)))) ∧
    8 * (texelAt bytes (blockSize f) img.width x y).length = bitsOf cs := by
  obtain ⟨k, hk, -, h2⟩ := hS.texel hC hl hf
  obtain ⟨n, rfl, rfl⟩ := half_conv hk hl h16
  obtain ⟨bs, b1, b2, b3⟩ := half_texel X n (img.px x y)
    (fun c hc => hh (c, 16) (List.mem_map_of_mem hc))
  rw [h2 x y hx hy] at b1
  simp only [Res.ok.injEq] at b1
  rw [b1]
  exact ⟨b3, b2⟩

/-- The texels of the two packed float formats. -/
theorem Spec.Surface.packedFloats (hC : Conversion X view W t t' f .UFloat)
    (hS : Surface view t t' face m d img bytes) {cs : List (Chan × Nat)} (hl : layout f = some cs)
    (hf : Fits f img.width img.height) {x y : Nat} (hx : x < img.width) (hy : y < img.height) :
    (f = .B10G11R11_UFloat ∧ texelAt bytes 4 img.width x y =
        leBytes 4 (X.packF11 (img.px x y).r (img.px x y).g (img.px x y).b)) ∨
      (f = .E5B9G9R9_UFloat ∧ texelAt bytes 4 img.width x y =
        leBytes 4 (X.packE5 (img.px x y).r (img.px x y).g (img.px x y).b)) := by
  obtain ⟨k, hk, -, h2⟩ := hS.texel hC hl hf
  have h3 := h2 x y hx hy
  cases f <;> simp only [layout, reduceCtorEq, Option.some.injEq] at hl <;>
    first
      | (exfalso; simp [createConverter, create8, create16, create32, ifUNorm] at hk; done)
      | (left
         simp only [createConverter, if_true, Option.some.injEq] at hk
         subst hk
         simp only [texelBytes, packedBytes, Res.ok.injEq] at h3
         exact ⟨rfl, h3.symm⟩)
      | (right
         simp only [createConverter, if_true, Option.some.injEq] at hk
         subst hk
         simp only [texelBytes, packedBytes, Res.ok.injEq] at h3
         exact ⟨rfl, h3.symm⟩)

end Cuttlefish
