import Verif.Proofs.HalfTexels
import Verif.Proofs.Sample
/-
C16: packed formats keep every channel.
-/
namespace Cuttlefish
open Spec

/-- There is one quantiser per type and width, meeting the specification of stored values, such
that in every surface of every uncompressed format the fields of every texel, read where the format
name says (first channel in the most significant bits of a packed word; first in memory for
channels of whole bytes), are exactly the quantised channels of the pixel; and the fields fill the
texel.

Partial: excluded are half floats (they are in C62), the two unsigned float formats packed by external
code (`C16_packed_partial`), and surfaces beyond the 32-bit limits (`Fits`). -/
theorem C16_fields_partial : ∃ q : TType → Nat → Nat → Nat,
    ∀ (X : Ext) {Img : Type} (view : Img → FImg) (W : World Img) (t t' : Tex Img) (f : Format)
      (ty : TType) (cs : List (Chan × Nat)), layout f = some cs → ty ≠ .UFloat →
      (ty = .Float → ∀ e ∈ cs, e.2 = 32) → Conversion X view W t t' f ty →
      (∀ e ∈ cs, ∀ w, Storable ty e.2 w → IsStored ty e.2 w (q ty e.2 w)) ∧
      ∀ face m d img bytes, Surface view t t' face m d img bytes → Fits f img.width img.height →
      ∀ x y, x < img.width → y < img.height →
        (∀ e ∈ cs, Storable ty e.2 (e.1.of (img.px x y))) →
        texelFields cs (texelAt bytes (blockSize f) img.width x y) =
          cs.map (fun e => (e.1, q ty e.2 (e.1.of (img.px x y)))) ∧
        8 * (texelAt bytes (blockSize f) img.width x y).length = bitsOf cs := by
  refine ⟨quantQ, ?_⟩
  intro X Img view W t t' f ty cs hl ht ht2 hC
  refine ⟨?_, ?_⟩
  · intro e he w hw
    obtain ⟨⟨k, a, hk, -⟩, -⟩ := hC.effect
    exact stored_all hk hl he hw.2.1
  · intro face m d img bytes hS hf x y hx hy hst
    exact hS.fields hC hl hf ht ht2 hx hy hst

theorem wordFields_inj (cs : List (Chan × Nat)) (w w' : Nat) (h : wordFields cs w = wordFields cs w') :
    w % 2 ^ bitsOf cs = w' % 2 ^ bitsOf cs := by
  induction cs with
  | nil => simp [bitsOf, Nat.mod_one]
  | cons e cs ih =>
    obtain ⟨c, n⟩ := e
    simp only [wordFields, List.cons.injEq, Prod.mk.injEq, true_and] at h
    have hb : bitsOf ((c, n) :: cs) = bitsOf cs + n := by simp [bitsOf]; omega
    rw [hb, pow_add, Nat.mod_mul, Nat.mod_mul, ih h.2, h.1]

theorem arrayFields_inj (cs : List (Chan × Nat)) : ∀ (bs bs' : List UInt8),
    (∀ e ∈ cs, e.2 % 8 = 0) → 8 * bs.length = bitsOf cs → 8 * bs'.length = bitsOf cs →
    arrayFields cs bs = arrayFields cs bs' → bs = bs' := by
  induction cs with
  | nil =>
    intro bs bs' _ h1 h2 _
    simp [bitsOf] at h1 h2
    rw [h1, h2]
  | cons e cs ih =>
    obtain ⟨c, n⟩ := e
    intro bs bs' h8 h1 h2 h
    simp only [arrayFields, List.cons.injEq, Prod.mk.injEq, true_and] at h
    have hb : bitsOf ((c, n) :: cs) = n + bitsOf cs := by simp [bitsOf]
    have hn : n % 8 = 0 := h8 (c, n) List.mem_cons_self
    have r := ih (bs.drop (n / 8)) (bs'.drop (n / 8)) (fun e he => h8 e (List.mem_cons_of_mem _ he))
      (by rw [List.length_drop]; omega) (by rw [List.length_drop]; omega) h.2
    have l : bs.take (n / 8) = bs'.take (n / 8) := by
      rw [← leBytes_leVal (bs.take (n / 8)), ← leBytes_leVal (bs'.take (n / 8)), h.1,
        List.length_take, List.length_take, Nat.min_eq_left (by omega), Nat.min_eq_left (by omega)]
    rw [← List.take_append_drop (n / 8) bs, ← List.take_append_drop (n / 8) bs', l, r]

/-- The fields do not overlap and leave no bit over: the texel size is the sum of the widths, and
two texels with the same fields are the same bytes. -/
theorem C16_fields_fill (f : Format) (cs : List (Chan × Nat)) (hl : layout f = some cs)
    (hne : f ≠ .E5B9G9R9_UFloat) :
    8 * blockSize f = bitsOf cs ∧ ∀ bs bs' : List UInt8, bs.length = blockSize f →
      bs'.length = blockSize f → texelFields cs bs = texelFields cs bs' → bs = bs' := by
  have hsize : 8 * blockSize f = bitsOf cs := by
    cases f <;> simp only [layout, Option.some.injEq, reduceCtorEq] at hl <;>
      first | exact absurd rfl hne | (subst hl; decide)
  refine ⟨hsize, ?_⟩
  intro bs bs' h1 h2 h
  unfold texelFields at h
  split at h
  · rename_i ha
    refine arrayFields_inj cs bs bs' ?_ (by omega) (by omega) h
    intro e he
    simpa using List.all_eq_true.1 ha e he
  · have := wordFields_inj cs _ _ h
    have b1 := leVal_lt bs
    have b2 := leVal_lt bs'
    rw [h1, show (256 : Nat) = 2 ^ 8 from rfl, ← pow_mul, hsize] at b1
    rw [h2, show (256 : Nat) = 2 ^ 8 from rfl, ← pow_mul, hsize] at b2
    rw [Nat.mod_eq_of_lt b1, Nat.mod_eq_of_lt b2] at this
    rw [← leBytes_leVal bs, ← leBytes_leVal bs', this, h1, h2]

/-- The texels of the two packed float formats are the words the library packs from red, green and
blue of the pixel.

Partial: what the library packs is not specified here. -/
theorem C16_packed_partial (X : Ext) {Img : Type} (view : Img → FImg) (W : World Img)
    (t t' : Tex Img) (f : Format) (hC : Conversion X view W t t' f .UFloat)
    (hlay : layout f ≠ none) (face : Option CubeFace)
    (m d : Nat) (img : FImg) (bytes : List UInt8) (hS : Surface view t t' face m d img bytes)
    (hf : Fits f img.width img.height) (x y : Nat) (hx : x < img.width) (hy : y < img.height) :
    (f = .B10G11R11_UFloat ∧ leVal (texelAt bytes 4 img.width x y) =
        X.packF11 (img.px x y).r (img.px x y).g (img.px x y).b % 2 ^ 32) ∨
      (f = .E5B9G9R9_UFloat ∧ leVal (texelAt bytes 4 img.width x y) =
        X.packE5 (img.px x y).r (img.px x y).g (img.px x y).b % 2 ^ 32) := by
  obtain ⟨cs, hl⟩ := Option.ne_none_iff_exists'.1 hlay
  rcases hS.packedFloats hC hl hf hx hy with ⟨h1, h2⟩ | ⟨h1, h2⟩
  · refine Or.inl ⟨h1, ?_⟩
    rw [h2, leVal_leBytes]; norm_num
  · refine Or.inr ⟨h1, ?_⟩
    rw [h2, leVal_leBytes]; norm_num

/-- An A2R10G10B10 surface: the pixel (1, 1, 1, 1) and the pixel (0, 0, 0, 1). -/
example : ∃ t t', Conversion Toy.ext Toy.view Toy.real t t' .A2R10G10B10 .UNorm ∧
    Surface Toy.view t t' none 0 0 (Toy.view ⟨2, 1, true, .Linear, [0x3F800000, 0]⟩)
      [0xFF, 0xFF, 0xFF, 0xFF, 0, 0, 0, 0xC0] ∧ Fits .A2R10G10B10 2 1 ∧
    layout .A2R10G10B10 = some [(.A, 2), (.R, 10), (.G, 10), (.B, 10)] ∧
    Storable .UNorm 10 0x3F800000 ∧ Storable .UNorm 10 0 ∧
    texelFields [(.A, 2), (.R, 10), (.G, 10), (.B, 10)] [0, 0, 0, 0xC0] =
      [(.A, 3), (.R, 0), (.G, 0), (.B, 0)] := by
  obtain ⟨t, t', h1, h2⟩ := Toy.sample
    (ops := Toy.single 2 1 [0x3F800000, 0])
    (f := .A2R10G10B10) (ty := .UNorm)
    (face := none) (m := 0) (d := 0) (expected := [0xFF, 0xFF, 0xFF, 0xFF, 0, 0, 0, 0xC0])
    (g := ⟨2, 1, true, .Linear, [0x3F800000, 0]⟩)
    (Toy.single_safe _ _ _ (by norm_num) (by norm_num)) (by decide +kernel)
  refine ⟨t, t', h1, h2, ⟨by norm_num, by norm_num, by simp only [layout]; decide⟩, rfl, ?_, ?_,
    by decide⟩
  · exact ⟨by norm_num, by decide +kernel, by simp, by simp⟩
  · exact ⟨by norm_num, by decide +kernel, by simp, by simp⟩

/-- A B10G11R11 surface with an external packer that returns 0. -/
example : ∃ t t', Conversion Toy.ext Toy.view Toy.real t t' .B10G11R11_UFloat .UFloat ∧
    Surface Toy.view t t' none 0 0 (Toy.view ⟨2, 1, true, .Linear, [0x3F800000, 0]⟩)
      [0, 0, 0, 0, 0, 0, 0, 0] ∧ Fits .B10G11R11_UFloat 2 1 ∧ layout .B10G11R11_UFloat ≠ none := by
  obtain ⟨t, t', h1, h2⟩ := Toy.sample
    (ops := Toy.single 2 1 [0x3F800000, 0])
    (f := .B10G11R11_UFloat) (ty := .UFloat)
    (face := none) (m := 0) (d := 0) (expected := [0, 0, 0, 0, 0, 0, 0, 0])
    (g := ⟨2, 1, true, .Linear, [0x3F800000, 0]⟩)
    (Toy.single_safe _ _ _ (by norm_num) (by norm_num)) (by decide +kernel)
  exact ⟨t, t', h1, h2, ⟨by norm_num, by norm_num, by simp only [layout]; decide⟩, by simp [layout]⟩

end Cuttlefish
