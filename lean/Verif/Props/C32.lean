import Verif.Model.Adjust
import Verif.Spec.Adjust
import Verif.Spec.ToyImage
import Verif.Proofs.Pixels
import Verif.Proofs.ImageGeom
import Verif.Proofs.Fields
/-
C32: adjustment of value ranges, in IEEE arithmetic.  `sources`, `floats`, `largest`, `integers`,
`lowest` and `FloatsOf` are in `Verif/Spec/Adjust.lean`.
-/
namespace Cuttlefish
open Spec
variable {N : Type}

/-- Everything but integer-source images for SNorm, UInt and Int textures is left unchanged. -/
theorem C32_unchanged (A : Arith N) (FI : FreeImage N) (i : Image N) (type : TType) (orig : IFormat)
    (h : type ∉ [TType.SNorm, .UInt, .Int] ∨ (if orig = .Invalid then i.format else orig) ∉ sources) :
    adjustImageValueRange A FI i type orig = .ok (some i) := by
  unfold adjustImageValueRange
  dsimp only
  rw [if_neg]
  rintro ⟨h1, h2⟩
  rcases h with h | h
  · exact h (by simpa using h1)
  · generalize (if orig = IFormat.Invalid then i.format else orig) = o at h h2
    cases o <;> simp_all [adjusts, sources]

/-- The loops replace every component. -/
theorem adjustLoop_spec (A : Arith N) {i : Image N} (hf : i.format ∈ floats) (hi : ImgOk A i)
    (orig : IFormat) (type : TType) :
    ∃ j, adjustLoop A orig type i = .ok j ∧ j.format = i.format ∧ j.colorSpace = i.colorSpace ∧
      j.bmp.width = i.bmp.width ∧ j.bmp.height = i.bmp.height ∧
      ∀ y, y < i.bmp.height → ∀ x, x < i.bmp.width → ∃ l, i.bmp.px y x = .nums l ∧
        j.bmp.px y x = .nums (adjustValues A orig type 0 l) := by
  refine write_grid (dst := i) (h := i.bmp.height) (w := i.bmp.width) (q := fun y x => (y, x))
    (P := fun y x p => ∃ l, i.bmp.px y x = .nums l ∧ p = .nums (adjustValues A orig type 0 l)) ?_
    (by intro y _ x _ y' _ x' _ h; simpa using h)
  intro y hy x hx d df dw dh dp
  have hp := hi y x hy hx
  obtain ⟨l, el⟩ : ∃ l, i.bmp.px y x = .nums l := by
    revert hp
    cases hpx : i.bmp.px y x with
    | nums l => exact fun _ => ⟨l, rfl⟩
    | ints l =>
      simp only [floats, List.mem_cons, List.not_mem_nil, or_false] at hf
      rcases hf with hf | hf | hf <;> rw [hf] <;> simp [PxOk]
  refine ⟨.nums (adjustValues A orig type 0 l), ⟨l, el, rfl⟩, ?_⟩
  rw [Bitmap.read_ok (by omega) (by omega), Res.ok_bind, dp y x rfl, el]
  exact Image.put_ok (by omega) (by omega) _

theorem adjustValues_length (A : Arith N) (orig : IFormat) (type : TType) (l : List N) :
    ∀ c, (adjustValues A orig type c l).length = l.length := by
  induction l with
  | nil => intro c; rfl
  | cons a l ih => intro c; simp [adjustValues, ih]

theorem adjustValues_get (A : Arith N) (orig : IFormat) (type : TType) (l : List N) :
    ∀ c k (v : N), l[k]? = some v →
      (adjustValues A orig type c l)[k]? = some (adjustValue A orig type (c + k) v) := by
  induction l with
  | nil => intro c k v h; simp at h
  | cons a l ih =>
    intro c k v h
    cases k with
    | zero => simp at h; subst h; rfl
    | succ k =>
      simp only [List.getElem?_cons_succ] at h
      simp only [adjustValues, List.getElem?_cons_succ]
      rw [ih (c + 1) k v h, show c + 1 + k = c + (k + 1) by omega]

/-- `SNorm`: a value from 0 to 1. -/
theorem adjust_snorm (L : Libm) (orig : IFormat) (c : Nat) {q : ℚ} (h0 : 0 ≤ q) (h1 : q ≤ 1) :
    adjustValue (Arith.ieee L) orig .SNorm c (.fin q) = .fin (rne (rne (q * 2) - 1)) ∧
      -1 ≤ rne (rne (q * 2) - 1) ∧ rne (rne (q * 2) - 1) ≤ 1 ∧
      |rne (rne (q * 2) - 1) - (2 * q - 1)| ≤ 1 / 2 ^ 23 := by
  have e2 : Dbl.ofQ 2 = .fin 2 := by simpa using ofQ_nat (n := 2) (by norm_num)
  have e1 : Dbl.ofQ (-1) = .fin (-1) := by simpa using ofQ_int (n := -1) (by norm_num)
  have r2 : rne 2 = 2 := by simpa using rne_int (n := 2) (by norm_num)
  have r1 : rne 1 = 1 := by simpa using rne_int (n := 1) (by norm_num)
  have rm1 : rne (-1) = -1 := by simpa using rne_int (n := -1) (by norm_num)
  have a0 : 0 ≤ rne (q * 2) := by rw [← rne_zero]; exact rne_mono (by linarith)
  have a1 : rne (q * 2) ≤ 2 := by
    have := rne_mono (show q * 2 ≤ 2 by linarith)
    rwa [r2] at this
  have big : (2 : ℚ) ≤ 2 ^ (127 : ℤ) := by norm_num
  have b1 : -1 ≤ rne (rne (q * 2) - 1) := by
    have := rne_mono (show (-1 : ℚ) ≤ rne (q * 2) - 1 by linarith)
    rwa [rm1] at this
  have b2 : rne (rne (q * 2) - 1) ≤ 1 := by
    have := rne_mono (show rne (q * 2) - 1 ≤ (1 : ℚ) by linarith)
    rwa [r1] at this
  have m1 : F32.round (q * 2) = .fin (rne (q * 2)) :=
    round_fin ((abs_le.2 ⟨by linarith, by linarith⟩ : |q * 2| ≤ 2).trans big)
  have m2 : F32.round (rne (q * 2) - 1) = .fin (rne (rne (q * 2) - 1)) :=
    round_fin ((abs_le.2 ⟨by linarith, by linarith⟩ : |rne (q * 2) - 1| ≤ 2).trans big)
  have d1 := rne_abs (q := q * 2) (e := 0) (by norm_num) (by rw [abs_le]; norm_num; constructor <;> linarith)
  have d2 := rne_abs (q := rne (q * 2) - 1) (e := 0) (by norm_num)
    (by rw [abs_le]; norm_num; constructor <;> linarith)
  norm_num at d1 d2
  rw [abs_le] at d1 d2
  refine ⟨?_, b1, b2, ?_⟩
  · unfold adjustValue
    rw [if_pos rfl]
    simp only [Arith.ieee, e2, e1, F32.mulWith, m1, F32.addWith, ← sub_eq_add_neg, m2]
  · rw [abs_le]
    norm_num
    constructor <;> linarith [d1.1, d1.2, d2.1, d2.2]

/-- `UInt` and `Int`: the nearest integer. -/
theorem adjust_int' {m : ℕ} {v off : ℤ} {q : ℚ} (hm0 : 0 < m) (hm : m ≤ 65535) (hv0 : 0 ≤ v) (hv : v ≤ m)
    (ho : |off| ≤ 32768) (hp : |q * m - v| ≤ 1 / 4) :
    F32.roundAway (F32.addWith F32.round (F32.mulWith F32.round (.fin q) (.fin m)) (.fin off)) =
      .fin ((v + off : ℤ) : ℚ) := by
  have hm0' : (0 : ℚ) < m := by exact_mod_cast hm0
  have hm' : (m : ℚ) ≤ 65535 := by exact_mod_cast hm
  have hv0' : (0 : ℚ) ≤ v := by exact_mod_cast hv0
  have hv' : (v : ℚ) ≤ m := by exact_mod_cast hv
  have ho1 : -(32768 : ℚ) ≤ off ∧ (off : ℚ) ≤ 32768 := by
    rw [abs_le] at ho; exact ⟨by exact_mod_cast ho.1, by exact_mod_cast ho.2⟩
  have hp' := abs_le.1 hp
  have big : (2 : ℚ) ^ 17 ≤ 2 ^ (127 : ℤ) := by norm_num
  have b1 : |q * m| ≤ 2 ^ 17 := by rw [abs_le]; constructor <;> norm_num <;> linarith [hp'.1, hp'.2]
  have d1 := rne_abs (q := q * m) (e := 16) (by norm_num) (by simpa using b1)
  norm_num at d1
  rw [abs_le] at d1
  have b2 : |rne (q * m) + off| ≤ 2 ^ 17 := by
    rw [abs_le]; constructor <;> norm_num <;> linarith [hp'.1, hp'.2, d1.1, d1.2, ho1.1, ho1.2]
  have d2 := rne_abs (q := rne (q * m) + off) (e := 16) (by norm_num) (by simpa using b2)
  norm_num at d2
  rw [abs_le] at d2
  simp only [F32.mulWith, round_fin (b1.trans big), F32.addWith, round_fin (b2.trans big), F32.roundAway]
  have e := abs_le.1 (roundAway_err (rne (rne (q * m) + off)))
  have close : |((roundAwayQ (rne (rne (q * m) + off)) : ℤ) : ℚ) - ((v + off : ℤ) : ℚ)| < 1 := by
    push_cast
    rw [abs_lt]
    constructor <;> linarith [hp'.1, hp'.2, d1.1, d1.2, d2.1, d2.2, e.1, e.2]
  have : |roundAwayQ (rne (rne (q * m) + off)) - (v + off)| < 1 := by exact_mod_cast close
  rw [Int.abs_lt_one_iff, sub_eq_zero] at this
  rw [this]

theorem adjust_int {m : ℕ} {v off : ℤ} {q : ℚ} (hm0 : 0 < m) (hm : m ≤ 65535) (hv0 : 0 ≤ v) (hv : v ≤ m)
    (ho : |off| ≤ 32768) (hq : |q - v / m| ≤ 1 / 2 ^ 18) :
    F32.roundAway (F32.addWith F32.round (F32.mulWith F32.round (.fin q) (.fin m)) (.fin off)) =
      .fin ((v + off : ℤ) : ℚ) := by
  have hm0' : (0 : ℚ) < m := by exact_mod_cast hm0
  have hm' : (m : ℚ) ≤ 65535 := by exact_mod_cast hm
  refine adjust_int' hm0 hm hv0 hv ho ?_
  have : q * m - v = (q - v / m) * m := by field_simp
  rw [this, abs_mul, abs_of_pos hm0']
  calc |q - v / m| * m ≤ 1 / 2 ^ 18 * 65535 := by gcongr
    _ ≤ 1 / 4 := by norm_num

theorem adjust_tables {orig : IFormat} {type : TType} {k m : ℕ} (ht : type ∈ [TType.UInt, .Int])
    (hm : largest orig k = some m) : adjustMultiply orig k = m ∧ adjustOffset orig type k = lowest type m ∧
      0 < m ∧ m ≤ 65535 ∧ |lowest type m| ≤ 32768 := by
  have three (l : List ℕ) (a b c : ℕ) (hl : l = [a, b, c]) (h : l[k]? = some m) :
      k = 0 ∧ m = a ∨ k = 1 ∧ m = b ∨ k = 2 ∧ m = c := by
    subst hl
    rcases k with _ | _ | _ | k <;> simp_all
  have key : (m = 31 ∨ m = 63 ∨ m = 255 ∨ m = 65535) ∧ adjustMultiply orig k = m ∧
      adjustOffset orig .UInt k = 0 ∧ adjustOffset orig .Int k = -((m + 1) / 2 : ℤ) := by
    cases orig <;> simp only [largest, Option.some.injEq, reduceCtorEq] at hm
    all_goals first
      | subst hm; simp [adjustMultiply, adjustOffset]; done
      | rcases three _ _ _ _ rfl hm with ⟨rfl, rfl⟩ | ⟨rfl, rfl⟩ | ⟨rfl, rfl⟩ <;>
          simp [adjustMultiply, adjustOffset]
  obtain ⟨h1, h2, h3, h4⟩ := key
  simp only [List.mem_cons, List.not_mem_nil, or_false] at ht
  refine ⟨h2, ?_, ?_, ?_, ?_⟩
  · rcases ht with rfl | rfl
    · rw [h3]; simp [lowest]
    · rw [h4, lowest, if_pos rfl]; push_cast; rfl
  · rcases h1 with rfl | rfl | rfl | rfl <;> norm_num
  · rcases h1 with rfl | rfl | rfl | rfl <;> norm_num
  · rcases ht with rfl | rfl
    · simp [lowest]
    · rw [lowest, if_pos rfl]
      rcases h1 with rfl | rfl | rfl | rfl <;> norm_num

/-- One component for UInt and Int. -/
theorem adjust_component (L : Libm) {orig : IFormat} {type : TType} {k m : ℕ} {v : ℤ} {x : Dbl}
    (ht : type ∈ [TType.UInt, .Int]) (hm : largest orig k = some m) (hv0 : 0 ≤ v) (hv : v ≤ m)
    (hx : StandsFor x (m, v)) :
    adjustValue (Arith.ieee L) orig type k x = .fin ((v + lowest type m : ℤ) : ℚ) := by
  obtain ⟨q, rfl, -, -, hq⟩ := hx
  obtain ⟨h1, h2, h3, h4, h5⟩ := adjust_tables ht hm
  have hs : type ≠ .SNorm := by rintro rfl; simp at ht
  unfold adjustValue
  rw [if_neg hs, h1, h2]
  have e1 : Dbl.ofQ (m : ℚ) = .fin m := ofQ_nat (by omega)
  have e2 : Dbl.ofQ ((lowest type m : ℤ) : ℚ) = .fin (lowest type m : ℤ) := ofQ_int (by omega)
  simp only [Arith.ieee, e1, e2]
  exact adjust_int h3 h4 hv0 hv h5 hq

/-- The adjustment of an image that is stored as floats already. -/
theorem adjust_floats (A : Arith N) (FI : FreeImage N) {i : Image N} (hf : i.format ∈ floats)
    (hi : ImgOk A i) {orig : IFormat} (ho : orig ∈ sources) {type : TType}
    (ht : type ∈ [TType.SNorm, .UInt, .Int]) :
    ∃ j, adjustImageValueRange A FI i type orig = .ok (some j) ∧ j.format = i.format ∧
      j.colorSpace = i.colorSpace ∧ j.bmp.width = i.bmp.width ∧ j.bmp.height = i.bmp.height ∧
      ∀ y, y < i.bmp.height → ∀ x, x < i.bmp.width → ∃ l, i.bmp.px y x = .nums l ∧
        j.bmp.px y x = .nums (adjustValues A orig type 0 l) := by
  obtain ⟨j, e, h⟩ := adjustLoop_spec A hf hi orig type
  refine ⟨j, ?_, h⟩
  have e1 : orig ≠ .Invalid := by rintro rfl; simp [sources] at ho
  have e2 : adjusts orig = true := by
    simp only [sources, List.mem_cons, List.not_mem_nil, or_false] at ho
    rcases ho with rfl | rfl | rfl | rfl | rfl | rfl | rfl | rfl <;> rfl
  have e3 : adjustedFormat i.format = some i.format ∧ adjustConverts i.format = false := by
    simp only [floats, List.mem_cons, List.not_mem_nil, or_false] at hf
    rcases hf with hf | hf | hf <;> rw [hf] <;> exact ⟨rfl, rfl⟩
  unfold adjustImageValueRange
  simp only [if_neg e1]
  rw [if_pos ⟨by simpa using ht, e2⟩, e3.1]
  simp only [adjustSource, e3.2, Bool.false_eq_true, if_false, Res.ok_bind, adjustAll, e]

/-- SNorm, on an image of floats of a given origin: every component from 0 to 1 becomes twice that
minus one (to within the rounding of floats), inside of -1 to 1, and 0 and 1 become exactly -1 and 1.
Bigger values do not become smaller. -/
theorem C32_snorm (L : Libm) (FI : FreeImage Dbl) {i : Image Dbl} (hf : i.format ∈ floats)
    (hi : ImgOk (Arith.ieee L) i) {orig : IFormat} (ho : orig ∈ sources) :
    ∃ j, adjustImageValueRange (Arith.ieee L) FI i .SNorm orig = .ok (some j) ∧ j.format = i.format ∧
      j.bmp.width = i.bmp.width ∧ j.bmp.height = i.bmp.height ∧
      ∀ y, y < i.bmp.height → ∀ x, x < i.bmp.width → ∃ l l', i.bmp.px y x = .nums l ∧
        j.bmp.px y x = .nums l' ∧ l'.length = l.length ∧
        ∀ (k : ℕ) (q : ℚ), l[k]? = some (.fin q) → 0 ≤ q → q ≤ 1 →
          ∃ r : ℚ, l'[k]? = some (.fin r) ∧ -1 ≤ r ∧ r ≤ 1 ∧ |r - (2 * q - 1)| ≤ 1 / 2 ^ 23 ∧
            (q = 0 → r = -1) ∧ (q = 1 → r = 1) ∧
            ∀ (k₂ : ℕ) (q₂ r₂ : ℚ), l[k₂]? = some (.fin q₂) → q ≤ q₂ → q₂ ≤ 1 →
              l'[k₂]? = some (.fin r₂) → r ≤ r₂ := by
  obtain ⟨j, e, h1, -, h2, h3, h4⟩ := adjust_floats (Arith.ieee L) FI hf hi ho (type := .SNorm) (by simp)
  refine ⟨j, e, h1, h2, h3, fun y hy x hx => ?_⟩
  obtain ⟨l, el, ej⟩ := h4 y hy x hx
  refine ⟨l, _, el, ej, adjustValues_length _ _ _ _ _, fun k q hk q0 q1 => ?_⟩
  obtain ⟨a1, a2, a3, a4⟩ := adjust_snorm L orig (0 + k) q0 q1
  refine ⟨_, ?_, a2, a3, a4, ?_, ?_, ?_⟩
  · rw [adjustValues_get _ _ _ _ _ _ _ hk, a1]
  · rintro rfl
    rw [zero_mul, rne_zero, zero_sub]
    simpa using rne_int (n := -1) (by norm_num)
  · rintro rfl
    have r2 : rne 2 = 2 := by simpa using rne_int (n := 2) (by norm_num)
    have r1 : rne 1 = 1 := by simpa using rne_int (n := 1) (by norm_num)
    rw [one_mul, r2, show (2 : ℚ) - 1 = 1 by norm_num, r1]
  · intro k₂ q₂ r₂ hk₂ hq hq₂ hr₂
    obtain ⟨b1, -⟩ := adjust_snorm L orig (0 + k₂) (q0.trans hq) hq₂
    rw [adjustValues_get _ _ _ _ _ _ _ hk₂, b1] at hr₂
    cases hr₂
    exact rne_mono (by linarith [rne_mono (show q * 2 ≤ q₂ * 2 by linarith)])

/-- UInt and Int, on an image of floats of a given origin: a component that stands for the integer `v`
of the source format becomes exactly `v`, or `v` shifted to the signed range. -/
theorem C32_integers (L : Libm) (FI : FreeImage Dbl) {i : Image Dbl} (hf : i.format ∈ floats)
    (hi : ImgOk (Arith.ieee L) i) {orig : IFormat} (ho : orig ∈ sources) {type : TType}
    (ht : type ∈ [TType.UInt, .Int]) :
    ∃ j, adjustImageValueRange (Arith.ieee L) FI i type orig = .ok (some j) ∧ j.format = i.format ∧
      j.bmp.width = i.bmp.width ∧ j.bmp.height = i.bmp.height ∧
      ∀ y, y < i.bmp.height → ∀ x, x < i.bmp.width → ∃ l l', i.bmp.px y x = .nums l ∧
        j.bmp.px y x = .nums l' ∧ l'.length = l.length ∧
        ∀ (k m : ℕ) (v : ℤ) (x : Dbl), largest orig k = some m → 0 ≤ v → v ≤ m → l[k]? = some x →
          StandsFor x (m, v) → l'[k]? = some (.fin ((v + lowest type m : ℤ) : ℚ)) := by
  obtain ⟨j, e, h1, -, h2, h3, h4⟩ := adjust_floats (Arith.ieee L) FI hf hi ho (type := type)
    (by simp at ht ⊢; tauto)
  refine ⟨j, e, h1, h2, h3, fun y hy x hx => ?_⟩
  obtain ⟨l, el, ej⟩ := h4 y hy x hx
  refine ⟨l, _, el, ej, adjustValues_length _ _ _ _ _, fun k m v x hm hv0 hv hk hs => ?_⟩
  rw [adjustValues_get _ _ _ _ _ _ _ hk, Nat.zero_add, adjust_component L ht hm hv0 hv hs]

/-- The integers of a pixel are those of the tables. -/
theorem integers_largest {f : IFormat} (hf : f ∈ sources) {A : Arith N} {p : Px N} (hp : PxOk A f p) :
    ∀ (k m : ℕ) (v : ℤ), (integers f p)[k]? = some (m, v) → largest f k = some m ∧ 0 ≤ v ∧ v ≤ m := by
  intro k m v h
  have small {a b : ℤ} (hb : 0 < b) : 0 ≤ a % b ∧ a % b < b :=
    ⟨Int.emod_nonneg _ (by omega), Int.emod_lt_of_pos _ hb⟩
  unfold PxOk at hp
  simp only [sources, List.mem_cons, List.not_mem_nil, or_false] at hf
  split at hp <;> simp_all only [reduceCtorEq, or_false, false_or, Upto, integers, List.map_cons, List.map_nil]
  all_goals
    rcases k with _ | _ | _ | _ | k <;>
      simp only [List.getElem?_cons_zero, List.getElem?_cons_succ, List.getElem?_nil, Option.some.injEq,
        Prod.mk.injEq, reduceCtorEq] at h
  all_goals
    obtain ⟨rfl, rfl⟩ := h
    refine ⟨rfl, ?_, ?_⟩ <;> push_cast <;> omega

/-- A normalised integer read and stored as a float. -/
theorem single_norm (L : Libm) {m : ℕ} {v : ℤ} (h0 : m ≠ 0) (hm : m ≤ 65535) (hv0 : 0 ≤ v) (hv : v ≤ m) :
    StandsFor (Dbl.single ((Arith.ieee L).fromNorm m v)) (m, v) := by
  have hm1 : (0 : ℚ) < m := by exact_mod_cast Nat.pos_of_ne_zero h0
  have hv' : (v : ℚ) ≤ m := by exact_mod_cast hv
  have hv0' : (0 : ℚ) ≤ v := by exact_mod_cast hv0
  have q0 : (0 : ℚ) ≤ v / m := by positivity
  have q1 : (v : ℚ) / m ≤ 1 := by rw [div_le_one hm1]; exact hv'
  rw [fromNorm_nearest (L := L) h0 hm hv0 hv, ofQ_small (by rw [abs_of_nonneg q0]; linarith [show (1 : ℚ) ≤ 2 ^ 53 by norm_num])]
  obtain ⟨d0, d1⟩ := rneD_between (n := 1) (by norm_num) q0 (by simpa using q1)
  rw [Nat.cast_one] at d1
  have big : (1 : ℚ) ≤ 2 ^ (127 : ℤ) := by norm_num
  have r1 : rne 1 = 1 := by simpa using rne_int (n := 1) (by norm_num)
  have s0 : 0 ≤ rne (rneD (v / m)) := by rw [← rne_zero]; exact rne_mono d0
  have s1 : rne (rneD (v / m)) ≤ 1 := by have := rne_mono d1; rwa [r1] at this
  refine ⟨rne (rneD (v / m)), ?_, s0, s1, ?_⟩
  · simp only [Dbl.single]
    exact round_fin ((abs_of_nonneg d0).le.trans (d1.trans big))
  · have e1 := rneD_abs (q := v / m) (e := -1) (by norm_num) (by rw [abs_of_nonneg q0]; simpa using q1)
    have e2 := rne_abs (q := rneD (v / m)) (e := -1) (by norm_num) (by rw [abs_of_nonneg d0]; simpa using d1)
    norm_num at e1 e2
    rw [abs_le] at e1 e2 ⊢
    norm_num
    constructor <;> linarith [e1.1, e1.2, e2.1, e2.2]

/-- The luminance of a grey value, stored as a float. -/
theorem single_gray (L : Libm) {m : ℕ} {v : ℤ} (h0 : m ≠ 0) (hm : m ≤ 65535) (hv0 : 0 ≤ v) (hv : v ≤ m) :
    StandsFor (Dbl.single ((Arith.ieee L).toGrayscale ((Arith.ieee L).fromNorm m v)
      ((Arith.ieee L).fromNorm m v) ((Arith.ieee L).fromNorm m v))) (m, v) := by
  have hm1 : (0 : ℚ) < m := by exact_mod_cast Nat.pos_of_ne_zero h0
  have hm2 : (m : ℚ) ≤ 65535 := by exact_mod_cast hm
  have hv' : (v : ℚ) ≤ m := by exact_mod_cast hv
  have hv0' : (0 : ℚ) ≤ v := by exact_mod_cast hv0
  have q0 : (0 : ℚ) ≤ v / m := by positivity
  have q1 : (v : ℚ) / m ≤ 1 := by rw [div_le_one hm1]; exact hv'
  rw [fromNorm_nearest (L := L) h0 hm hv0 hv, ofQ_small (by rw [abs_of_nonneg q0]; linarith [show (1 : ℚ) ≤ 2 ^ 53 by norm_num])]
  obtain ⟨d0, d1⟩ := rneD_between (n := 1) (by norm_num) q0 (by simpa using q1)
  rw [Nat.cast_one] at d1
  have e1 := rneD_abs (q := v / m) (e := -1) (by norm_num) (by rw [abs_of_nonneg q0]; simpa using q1)
  norm_num at e1
  rw [abs_le] at e1
  have r1 : rne (1 + 1 / 2 ^ 50) = 1 := by decide +kernel
  rcases eq_or_lt_of_le hv0 with rfl | hpos
  · have z : rneD (((0 : ℤ) : ℚ) / m) = 0 := by simp [rneD_zero]
    have g : (Arith.ieee L).toGrayscale (.fin 0) (.fin 0) (.fin 0) = .fin 0 := by
      unfold Arith.toGrayscale
      have l1 : Dbl.ofQ 0.2126 = .fin (rneD 0.2126) := ofQ_small (by norm_num)
      have l2 : Dbl.ofQ 0.7152 = .fin (rneD 0.7152) := ofQ_small (by norm_num)
      have l3 : Dbl.ofQ 0.0722 = .fin (rneD 0.0722) := ofQ_small (by norm_num)
      simp only [Arith.ieee, l1, l2, l3, F32.mulWith, F32.addWith, zero_mul, ofQ_zero, add_zero]
    rw [z, g]
    refine ⟨0, ?_, le_rfl, zero_le_one, by norm_num⟩
    simp only [Dbl.single]
    have := round_fin (q := 0) (by rw [abs_zero]; exact zpow_nonneg (by norm_num) _)
    rwa [rne_zero] at this
  · have hpos' : (1 : ℚ) ≤ v := by exact_mod_cast hpos
    have qlow : (1 : ℚ) / 65535 ≤ v / m := by
      rw [div_le_div_iff₀ (by norm_num) hm1]
      nlinarith
    obtain ⟨g, eg, hg⟩ := toGray_ieee (L := L) (r := rneD (v / m)) (g := rneD (v / m)) (b := rneD (v / m))
      (by rw [abs_of_nonneg d0]; exact d1) (by rw [abs_of_nonneg d0]; exact d1)
      (by rw [abs_of_nonneg d0]; exact d1)
    have hl : luma (rneD (v / m)) (rneD (v / m)) (rneD (v / m)) = rneD (v / m) := by unfold luma; ring
    rw [hl] at hg
    norm_num at hg
    rw [abs_le] at hg
    have g0 : 0 ≤ g := by linarith [hg.1, e1.1]
    have g1 : g ≤ 1 + 1 / 2 ^ 50 := by norm_num; linarith [hg.2]
    have s0 : 0 ≤ rne g := by rw [← rne_zero]; exact rne_mono g0
    have s1 : rne g ≤ 1 := by have := rne_mono g1; rwa [r1] at this
    have g2 : g ≤ 2 := by linarith [show (1 : ℚ) / 2 ^ 50 ≤ 1 by norm_num]
    have big : (2 : ℚ) ≤ 2 ^ (127 : ℤ) := by norm_num
    rw [eg]
    refine ⟨rne g, ?_, s0, s1, ?_⟩
    · simp only [Dbl.single]
      exact round_fin ((abs_of_nonneg g0).le.trans (g2.trans big))
    · have e2 := rne_abs (q := g) (e := 0) (by norm_num) (by rw [abs_of_nonneg g0]; simpa using g2)
      norm_num at e2
      rw [abs_le] at e2 ⊢
      norm_num
      constructor <;> linarith [e1.1, e1.2, e2.1, e2.2, hg.1, hg.2]

/-- The pixel the library's own conversion stores. -/
theorem convert_px (L : Libm) {f : IFormat} (hf : f ∈ sources) {p : Px Dbl} (hp : PxOk (Arith.ieee L) f p)
    (gray : Bool) (hg : gray = isGrayscaleFormat (floatOf f)) {c : Color Dbl}
    (hc : getPixelImpl (Arith.ieee L) f p = .ok c) :
    ∃ l, (if gray then setPixelImpl (Arith.ieee L) (floatOf f) c
        else setPixelNoGrayscaleImpl (Arith.ieee L) (floatOf f) c) = .ok (.nums l) ∧
      List.Forall₂ StandsFor l (integers f p) ∧ PxOk (Arith.ieee L) (floatOf f) (.nums l) := by
  have S (m : ℕ) (v : ℤ) (h0 : m ≠ 0) (hm : m ≤ 65535) (h : 0 ≤ v ∧ v ≤ m) :=
    single_norm L h0 hm h.1 h.2
  have G (m : ℕ) (v : ℤ) (h0 : m ≠ 0) (hm : m ≤ 65535) (h : 0 ≤ v ∧ v ≤ m) :=
    single_gray L h0 hm h.1 h.2
  have I (x : Dbl) : Dbl.single (Dbl.single x) = Dbl.single x := (lawful_ieee L).single x
  subst hg
  unfold PxOk at hp
  simp only [sources, List.mem_cons, List.not_mem_nil, or_false] at hf
  split at hp <;> try simp only [reduceCtorEq, or_false, or_self] at hf
  case h_3 w =>
    cases hc
    have h1 := getField_upto w 10 5
    have h2 := getField_upto w 5 5
    have h3 := getField_upto w 0 5
    refine ⟨_, rfl, ?_, ⟨I _, I _, I _⟩⟩
    have e1 := S 31 _ (by norm_num) (by norm_num) h1
    have e2 := S 31 _ (by norm_num) (by norm_num) h2
    have e3 := S 31 _ (by norm_num) (by norm_num) h3
    have w1 : w / 1024 % 32 = getField w 10 5 := by unfold getField; norm_num
    have w2 : w / 32 % 32 = getField w 5 5 := by unfold getField; norm_num
    have w3 : w % 32 = getField w 0 5 := by unfold getField; norm_num
    simp only [integers, w1, w2, w3]
    exact .cons e1 (.cons e2 (.cons e3 .nil))
  case h_4 w =>
    cases hc
    have h1 := getField_upto w 11 5
    have h2 := getField_upto w 5 6
    have h3 := getField_upto w 0 5
    refine ⟨_, rfl, ?_, ⟨I _, I _, I _⟩⟩
    have e1 := S 31 _ (by norm_num) (by norm_num) h1
    have e2 := S 63 _ (by norm_num) (by norm_num) h2
    have e3 := S 31 _ (by norm_num) (by norm_num) h3
    have w1 : w / 2048 % 32 = getField w 11 5 := by unfold getField; norm_num
    have w2 : w / 32 % 64 = getField w 5 6 := by unfold getField; norm_num
    have w3 : w % 32 = getField w 0 5 := by unfold getField; norm_num
    simp only [integers, w1, w2, w3]
    exact .cons e1 (.cons e2 (.cons e3 .nil))
  case h_1 v =>
    cases hc
    exact ⟨_, rfl, .cons (G 255 v (by norm_num) (by norm_num) hp) .nil, I _⟩
  case h_2 v =>
    cases hc
    exact ⟨_, rfl, .cons (G 65535 v (by norm_num) (by norm_num) hp) .nil, I _⟩
  case h_5 r g b =>
    cases hc
    exact ⟨_, rfl, .cons (S 255 r (by norm_num) (by norm_num) hp.1)
      (.cons (S 255 g (by norm_num) (by norm_num) hp.2.1)
      (.cons (S 255 b (by norm_num) (by norm_num) hp.2.2) .nil)), ⟨I _, I _, I _⟩⟩
  case h_6 r g b =>
    cases hc
    exact ⟨_, rfl, .cons (S 65535 r (by norm_num) (by norm_num) hp.1)
      (.cons (S 65535 g (by norm_num) (by norm_num) hp.2.1)
      (.cons (S 65535 b (by norm_num) (by norm_num) hp.2.2) .nil)), ⟨I _, I _, I _⟩⟩
  case h_8 r g b a =>
    cases hc
    exact ⟨_, rfl, .cons (S 255 r (by norm_num) (by norm_num) hp.1)
      (.cons (S 255 g (by norm_num) (by norm_num) hp.2.1)
      (.cons (S 255 b (by norm_num) (by norm_num) hp.2.2.1)
      (.cons (S 255 a (by norm_num) (by norm_num) hp.2.2.2) .nil))), ⟨I _, I _, I _, I _⟩⟩
  case h_9 r g b a =>
    cases hc
    exact ⟨_, rfl, .cons (S 65535 r (by norm_num) (by norm_num) hp.1)
      (.cons (S 65535 g (by norm_num) (by norm_num) hp.2.1)
      (.cons (S 65535 b (by norm_num) (by norm_num) hp.2.2.1)
      (.cons (S 65535 a (by norm_num) (by norm_num) hp.2.2.2) .nil))), ⟨I _, I _, I _, I _⟩⟩
  case h_18 => exact hp.elim

/-- The pixel that it stores for a grey of an sRGB image. -/
theorem grey_px {L : Libm} (G : GreyStands L) {f : IFormat} (hf : f ∈ sources) (hF : floatOf f = .Float) {p : Px Dbl}
    (hp : PxOk (Arith.ieee L) f p) {c : Color Dbl} (hc : getPixelImpl (Arith.ieee L) f p = .ok c) :
    ∃ l, List.Forall₂ StandsFor l (integers f p) ∧ PxOk (Arith.ieee L) (floatOf f) (.nums l) ∧
      setPixelNoGrayscaleImpl (Arith.ieee L) (floatOf f)
        ⟨(Arith.ieee L).linearToSRGB ((Arith.ieee L).toGrayscale ((Arith.ieee L).sRGBToLinear c.r)
          ((Arith.ieee L).sRGBToLinear c.g) ((Arith.ieee L).sRGBToLinear c.b)),
        (Arith.ieee L).linearToSRGB ((Arith.ieee L).toGrayscale ((Arith.ieee L).sRGBToLinear c.r)
          ((Arith.ieee L).sRGBToLinear c.g) ((Arith.ieee L).sRGBToLinear c.b)),
        (Arith.ieee L).linearToSRGB ((Arith.ieee L).toGrayscale ((Arith.ieee L).sRGBToLinear c.r)
          ((Arith.ieee L).sRGBToLinear c.g) ((Arith.ieee L).sRGBToLinear c.b)), c.a⟩ = .ok (.nums l) := by
  have I (x : Dbl) : Dbl.single (Dbl.single x) = Dbl.single x := (lawful_ieee L).single x
  unfold PxOk at hp
  simp only [sources, List.mem_cons, List.not_mem_nil, or_false] at hf
  split at hp <;> try simp only [reduceCtorEq, or_false, or_self] at hf
  case h_1 v =>
    cases hc
    exact ⟨_, .cons (G 255 v (.inl rfl) hp.1 hp.2) .nil, I _, rfl⟩
  case h_2 v =>
    cases hc
    exact ⟨_, .cons (G 65535 v (.inr rfl) hp.1 hp.2) .nil, I _, rfl⟩
  all_goals first
    | exact hp.elim
    | cases hF

/-- Converting an integer image to floats. -/
theorem convert_floats (L : Libm) {FI : FreeImage Dbl} (F : LawfulFI (Arith.ieee L) FI)
    (W : ConvertsWell (Arith.ieee L) FI) {i : Image Dbl} (hi : ImgOk (Arith.ieee L) i)
    (hf : i.format ∈ sources)
    (hs : i.colorSpace = .Linear ∨ floatOf i.format ≠ .Float ∨
      (∃ b, FI.convert i.format i.bmp .Float = some b) ∨ GreyStands L) :
    ∃ r, i.convert (Arith.ieee L) FI (floatOf i.format) true = .ok r ∧
      (r = none → FI.alloc (floatOf i.format) i.bmp.width i.bmp.height = none) ∧
      ∀ j, r = some j → FloatsOf i j ∧ ImgOk (Arith.ieee L) j := by
  have n1 : i.format ≠ floatOf i.format := by
    simp only [sources, List.mem_cons, List.not_mem_nil, or_false] at hf
    rcases hf with h | h | h | h | h | h | h | h <;> rw [h] <;> decide
  have n2 : floatOf i.format ≠ .Invalid := by
    simp only [sources, List.mem_cons, List.not_mem_nil, or_false] at hf
    rcases hf with h | h | h | h | h | h | h | h <;> rw [h] <;> decide
  have n3 : floatOf i.format = .Float → usesFreeImage i.format .Float
      (true && decide (i.colorSpace = .Linear)) = true := by
    intro hF
    simp only [sources, List.mem_cons, List.not_mem_nil, or_false] at hf
    rcases hf with h | h | h | h | h | h | h | h <;> rw [h] at hF ⊢ <;> first | cases hF | skip
    all_goals simp [usesFreeImage, isGrayscaleFormat, needFloatConvertFallback]
  have n4 : i.format ≠ .Complex := by
    simp only [sources, List.mem_cons, List.not_mem_nil, or_false] at hf
    rcases hf with h | h | h | h | h | h | h | h <;> rw [h] <;> decide
  unfold Image.convert
  rw [if_neg n1, if_neg n2]
  generalize hd : (if usesFreeImage i.format (floatOf i.format)
      (true && isGrayscaleFormat (floatOf i.format) && decide (i.colorSpace = .Linear)) = true then
    FI.convert i.format i.bmp (floatOf i.format) else none) = direct
  have hd' : ∀ b, direct = some b → FI.convert i.format i.bmp (floatOf i.format) = some b := by
    rintro b rfl
    split at hd
    · exact hd
    · cases hd
  have hlin : direct = none → floatOf i.format = .Float → i.colorSpace = .Linear ∨ GreyStands L := by
    rintro rfl hF
    rcases hs with h | h | ⟨b, hb⟩ | h
    · exact .inl h
    · exact absurd hF h
    · rw [hF] at hd
      simp only [isGrayscaleFormat, Bool.true_and] at hd
      have := n3 hF
      rw [Bool.true_and] at this
      rw [if_pos this, hb] at hd
      cases hd
    · exact .inr h
  dsimp only
  rw [hd]
  cases direct with
  | some b =>
    refine ⟨_, rfl, by rintro ⟨⟩, ?_⟩
    rintro j ⟨rfl⟩
    have hb := hd' b rfl
    exact ⟨W _ _ _ _ hf hi hb, (F.convert _ _ _ _ hb).2.2⟩
  | none =>
    cases hn : Image.new FI (floatOf i.format) i.bmp.width i.bmp.height i.colorSpace with
    | none =>
      refine ⟨_, rfl, fun _ => ?_, by rintro j ⟨⟩⟩
      unfold Image.new at hn
      rw [if_neg n2] at hn
      exact Option.map_eq_none_iff.1 hn
    | some new =>
      obtain ⟨a1, a2, a3, a4, a5⟩ := new_ok F hn
      obtain ⟨j, e, b1, b2, b3, b4, b5⟩ := write_grid (dst := new) (h := i.bmp.height) (w := i.bmp.width)
        (q := fun y x => (y, x))
        (P := fun y x p => ∃ l, p = .nums l ∧ List.Forall₂ StandsFor l (integers i.format (i.bmp.px y x)) ∧
          PxOk (Arith.ieee L) (floatOf i.format) (.nums l))
        (body := fun y x dst => do
          let c ← i.get (Arith.ieee L) y x
          let p ← if (true && isGrayscaleFormat (floatOf i.format)) = true ∧ i.format ≠ .Complex then
              if i.colorSpace = .Linear then setPixelImpl (Arith.ieee L) dst.format c
              else
                let v := (Arith.ieee L).linearToSRGB ((Arith.ieee L).toGrayscale
                  ((Arith.ieee L).sRGBToLinear c.r) ((Arith.ieee L).sRGBToLinear c.g)
                  ((Arith.ieee L).sRGBToLinear c.b))
                setPixelNoGrayscaleImpl (Arith.ieee L) dst.format ⟨v, v, v, c.a⟩
            else setPixelNoGrayscaleImpl (Arith.ieee L) dst.format c
          dst.put y x p) (by
          intro y hy x hx d df dw dh dp
          obtain ⟨c, ec, eg⟩ := Image.get_ok hi hy hx
          by_cases hsrgb : floatOf i.format = .Float ∧ i.colorSpace ≠ .Linear
          · obtain ⟨hF, hcs⟩ := hsrgb
            have G := (hlin rfl hF).resolve_left hcs
            obtain ⟨l, h1, h2, h3⟩ := grey_px G hf hF (hi y x hy hx) eg
            refine ⟨.nums l, ⟨l, rfl, h1, h2⟩, ?_⟩
            rw [ec, Res.ok_bind, df, a1, if_pos ⟨by rw [hF]; rfl, n4⟩, if_neg hcs]
            dsimp only
            rw [h3, Res.ok_bind]
            refine (Image.put_ok (i := d) (by omega) (by omega) _).trans ?_
            rw [df, a1]
          obtain ⟨l, el, h1, h2⟩ := convert_px L hf (hi y x hy hx) _ rfl eg
          refine ⟨.nums l, ⟨l, rfl, h1, h2⟩, ?_⟩
          rw [ec, Res.ok_bind, df, a1]
          cases hgr : isGrayscaleFormat (floatOf i.format) with
          | true =>
            rw [hgr] at el
            have hF : floatOf i.format = .Float := by
              simp only [sources, List.mem_cons, List.not_mem_nil, or_false] at hf
              rcases hf with h | h | h | h | h | h | h | h <;> rw [h] at hgr ⊢ <;>
                first | rfl | cases hgr
            rw [if_pos ⟨rfl, n4⟩, if_pos (by by_contra h; exact hsrgb ⟨hF, h⟩)]
            rw [if_pos rfl] at el
            rw [el, Res.ok_bind]
            refine (Image.put_ok (i := d) (by omega) (by omega) _).trans ?_
            rw [df, a1]
          | false =>
            rw [hgr] at el
            simp only [Bool.false_eq_true, if_false] at el
            rw [if_neg (by simp), el, Res.ok_bind]
            refine (Image.put_ok (i := d) (by omega) (by omega) _).trans ?_
            rw [df, a1])
        (by intro y _ x _ y' _ x' _ h; simpa using h)
      refine ⟨some j, ?_, by rintro ⟨⟩, ?_⟩
      · exact congrArg (fun r => r >>= fun d => Res.ok (some d)) e
      · rintro _ ⟨rfl⟩
        refine ⟨⟨by rw [b1, a1], by rw [b3, a3], by rw [b4, a4], fun y x hy hx => ?_⟩, fun y x hy hx => ?_⟩
        · obtain ⟨l, el, h1, -⟩ := b5 y hy x hx
          exact ⟨l, el, h1⟩
        · obtain ⟨l, el, -, h2⟩ := b5 y (by omega) x (by omega)
          have : j.bmp.px y x = .nums l := el
          rw [this, b1, a1]
          exact h2

/-- The format the values are adjusted in. -/
theorem adjustedFormat_source {f : IFormat} (hf : f ∈ sources) :
    adjustedFormat f = some (floatOf f) ∧ adjustConverts f = true ∧ adjusts f = true ∧ f ≠ .Invalid ∧
      floatOf f ∈ floats := by
  simp only [sources, List.mem_cons, List.not_mem_nil, or_false] at hf
  rcases hf with rfl | rfl | rfl | rfl | rfl | rfl | rfl | rfl <;> decide

theorem forall₂_map {α β γ : Type} {R : α → β → Prop} (f : ℕ → α → γ) (g : β → γ) :
    ∀ (l : List α) (l' : List β) (_ : List.Forall₂ R l l') (c : ℕ)
      (_ : ∀ k a b, l[k]? = some a → l'[k]? = some b → R a b → f (c + k) a = g b) (r : List γ)
      (_ : r.length = l.length) (_ : ∀ k a, l[k]? = some a → r[k]? = some (f (c + k) a)), r = l'.map g := by
  intro l l' h c H r hr hk
  apply List.ext_getElem?
  intro k
  have hlen := h.length_eq
  by_cases hlt : k < l.length
  · have e1 : l[k]? = some l[k] := List.getElem?_eq_getElem hlt
    have hlt' : k < l'.length := by omega
    have e2 : l'[k]? = some l'[k] := List.getElem?_eq_getElem hlt'
    have hR : R l[k] l'[k] := (List.forall₂_iff_get.1 h).2 k hlt hlt'
    rw [hk k _ e1, H k _ _ e1 e2 hR, List.getElem?_map, e2]
    rfl
  · rw [List.getElem?_eq_none (by omega), List.getElem?_eq_none (by simp; omega)]

/-- UInt and Int, from the integer image to the adjusted image: the floats are exactly the integers of
the source, shifted to the signed range for Int.  An invalid image results only if memory runs out.
Grey sRGB images are covered if FreeImage converts them, or if the library does it well; see C32Rounded.

Partial: alpha of formats with fewer than 8 bits per channel is not recovered (`C32_fails_alpha`), and FreeImage is
assumed to convert to within 2^-18. -/
theorem C32_source_partial (L : Libm) {FI : FreeImage Dbl} (F : LawfulFI (Arith.ieee L) FI)
    (W : ConvertsWell (Arith.ieee L) FI) {i : Image Dbl} (hi : ImgOk (Arith.ieee L) i)
    (hf : i.format ∈ sources)
    (hs : i.colorSpace = .Linear ∨ floatOf i.format ≠ .Float ∨
      (∃ b, FI.convert i.format i.bmp .Float = some b) ∨ GreyStands L) {type : TType} (ht : type ∈ [TType.UInt, .Int]) :
    ∃ r, adjustImageValueRange (Arith.ieee L) FI i type .Invalid = .ok r ∧
      (r = none → FI.alloc (floatOf i.format) i.bmp.width i.bmp.height = none) ∧
      ∀ j, r = some j → j.format = floatOf i.format ∧ j.bmp.width = i.bmp.width ∧
        j.bmp.height = i.bmp.height ∧ ∀ y, y < i.bmp.height → ∀ x, x < i.bmp.width →
          j.bmp.px y x = .nums ((integers i.format (i.bmp.px y x)).map
            (fun mv => .fin ((mv.2 + lowest type mv.1 : ℤ) : ℚ))) := by
  obtain ⟨s1, s2, s3, s4, s5⟩ := adjustedFormat_source hf
  obtain ⟨r, er, hnone, hr⟩ := convert_floats L F W hi hf hs
  unfold adjustImageValueRange
  simp only [if_true]
  rw [if_pos ⟨by simp at ht; tauto, s3⟩, s1]
  simp only [adjustSource, s2, if_true, er, Res.ok_bind]
  cases r with
  | none => exact ⟨none, rfl, hnone, by rintro j ⟨⟩⟩
  | some j₁ =>
    obtain ⟨⟨f1, f2, f3, f4⟩, jok⟩ := hr j₁ rfl
    obtain ⟨j, e, h1, -, h2, h3, h4⟩ := adjustLoop_spec (Arith.ieee L) (by rw [f1]; exact s5) jok i.format type
    refine ⟨some j, ?_, by rintro ⟨⟩, ?_⟩
    · simp only [adjustAll, e, Res.ok_bind]
    · rintro _ ⟨rfl⟩
      refine ⟨h1.trans f1, h2.trans f2, h3.trans f3, fun y hy x hx => ?_⟩
      obtain ⟨l, el, hl⟩ := f4 y x hy hx
      obtain ⟨l', el', ej⟩ := h4 y (by omega) x (by omega)
      rw [el] at el'
      cases el'
      rw [ej]
      congr 1
      refine forall₂_map (adjustValue (Arith.ieee L) i.format type) _ l _ hl 0 ?_ _
        (adjustValues_length _ _ _ _ _) (fun k a hk => adjustValues_get _ _ _ _ _ _ _ hk)
      rintro k a ⟨m, v⟩ - hb hab
      obtain ⟨g1, g2, g3⟩ := integers_largest hf (hi y x hy hx) k m v hb
      rw [Nat.zero_add]
      exact adjust_component L ht g1 g2 g3 hab

/-- SNorm, from the integer image to the adjusted image: the integer `v` of `m` becomes `2 v/m - 1` to
within 2^-16, inside of -1 to 1. -/
theorem C32_snorm_source (L : Libm) {FI : FreeImage Dbl} (F : LawfulFI (Arith.ieee L) FI)
    (W : ConvertsWell (Arith.ieee L) FI) {i : Image Dbl} (hi : ImgOk (Arith.ieee L) i)
    (hf : i.format ∈ sources)
    (hs : i.colorSpace = .Linear ∨ floatOf i.format ≠ .Float ∨
      (∃ b, FI.convert i.format i.bmp .Float = some b) ∨ GreyStands L) :
    ∃ r, adjustImageValueRange (Arith.ieee L) FI i .SNorm .Invalid = .ok r ∧
      (r = none → FI.alloc (floatOf i.format) i.bmp.width i.bmp.height = none) ∧
      ∀ j, r = some j → j.format = floatOf i.format ∧ j.bmp.width = i.bmp.width ∧
        j.bmp.height = i.bmp.height ∧ ∀ y, y < i.bmp.height → ∀ x, x < i.bmp.width →
          ∃ l, j.bmp.px y x = .nums l ∧ List.Forall₂ (fun (d : Dbl) mv => ∃ s : ℚ, d = .fin s ∧ -1 ≤ s ∧ s ≤ 1 ∧
            |s - (2 * (mv.2 / mv.1) - 1)| ≤ 1 / 2 ^ 16) l (integers i.format (i.bmp.px y x)) := by
  obtain ⟨s1, s2, s3, s4, s5⟩ := adjustedFormat_source hf
  obtain ⟨r, er, hnone, hr⟩ := convert_floats L F W hi hf hs
  unfold adjustImageValueRange
  simp only [if_true]
  rw [if_pos ⟨by simp, s3⟩, s1]
  simp only [adjustSource, s2, if_true, er, Res.ok_bind]
  cases r with
  | none => exact ⟨none, rfl, hnone, by rintro j ⟨⟩⟩
  | some j₁ =>
    obtain ⟨⟨f1, f2, f3, f4⟩, jok⟩ := hr j₁ rfl
    obtain ⟨j, e, h1, -, h2, h3, h4⟩ := adjustLoop_spec (Arith.ieee L) (by rw [f1]; exact s5) jok i.format .SNorm
    refine ⟨some j, ?_, by rintro ⟨⟩, ?_⟩
    · simp only [adjustAll, e, Res.ok_bind]
    · rintro _ ⟨rfl⟩
      refine ⟨h1.trans f1, h2.trans f2, h3.trans f3, fun y hy x hx => ?_⟩
      obtain ⟨l, el, hl⟩ := f4 y x hy hx
      obtain ⟨l', el', ej⟩ := h4 y (by omega) x (by omega)
      rw [el] at el'
      cases el'
      refine ⟨_, ej, List.forall₂_iff_get.2 ⟨by rw [adjustValues_length]; exact hl.length_eq, ?_⟩⟩
      intro k hk1 hk2
      have hk : k < l.length := by rwa [adjustValues_length] at hk1
      obtain ⟨q, eq, q0, q1, qd⟩ := (List.forall₂_iff_get.1 hl).2 k hk hk2
      obtain ⟨a1, a2, a3, a4⟩ := adjust_snorm L i.format (0 + k) q0 q1
      have ek := adjustValues_get (Arith.ieee L) i.format .SNorm l 0 k (.fin q)
        (by rw [List.getElem?_eq_getElem hk]; exact congrArg some eq)
      rw [a1, List.getElem?_eq_getElem hk1, Option.some.injEq] at ek
      refine ⟨_, ek, a2, a3, ?_⟩
      generalize ((integers i.format (i.bmp.px y x)).get ⟨k, hk2⟩) = mv at qd ⊢
      rw [abs_le] at a4 qd ⊢
      norm_num at a4 qd ⊢
      constructor <;> linarith [a4.1, a4.2, qd.1, qd.2]

/-- Converting an adjusted component to an integer texture of the same width gives back the integer of
the source, exactly. -/
theorem C32_recover {n m w : ℕ} {v : ℤ} {signed : Bool} (hn : n = 8 ∨ n = 16) (hm : m = 2 ^ n - 1)
    (hv0 : 0 ≤ v) (hv : v ≤ m)
    (hw : F32.ofBits w = .fin ((v + lowest (if signed then .Int else .UInt) m : ℤ) : ℚ)) :
    toInt (intLo signed n) (intHi signed n) w = .ok (v + lowest (if signed then .Int else .UInt) m) := by
  have hl : lowest (if signed then .Int else .UInt) m = intLo signed n := by
    rcases hn with rfl | rfl <;> cases signed <;> simp [lowest, intLo, hm]
  rw [hl] at hw ⊢
  have b1 : intLo signed n ≤ v + intLo signed n := by omega
  have b2 : v + intLo signed n ≤ intHi signed n := by
    rcases hn with rfl | rfl <;> cases signed <;> simp [intLo, intHi] <;> omega
  have hc : clampVal (intLo signed n) (intHi signed n) (F32.ofBits w) =
      some ((v + intLo signed n : ℤ) : ℚ) := by
    rw [hw]
    have c1 : ((intLo signed n : ℤ) : ℚ) ≤ ((v + intLo signed n : ℤ) : ℚ) := by exact_mod_cast b1
    have c2 : ((v + intLo signed n : ℤ) : ℚ) ≤ (intHi signed n : ℤ) := by exact_mod_cast b2
    simp only [clampVal, min_eq_right c2, max_eq_right c1]
  have := (toInt_eq hc (by rcases hn with rfl | rfl <;> cases signed <;> simp [intLo])
    (by rcases hn with rfl | rfl <;> cases signed <;> simp [intHi]) (by omega)).1
  rwa [roundAway_int] at this

/-- The property fails for images of 5 and 6 bit origin that have an alpha channel in between (after a
swizzle for example): alpha 1 becomes 0, not the largest value. -/
theorem C32_fails_alpha (L : Libm) (FI : FreeImage Dbl) :
    ∃ i j : Image Dbl, ImgOk (Arith.ieee L) i ∧ i.format = .RGBAF ∧
      i.getPixel (Arith.ieee L) 0 0 = .ok (some ⟨.fin 1, .fin 1, .fin 1, .fin 1⟩) ∧
      adjustImageValueRange (Arith.ieee L) FI i .UInt .RGB565 = .ok (some j) ∧
      j.getPixel (Arith.ieee L) 0 0 = .ok (some ⟨.fin 31, .fin 63, .fin 31, .fin 0⟩) := by
  have s1 : Dbl.single (.fin 1) = .fin 1 := by
    have r1 : rne 1 = 1 := by simpa using rne_int (n := 1) (by norm_num)
    have := round_fin (q := 1) (by norm_num)
    rw [r1] at this
    exact this
  have hi : ImgOk (Arith.ieee L) ⟨.RGBAF, .Linear, ⟨1, 1, fun _ _ => .nums [.fin 1, .fin 1, .fin 1, .fin 1]⟩⟩ := by
    intro y x _ _
    exact ⟨s1, s1, s1, s1⟩
  obtain ⟨j, e, h1, -, h2, h3, h4⟩ := adjust_floats (Arith.ieee L) FI (orig := .RGB565) (type := .UInt)
    (by decide) hi (by decide) (by decide)
  refine ⟨_, j, hi, rfl, rfl, e, ?_⟩
  obtain ⟨l, el, ej⟩ := h4 0 (by norm_num) 0 (by norm_num)
  cases el
  have one (m : ℕ) (hm0 : 0 < m) (hm : m ≤ 65535) : StandsFor (.fin 1) (m, (m : ℤ)) := by
    refine ⟨1, rfl, zero_le_one, le_rfl, ?_⟩
    have : (m : ℚ) ≠ 0 := by exact_mod_cast hm0.ne'
    simp [div_self this]
  have c0 := adjust_component L (orig := .RGB565) (type := .UInt) (k := 0) (by decide) rfl (by norm_num)
    le_rfl (one 31 (by norm_num) (by norm_num))
  have c1 := adjust_component L (orig := .RGB565) (type := .UInt) (k := 1) (by decide) rfl (by norm_num)
    le_rfl (one 63 (by norm_num) (by norm_num))
  have c2 := adjust_component L (orig := .RGB565) (type := .UInt) (k := 2) (by decide) rfl (by norm_num)
    le_rfl (one 31 (by norm_num) (by norm_num))
  have c3 : adjustValue (Arith.ieee L) .RGB565 .UInt 3 (.fin 1) = .fin 0 := by
    unfold adjustValue
    rw [if_neg (by decide), show adjustMultiply .RGB565 3 = 0 from rfl,
      show adjustOffset .RGB565 .UInt 3 = 0 from rfl]
    have r0 : F32.round 0 = .fin 0 := by
      have h : F32.round 0 = .fin (rne 0) := round_fin (by rw [abs_zero]; exact zpow_nonneg (by norm_num) _)
      rwa [rne_zero] at h
    simp only [Arith.ieee, ofQ_zero, F32.mulWith, mul_zero, r0, F32.addWith, add_zero, F32.roundAway]
    have := roundAway_int 0
    rw [Int.cast_zero] at this
    rw [this, Int.cast_zero]
  simp only [adjustValues, Nat.zero_add, Nat.reduceAdd, c0, c1, c2, c3] at ej
  rw [getPixel_in (by rw [h2]; norm_num) (by rw [h3]; norm_num), h1, h3]
  have e0 : (1 : ℕ) - 0 - 1 = 0 := rfl
  simp only [e0]
  rw [ej]
  simp [getPixelImpl, lowest]

/-! Concrete cases. -/

/-- A FreeImage whose conversions do not work meets the assumption; the library's own conversion is used. -/
example (L : Libm) : ConvertsWell (Arith.ieee L) (Toy.fi (Arith.ieee L) true) := by
  intro f b b' cs _ _ h
  cases h

/-- An image of 3 x 2 pixels: the integers of its second pixel, for Int. -/
example (L : Libm) : ∃ j : Image Dbl,
    adjustImageValueRange (Arith.ieee L) (Toy.fi (Arith.ieee L) true) Toy.rgba .Int .Invalid = .ok (some j) ∧
      j.bmp.px 1 2 = .nums [.fin (102 - 128), .fin (10 - 128), .fin (40 - 128), .fin 127] := by
  obtain ⟨r, e, hn, h⟩ := C32_source_partial L (Toy.fi_ieee L true) (by intro f b b' cs _ _ h; cases h)
    (Toy.rgba_ok (Arith.ieee L)) (by decide) (.inl rfl) (type := .Int) (by decide)
  cases r with
  | none =>
    exfalso
    have := hn rfl
    simp [Toy.fi, floatOf, Toy.rgba] at this
  | some j =>
    refine ⟨j, e, ?_⟩
    obtain ⟨-, -, -, h⟩ := h j rfl
    rw [h 1 (by decide) 2 (by decide)]
    simp only [Toy.rgba, integers, List.map_cons, List.map_nil, lowest, if_true]
    norm_num

/-- A float image to which the theorems about floats apply. -/
example (L : Libm) : ImgOk (Arith.ieee L) ⟨.Float, .Linear, ⟨2, 1, fun _ x => .nums [.fin x]⟩⟩ ∧
    IFormat.Float ∈ floats ∧ IFormat.Gray8 ∈ sources ∧ StandsFor (.fin 1) (255, 255) := by
  refine ⟨fun y x hy hx => ?_, by decide, by decide, 1, rfl, by norm_num, by norm_num, by norm_num⟩
  have hx' : x < 2 := hx
  show Dbl.single (.fin x) = .fin x
  have r : rne ((x : ℤ) : ℚ) = (x : ℤ) := rne_int (n := x) (by rw [abs_of_nonneg (by positivity)]; omega)
  have := round_fin (q := (x : ℚ)) (by
    rw [abs_of_nonneg (by positivity)]
    have : (x : ℚ) ≤ 2 := by exact_mod_cast hx'.le
    exact this.trans (by norm_num))
  simp only [Int.cast_natCast] at r
  rw [r] at this
  exact this

/-- A channel word for the recovery: 127 of 255 is -1 as a signed integer. -/
example : ∃ w : ℕ, F32.ofBits w = .fin ((127 + lowest .Int 255 : ℤ) : ℚ) := ⟨0xBF800000, by decide +kernel⟩

end Cuttlefish
