import Verif.Proofs.UnitProcess
import Verif.Proofs.Lossless
import Verif.Spec.Defined
/-
Images with colours from 0 to 1 can be stored in every format.
-/
namespace Cuttlefish
open Spec
variable {Lm : Libm} {FI : FreeImage Dbl}

theorem channel_fits {lo hi : ℚ} (hb0 : -2 ^ 16 ≤ lo) (hb1 : hi ≤ 2 ^ 16) {v : Dbl} (hs : Dbl.single v = v) (h : Ranged lo hi v) :
    F32.toBits v < 2 ^ 32 ∧ ∃ q : ℚ, F32.ofBits (F32.toBits v) = .fin q ∧ q ≤ 2 ^ 16 := by
  obtain ⟨q, rfl, q0, q1⟩ := h
  have ha : |q| ≤ 2 ^ 16 := abs_le.2 ⟨by linarith, by linarith⟩
  have hr : Rep q := by
    have e : F32.round q = .fin (rne q) := round_fin (ha.trans (by norm_num))
    have hs : F32.round q = .fin q := hs
    rw [e] at hs
    have hs : rne q = q := F32.fin.inj hs
    rw [← hs]
    exact rne_rep _
  have hb : |q| < (2 : ℚ) ^ (128 : ℤ) := lt_of_le_of_lt ha (by norm_num)
  obtain ⟨h1, h2⟩ := toBits_spec hr hb
  exact ⟨h2, q, h1, by linarith⟩

theorem storable_of {w : ℕ} (h : w < 2 ^ 32 ∧ ∃ q : ℚ, F32.ofBits w = .fin q ∧ q ≤ 2 ^ 16) (ty : TType) (n : ℕ) :
    Storable ty n w := by
  obtain ⟨h1, q, e, hq⟩ := h
  unfold Storable
  rw [e]
  refine ⟨h1, by simp, fun _ _ => ?_, fun _ _ => ?_⟩
  · show decide (q < 2 ^ 32) = true
    exact decide_eq_true (lt_of_le_of_lt hq (by norm_num))
  · show decide (q < 2 ^ 31) = true
    exact decide_eq_true (lt_of_le_of_lt hq (by norm_num))

/-- An image with values that are not too large can be stored. -/
theorem ranged_fits {lo hi : ℚ} (hb0 : -2 ^ 16 ≤ lo) (hb1 : hi ≤ 2 ^ 16) {g : Image Dbl} (hf : g.format = .RGBAF)
    (hi' : ImgOk (Arith.ieee Lm) g)
    (hu : ∀ c, DoubleColors Lm g c → Ranged lo hi c.r ∧ Ranged lo hi c.g ∧ Ranged lo hi c.b ∧ Ranged lo hi c.a)
    (f : Format) (ty : TType) (hp : isPvrtc f = true → g.bmp.width * g.bmp.height ≤ 2 ^ 30) :
    ImageFits f ty (asFloats g) := by
  refine ⟨hp, fun x y hx hy => ?_⟩
  have hx : x < g.bmp.width := hx
  have hy : y < g.bmp.height := hy
  have ok := hi' (g.bmp.height - y - 1) x (by omega) hx
  have hpx : ∃ r gr b a, g.bmp.px (g.bmp.height - y - 1) x = .nums [r, gr, b, a] := by
    rw [hf] at ok
    generalize g.bmp.px (g.bmp.height - y - 1) x = v at *
    match v, ok with
    | .nums [r, g, b, a], _ => exact ⟨_, _, _, _, rfl⟩
  obtain ⟨r, gr, b, a, e⟩ := hpx
  have hget : getPixelImpl (Arith.ieee Lm) g.format (g.bmp.px (g.bmp.height - y - 1) x) = .ok ⟨r, gr, b, a⟩ := by
    rw [e, hf]
    rfl
  have hc := hu _ ⟨_, _, getPixel_line (by omega) hx hget⟩
  rw [e, hf] at ok
  have px : (asFloats g).px x y = ⟨F32.toBits r, F32.toBits gr, F32.toBits b, F32.toBits a⟩ := by
    show (match g.bmp.px (g.bmp.height - y - 1) x with
      | .nums [r, g, b, a] => (⟨r.toBits, g.toBits, b.toBits, a.toBits⟩ : Pixel)
      | _ => ⟨0, 0, 0, 0⟩) = _
    rw [e]
  have k1 := channel_fits hb0 hb1 ok.1 hc.1
  have k2 := channel_fits hb0 hb1 ok.2.1 hc.2.1
  have k3 := channel_fits hb0 hb1 ok.2.2.1 hc.2.2.1
  have k4 := channel_fits hb0 hb1 ok.2.2.2 hc.2.2.2
  rw [px]
  unfold PixelFits
  cases layout f with
  | none =>
    simp only [List.forall_mem_cons, List.not_mem_nil, IsEmpty.forall_iff, implies_true, and_true]
    exact ⟨(storable_of k1 ty 0).2.1, (storable_of k2 ty 0).2.1, (storable_of k3 ty 0).2.1, (storable_of k4 ty 0).2.1⟩
  | some cs =>
    intro e _
    cases e.1
    · exact storable_of k1 _ _
    · exact storable_of k2 _ _
    · exact storable_of k3 _ _
    · exact storable_of k4 _ _

theorem unit_fits {g : Image Dbl} (hf : g.format = .RGBAF) (hi : ImgOk (Arith.ieee Lm) g) (hu : UnitImage Lm g)
    (f : Format) (ty : TType) (hp : isPvrtc f = true → g.bmp.width * g.bmp.height ≤ 2 ^ 30) :
    ImageFits f ty (asFloats g) :=
  ranged_fits (lo := 0) (hi := 1) (by norm_num) (by norm_num) hf hi (fun c hc => unit_iff.1 (hu c hc)) f ty hp

/-- Integers as parts of the largest one. -/
theorem unit_norm {m : ℕ} (hm : m ∈ [31, 63, 255, 65535]) {v : ℤ} (h0 : 0 ≤ v) (h1 : v ≤ m) :
    Ranged 0 1 ((Arith.ieee Lm).fromNorm m v) := by
  simp only [List.mem_cons, List.not_mem_nil, or_false] at hm
  have mpos : 0 < m := by omega
  have mq : (0 : ℚ) < m := by exact_mod_cast mpos
  refine ⟨_, fromNorm_ieee Lm mpos.ne' (by omega) (by rw [abs_of_nonneg h0]; omega), ?_⟩
  exact unit_round (div_nonneg (by exact_mod_cast h0) mq.le) ((div_le_one mq).2 (by exact_mod_cast h1))

/-- The colour of a pixel of integers. -/
theorem unit_source {f : IFormat} (hf : f ∈ sources) {p : Px Dbl} (hp : PxOk (Arith.ieee Lm) f p) {c : Color Dbl}
    (e : getPixelImpl (Arith.ieee Lm) f p = .ok c) : UnitColor c := by
  have one : Ranged 0 1 ((Arith.ieee Lm).lit 1) := by
    rw [ieee_one]
    exact unit_one
  have field (w : ℤ) (s n : ℕ) (m : ℕ) (hm : m ∈ [31, 63, 255, 65535]) (hn : 2 ^ n = m + 1) :
      Ranged 0 1 ((Arith.ieee Lm).fromNorm m (getField w s n)) := by
    have h : (2 : ℤ) ^ n = m + 1 := by exact_mod_cast hn
    have hpos : (0 : ℤ) < 2 ^ n := by positivity
    have b1 := Int.emod_nonneg (w / 2 ^ s) hpos.ne'
    have b2 := Int.emod_lt_of_pos (w / 2 ^ s) hpos
    exact unit_norm hm (by unfold getField; exact b1) (by unfold getField; omega)
  unfold PxOk at hp
  simp only [sources, List.mem_cons, List.not_mem_nil, or_false] at hf
  simp only [UnitColor, doubleChannels, List.forall_mem_cons, List.not_mem_nil, IsEmpty.forall_iff, implies_true,
    and_true]
  split at hp <;> try simp only [reduceCtorEq, or_false, or_self] at hf
  all_goals first
    | exact hp.elim
    | cases e
  all_goals simp only [Upto] at hp
  case h_3 | h_4 =>
    exact ⟨field _ _ _ _ (by simp) (by norm_num), field _ _ _ _ (by simp) (by norm_num),
        field _ _ _ _ (by simp) (by norm_num), one⟩
  all_goals
    refine ⟨?_, ?_, ?_, ?_⟩
    all_goals first
      | exact one
      | exact unit_norm (by simp) (by omega) (by omega)

end Cuttlefish
