import Verif.Proofs.Process
import Verif.Proofs.Stored
/-
The images the tool has loaded and processed hold singles, also after their range was adjusted.
-/
namespace Cuttlefish
open Spec
variable {Lm : Libm} {FI : FreeImage Dbl}

/-- A finite single is representable. -/
theorem finite_rep {q : ℚ} (h : F32.round q = .fin q) : Rep q := by
  unfold F32.round at h
  split at h
  · cases h
  · have := F32.fin.inj h
    rw [← this]
    exact rne_rep q

theorem single_round {q : ℚ} : Dbl.single (F32.round q) = F32.round q := by
  by_cases h : 2 ^ 128 ≤ |rne q|
  · rw [show F32.round q = .inf (q < 0) from if_pos h]
    rfl
  · rw [show F32.round q = .fin (rne q) from if_neg h]
    show F32.round (rne q) = _
    rw [F32.round, rne_exact (rne_rep q), if_neg h]

theorem single_add (a b : Dbl) :
    Dbl.single (F32.addWith F32.round a b) = F32.addWith F32.round a b := by
  cases a <;> cases b <;> simp only [F32.addWith] <;> first | exact single_round | rfl | skip
  split <;> rfl

/-- Rounding a single gives a single. -/
theorem single_away {a : Dbl} (h : Dbl.single a = a) : Dbl.single (F32.roundAway a) = F32.roundAway a := by
  cases a with
  | fin q =>
    obtain ⟨m, k, hm, hk, e⟩ := finite_rep (show F32.round q = .fin q from h)
    show F32.round _ = .fin _
    by_cases h0 : 0 ≤ k
    · have : q = ((m * 2 ^ k.toNat : ℤ) : ℚ) := by
        rw [e]
        obtain ⟨n, rfl⟩ := Int.eq_ofNat_of_zero_le h0
        push_cast
        simp
      have e2 : ((roundAwayQ q : ℤ) : ℚ) = q := by
        rw [this, roundAway_int]
      rw [e2]
      exact h
    · have hq : |q| ≤ 2 ^ 24 := by
        rw [e, abs_mul]
        have h1 : |(m : ℚ)| ≤ 2 ^ 24 := by exact_mod_cast hm
        have h2 : |(2 : ℚ) ^ k| ≤ 1 := by
          rw [abs_of_pos (by positivity)]
          exact zpow_le_one_of_nonpos₀ (by norm_num) (by omega)
        calc |(m : ℚ)| * |(2 : ℚ) ^ k| ≤ 2 ^ 24 * 1 := mul_le_mul h1 h2 (abs_nonneg _) (by norm_num)
          _ = 2 ^ 24 := by norm_num
      obtain ⟨l, u⟩ := abs_le.1 hq
      obtain ⟨b1, b2⟩ := round_between (c := q) (lo := -2 ^ 24) (hi := 2 ^ 24) (by push_cast; exact l)
        (by push_cast; exact u)
      have hr : |roundAwayQ q| ≤ 2 ^ 24 := abs_le.2 ⟨by simpa using b1, b2⟩
      have hr' : |((roundAwayQ q : ℤ) : ℚ)| ≤ 2 ^ 24 := by exact_mod_cast hr
      rw [round_fin (hr'.trans (by norm_num)), rne_exact (rep_int hr)]
  | _ => rfl

theorem single_adjust (orig : IFormat) (ty : TType) (c : ℕ) (v : Dbl) :
    Dbl.single (adjustValue (Arith.ieee Lm) orig ty c v) = adjustValue (Arith.ieee Lm) orig ty c v := by
  unfold adjustValue
  split
  · exact single_add _ _
  · exact single_away (single_add _ _)

theorem adjustPx_ok {f : IFormat} {orig : IFormat} {ty : TType} {p q : Px Dbl} (hf : f ∈ floats)
    (h : PxOk (Arith.ieee Lm) f p) (e : adjustPx (Arith.ieee Lm) orig ty p = .ok q) : PxOk (Arith.ieee Lm) f q := by
  have key := single_adjust (Lm := Lm) orig ty
  cases p with
  | ints l => cases e
  | nums l =>
    cases e
    simp only [floats, List.mem_cons, List.not_mem_nil, or_false] at hf
    rcases hf with rfl | rfl | rfl
    all_goals
      unfold PxOk at h
      split at h
      all_goals first
        | exact absurd h id
        | (simp_all only [adjustValues, PxOk, Px.nums.injEq, reduceCtorEq, List.cons.injEq]) <;> first
            | exact ⟨key _ _, key _ _, key _ _⟩
            | exact ⟨key _ _, key _ _, key _ _, key _ _⟩
            | exact key _ _

theorem adjust_ok {i j : Image Dbl} (hf : i.format ∈ floats) (hi : ImgOk (Arith.ieee Lm) i) {type : TType}
    {orig : IFormat} (e : adjustImageValueRange (Arith.ieee Lm) FI i type orig = .ok (some j)) :
    Like (Arith.ieee Lm) i j := by
  unfold adjustImageValueRange at e
  dsimp only at e
  generalize (if orig = IFormat.Invalid then i.format else orig) = orig' at e
  split at e
  · have : ∃ f, adjustedFormat i.format = some f ∧ adjustConverts i.format = false := by
      simp only [floats, List.mem_cons, List.not_mem_nil, or_false] at hf
      rcases hf with h | h | h <;> rw [h] <;> exact ⟨_, rfl, rfl⟩
    obtain ⟨f, ef, ec⟩ := this
    rw [ef] at e
    dsimp only [adjustSource] at e
    rw [ec] at e
    simp only [Bool.false_eq_true, if_false, Res.ok_bind, adjustAll] at e
    obtain ⟨k, ek, e⟩ := Res.bind_eq_ok.1 e
    cases e
    refine Like.loops ?_ hi ek
    intro y x s s' hs e
    obtain ⟨p, ep, e⟩ := Res.bind_eq_ok.1 e
    obtain ⟨q, eq, e⟩ := Res.bind_eq_ok.1 e
    refine hs.put (adjustPx_ok hf ?_ eq) e
    unfold Bitmap.read at ep
    split at ep
    · rename_i hyx
      cases ep
      have := hs.ok y x hyx.1 hyx.2
      rw [hs.format] at this
      exact this
    · cases ep
  · cases e
    exact Like.refl hi

/-- A processed image holds singles in a format of floats. -/
theorem processLoaded_ok (F : LawfulFI (Arith.ieee Lm) FI) {c : Cmd Dbl} {i j : Image Dbl} {w h l : ℕ}
    (hi : ImgOk (Arith.ieee Lm) i) (hcs : i.colorSpace = c.imageColorSpace)
    (hpos : 0 < i.bmp.width ∧ 0 < i.bmp.height)
    (e : processLoaded (Arith.ieee Lm) FI c i w h l = .ok (some j)) :
    ImgOk (Arith.ieee Lm) j ∧ j.format ∈ floats := by
  obtain ⟨k, orig, hk, e, -⟩ := processLoaded_before (lawful_ieee Lm) F hi hcs hpos e
  have hf : k.format ∈ floats := by
    rw [hk.format]
    unfold lastFormat
    split <;> simp [floats]
  have := adjust_ok hf hk.ok e
  exact ⟨this.ok, by rw [this.format]; exact hf⟩

end Cuttlefish
