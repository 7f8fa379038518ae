import Verif.Proofs.Pvrtc
import Verif.Proofs.Quant
/-
The options of the encoders grow with the quality.
-/
namespace Cuttlefish
open Spec
variable {X : Ext}

theorem noLess_one {c c' : CodecCall} {a b : ℚ} (h : effort c = [.fin a]) (h' : effort c' = [.fin b]) (hab : a ≤ b) :
    NoLessEffort c c' := by
  unfold NoLessEffort
  rw [h, h']
  exact .cons ⟨a, b, rfl, rfl, hab⟩ .nil

theorem level_mono (K : EncoderConsts) {q q' : Quality} (h : rank q ≤ rank q') :
    (rgbcxLevel K q : ℚ) ≤ rgbcxLevel K q' := by
  rw [rgbcxLevel_eq, rgbcxLevel_eq]
  unfold levelOf
  exact_mod_cast Nat.add_le_add_left (Nat.div_le_div_right (Nat.mul_le_mul_left _ h)) _

theorem half_mono {a b : ℕ} (hab : a ≤ b) (hb : b ≤ 2 ^ 22) :
    ∃ r : ℚ, ((F32.fin (a : ℚ)).add (.fin (b : ℚ))).mul (.fin (1 / 2)) = .fin r ∧ (a : ℚ) ≤ r ∧ r ≤ b := by
  have h1 : rne ((a : ℚ) + b) = (a : ℚ) + b := by
    have := rne_int (n := (a : ℤ) + b) (by rw [abs_of_nonneg (by positivity)]; omega)
    push_cast at this
    exact this
  have h2 : F32.round ((a : ℚ) + b) = .fin ((a : ℚ) + b) := by
    unfold F32.round
    rw [h1, if_neg]
    rw [not_le, abs_of_nonneg (by positivity)]
    have ha : (a : ℚ) ≤ 2 ^ 22 := by exact_mod_cast hab.trans hb
    have hb : (b : ℚ) ≤ 2 ^ 22 := by exact_mod_cast hb
    norm_num
    linarith
  have lo : (a : ℚ) ≤ rne (((a : ℚ) + b) * (1 / 2)) := by
    have e : rne (a : ℚ) = a := by
      have := rne_int (n := (a : ℤ)) (by rw [abs_of_nonneg (by positivity)]; omega)
      exact_mod_cast this
    have hab : (a : ℚ) ≤ b := by exact_mod_cast hab
    calc (a : ℚ) = rne a := e.symm
      _ ≤ _ := rne_mono (by linarith)
  have hi : rne (((a : ℚ) + b) * (1 / 2)) ≤ b := by
    have e : rne (b : ℚ) = b := by
      have := rne_int (n := (b : ℤ)) (by rw [abs_of_nonneg (by positivity)]; omega)
      exact_mod_cast this
    have hab : (a : ℚ) ≤ b := by exact_mod_cast hab
    calc _ ≤ rne (b : ℚ) := rne_mono (by linarith)
      _ = b := e
  refine ⟨rne (((a : ℚ) + b) * (1 / 2)), ?_, lo, hi⟩
  simp only [F32.add, h2, F32.mul]
  unfold F32.round
  rw [if_neg]
  have : (0 : ℚ) ≤ a := by positivity
  have hb : (b : ℚ) ≤ 2 ^ 22 := by exact_mod_cast hb
  rw [not_le, abs_of_nonneg (by linarith)]
  norm_num
  linarith

theorem etcEffort_mono {K : EncoderConsts} (hK : OrderedConsts K) {q q' : Quality} (h : rank q ≤ rank q') :
    ∃ a b : ℚ, etcEffort K q = .fin a ∧ etcEffort K q' = .fin b ∧ a ≤ b := by
  obtain ⟨a, b, c, e1, e2, e3, hab, hbc, hc⟩ := hK.etc
  obtain ⟨r, f1, f2, f3⟩ := half_mono hab (hbc.trans hc)
  obtain ⟨s, g1, g2, g3⟩ := half_mono hbc hc
  have hab' : (a : ℚ) ≤ b := by exact_mod_cast hab
  have hbc' : (b : ℚ) ≤ c := by exact_mod_cast hbc
  have e : ∀ q, etcEffort K q = .fin (match q with
      | .Lowest => (a : ℚ) | .Low => r | .Normal => b | .High => s | .Highest => c) := by
    intro q
    cases q <;> simp only [etcEffort, e1, e2, e3, f1, g1]
  refine ⟨_, _, e q, e q', ?_⟩
  cases q <;> cases q' <;> simp only [rank] at h <;> first | omega | (simp only; linarith)

/-- The two results are made by calls with the same input, the second with no less effort. -/
def Slower (X : Ext) (bs bs' : List UInt8) : Prop :=
  ∃ pre c c', bs = pre ++ X.codec c ∧ bs' = pre ++ X.codec c' ∧ input c = input c' ∧ NoLessEffort c c'

theorem slower_one {c c' : CodecCall} {a b : ℚ} (h : effort c = [.fin a]) (h' : effort c' = [.fin b]) (hab : a ≤ b)
    (hi : input c = input c') : Slower X (X.codec c) (X.codec c') :=
  ⟨[], c, c', rfl, rfl, hi, noLess_one h h' hab⟩

theorem radius_mono {q q' : Quality} (h : rank q ≤ rank q') : (searchRadius q : ℚ) ≤ searchRadius q' := by
  exact_mod_cast (by revert h; cases q <;> cases q' <;> decide : searchRadius q ≤ searchRadius q')

theorem low_down {q q' : Quality} (h : rank q ≤ rank q') (hl : lowQuality q' = true) : lowQuality q = true := by
  revert h hl
  cases q <;> cases q' <;> decide

theorem compressonator_slower {q q' : Quality} (h : rank q ≤ rank q') : (rank q : ℚ) / 4 ≤ (rank q' : ℚ) / 4 := by
  have : (rank q : ℚ) ≤ rank q' := by exact_mod_cast h
  linarith

theorem s3tc_slower (hK : OrderedConsts X.consts) (s : S3tcConv) (a : ConvArgs) {q q' : Quality}
    (h : rank q ≤ rank q') {ps : List Pixel} {bs bs' : List UInt8}
    (h1 : compressS3tc X s { a with quality := q } ps = .ok bs)
    (h2 : compressS3tc X s { a with quality := q' } ps = .ok bs') : Slower X bs bs' := by
  have hlev := level_mono X.consts h
  have hrad := radius_mono h
  have hcmp := compressonator_slower h
  have h0 : (0 : ℚ) ≤ searchRadius q' := by positivity
  cases s with
  | Bc1 =>
    simp only [compressS3tc, Res.bind_eq_ok, Res.pure_eq, Res.ok.injEq] at h1 h2
    obtain ⟨px, e1, rfl⟩ := h1
    obtain ⟨px', e2, rfl⟩ := h2
    obtain rfl : px = px' := by rw [e1] at e2; simpa using e2
    exact slower_one rfl rfl hlev rfl
  | Bc1A =>
    simp only [compressS3tc, Res.bind_eq_ok, Res.pure_eq] at h1 h2
    obtain ⟨px, e1, h1⟩ := h1
    obtain ⟨px', e2, h2⟩ := h2
    obtain rfl : px = px' := by rw [e1] at e2; simpa using e2
    split at h1 <;> rename_i hc
    · rw [if_pos hc] at h2
      simp only [Res.ok.injEq] at h1 h2
      subst h1 h2
      refine slower_one rfl rfl ?_ rfl
      cases q <;> cases q' <;> simp only [rank] at h <;> first | omega | (simp [squishFit, Quality.value])
    · rw [if_neg hc] at h2
      simp only [Res.ok.injEq] at h1 h2
      subst h1 h2
      exact slower_one rfl rfl hlev rfl
  | Bc2 =>
    simp only [compressS3tc, Res.bind_eq_ok, Res.pure_eq, Res.ok.injEq] at h1 h2
    obtain ⟨px, e1, al, f1, rfl⟩ := h1
    obtain ⟨px', e2, al', f2, rfl⟩ := h2
    obtain rfl : px = px' := by rw [e1] at e2; simpa using e2
    obtain rfl : al = al' := by rw [f1] at f2; simpa using f2
    exact ⟨al, _, _, rfl, rfl, rfl, noLess_one rfl rfl hlev⟩
  | Bc3 =>
    simp only [compressS3tc, Res.bind_eq_ok, Res.pure_eq] at h1 h2
    obtain ⟨px, e1, h1⟩ := h1
    obtain ⟨px', e2, h2⟩ := h2
    obtain rfl : px = px' := by rw [e1] at e2; simpa using e2
    by_cases hl' : lowQuality q' = true
    · rw [if_pos hl', Res.ok.injEq] at h2
      rw [if_pos (low_down h hl'), Res.ok.injEq] at h1
      subst h1 h2
      exact ⟨[], _, _, rfl, rfl, rfl, .cons ⟨_, _, rfl, rfl, hlev⟩ (.cons ⟨_, _, rfl, rfl, le_refl _⟩ .nil)⟩
    · rw [if_neg hl', Res.ok.injEq] at h2
      split at h1 <;> rw [Res.ok.injEq] at h1 <;> subst h1 h2
      · exact ⟨[], _, _, rfl, rfl, rfl, .cons ⟨_, _, rfl, rfl, hlev⟩ (.cons ⟨_, _, rfl, rfl, h0⟩ .nil)⟩
      · exact ⟨[], _, _, rfl, rfl, rfl, .cons ⟨_, _, rfl, rfl, hlev⟩ (.cons ⟨_, _, rfl, rfl, hrad⟩ .nil)⟩
  | Bc4 sg =>
    cases sg
    · simp only [compressS3tc, Res.bind_eq_ok, Res.pure_eq] at h1 h2
      obtain ⟨px, e1, h1⟩ := h1
      obtain ⟨px', e2, h2⟩ := h2
      obtain rfl : px = px' := by rw [e1] at e2; simpa using e2
      by_cases hl' : lowQuality q' = true
      · rw [if_pos hl', Res.ok.injEq] at h2
        rw [if_pos (low_down h hl'), Res.ok.injEq] at h1
        subst h1 h2
        exact slower_one rfl rfl (le_refl _) rfl
      · rw [if_neg hl', Res.ok.injEq] at h2
        split at h1 <;> rw [Res.ok.injEq] at h1 <;> subst h1 h2
        · exact slower_one rfl rfl h0 rfl
        · exact slower_one rfl rfl hrad rfl
    · simp only [compressS3tc, Res.bind_eq_ok, Res.pure_eq, Res.ok.injEq, compressonatorLevel_eq] at h1 h2
      obtain ⟨px, e1, rfl⟩ := h1
      obtain ⟨px', e2, rfl⟩ := h2
      obtain rfl : px = px' := by rw [e1] at e2; simpa using e2
      exact slower_one rfl rfl hcmp rfl
  | Bc5 sg =>
    cases sg
    · simp only [compressS3tc, Res.bind_eq_ok, Res.pure_eq] at h1 h2
      obtain ⟨px, e1, h1⟩ := h1
      obtain ⟨px', e2, h2⟩ := h2
      obtain rfl : px = px' := by rw [e1] at e2; simpa using e2
      by_cases hl' : lowQuality q' = true
      · rw [if_pos hl', Res.ok.injEq] at h2
        rw [if_pos (low_down h hl'), Res.ok.injEq] at h1
        subst h1 h2
        exact slower_one rfl rfl (le_refl _) rfl
      · rw [if_neg hl', Res.ok.injEq] at h2
        split at h1 <;> rw [Res.ok.injEq] at h1 <;> subst h1 h2
        · exact slower_one rfl rfl h0 rfl
        · exact slower_one rfl rfl hrad rfl
    · simp only [compressS3tc, Res.bind_eq_ok, Res.pure_eq, Res.ok.injEq, compressonatorLevel_eq] at h1 h2
      obtain ⟨px, e1, py, f1, rfl⟩ := h1
      obtain ⟨px', e2, py', f2, rfl⟩ := h2
      obtain rfl : px = px' := by rw [e1] at e2; simpa using e2
      obtain rfl : py = py' := by rw [f1] at f2; simpa using f2
      exact slower_one rfl rfl hcmp rfl
  | Bc6H sg =>
    have hs : ∀ q, speed (bc6Profile q) = rank q := by intro q; cases q <;> rfl
    simp only [compressS3tc, compressonatorLevel_eq] at h1 h2
    split at h1 <;> rename_i hc
    · rw [if_pos hc, Res.ok.injEq] at h2
      rw [Res.ok.injEq] at h1
      subst h1 h2
      refine slower_one rfl rfl ?_ rfl
      rw [hs, hs]
      exact_mod_cast h
    · rw [if_neg hc, Res.ok.injEq] at h2
      rw [Res.ok.injEq] at h1
      subst h1 h2
      exact slower_one rfl rfl hcmp rfl
  | Bc7 =>
    have hs : ∀ q, speed (bc7eProfile q) = rank q := by intro q; cases q <;> rfl
    simp only [compressS3tc, Res.bind_eq_ok, Res.pure_eq] at h1 h2
    obtain ⟨px, e1, h1⟩ := h1
    obtain ⟨px', e2, h2⟩ := h2
    obtain rfl : px = px' := by rw [e1] at e2; simpa using e2
    split at h1 <;> rename_i hc
    · rw [if_pos hc, Res.ok.injEq] at h2
      rw [Res.ok.injEq] at h1
      subst h1 h2
      refine slower_one rfl rfl ?_ rfl
      rw [hs, hs]
      exact_mod_cast h
    · rw [if_neg hc, Res.ok.injEq] at h2
      rw [Res.ok.injEq] at h1
      subst h1 h2
      refine ⟨[], _, _, rfl, rfl, rfl, .cons ⟨_, _, rfl, rfl, ?_⟩ (.cons ⟨_, _, rfl, rfl, ?_⟩
        (.cons ⟨_, _, rfl, rfl, ?_⟩ (.cons ⟨_, _, rfl, rfl, ?_⟩ .nil)))⟩ <;>
        cases q <;> cases q' <;> simp only [rank] at h <;> first | omega | (simp [bc7Params]; try exact hK.bc7)

/-- The same for the blocks of every block converter. -/
theorem block_slower (hK : OrderedConsts X.consts) (k : Conv) (a : ConvArgs) {q q' : Quality}
    (h : rank q ≤ rank q') {b : Nat × Nat × List Pixel} {bs bs' : List UInt8}
    (h1 : blockCompress X k { a with quality := q } b = .ok bs)
    (h2 : blockCompress X k { a with quality := q' } b = .ok bs') : Slower X bs bs' := by
  cases k <;> simp only [blockCompress, reduceCtorEq] at h1 h2
  case s3tc s => exact s3tc_slower hK s a h h1 h2
  case etc =>
    rw [Res.ok.injEq] at h1 h2
    subst h1 h2
    obtain ⟨x, y, e1, e2, e3⟩ := etcEffort_mono hK h
    exact ⟨[], _, _, rfl, rfl, rfl, .cons ⟨x, y, e1, e2, e3⟩ .nil⟩
  case astc bx by_ =>
    rw [Res.ok.injEq] at h1 h2
    subst h1 h2
    refine slower_one rfl rfl ?_ rfl
    have hs : ∀ q, thoroughness (astcPreset q) = rank q := by intro q; cases q <;> rfl
    simp only [astcConfig, hs]
    exact_mod_cast h

theorem pvrtc_slower {img : FImg} (a : ConvArgs) {q q' : Quality} (h : rank q ≤ rank q') {f : PvrPixel}
    (hf : pvrtcPixelType a.format = some f) {bs bs' : List UInt8}
    (h1 : encodeImage X .pvrtc { a with quality := q } img = .ok bs)
    (h2 : encodeImage X .pvrtc { a with quality := q' } img = .ok bs') :
    ∃ c c', bs = X.codec c ∧ bs' = X.codec c' ∧ input c = input c' ∧ NoLessEffort c c' := by
  simp only [encodeImage, Res.bind_eq_ok, hf, Res.pure_eq, Res.ok.injEq] at h1 h2
  obtain ⟨px, e1, rfl⟩ := h1
  obtain ⟨px', e2, rfl⟩ := h2
  obtain rfl : px = px' := by rw [e1] at e2; simpa using e2
  refine ⟨_, _, rfl, rfl, rfl, noLess_one rfl rfl ?_⟩
  have hs : ∀ q, pvrtcRank (pvrtcQuality q) = rank q := by intro q; cases q <;> rfl
  rw [hs, hs]
  exact_mod_cast h

end Cuttlefish
