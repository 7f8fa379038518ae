import Verif.Model.ToolMain
import Verif.Proofs.Geometry
import Verif.Proofs.ProcessSafe
import Verif.Props.C36
/-
The images of a job.
-/
namespace Cuttlefish
open Spec
variable {N σ : Type} {A : Arith N} {FI : FreeImage N}

theorem turned_same {H : Type} {c : Cmd H} (h : ¬ quarterTurn c) (s : ℕ × ℕ) : turnedSize c s = s := by
  unfold turnedSize
  split
  · rename_i hr
    have : c.rotateAngle ∈ [RotateAngle.CW180, .CCW180] := by
      by_contra hc
      exact h ⟨hr, hc⟩
    simp only [List.mem_cons, List.not_mem_nil, or_false] at this
    rcases this with e | e <;> rw [e] <;> rfl
  · rfl

theorem lastSize_asked {H : Type} {c : Cmd H} {s : ℕ × ℕ} {l : ℕ} (h : ¬ TurnedMip c s l) :
    lastSize c s l = imageSize c s l := by
  rw [imageSize_eq]
  unfold lastSize
  split
  · rfl
  · rename_i hs
    have hn : c.normalMap = true := by
      by_contra hn
      exact hs (by unfold firstSize; rw [if_neg hn])
    rw [turned_same]
    intro hq
    refine h ⟨hn, hq, ?_⟩
    unfold firstSize at hs
    rw [if_pos hn] at hs
    exact fun e => hs e.symm

theorem level_zero {s : ℕ × ℕ} (h : 0 < s.1 ∧ 0 < s.2) : levelSize s 0 = s := by
  refine Prod.ext ?_ ?_ <;> simp only [levelSize, pow_zero, Nat.div_one] <;> omega

/-- A size that an option asks for. -/
theorem sizeFor_bounds {cur w h r : ℕ} {o : SizeOpt} (hc : 1 ≤ cur ∧ cur < 2 ^ 31) (hw : 1 ≤ w ∧ w < 2 ^ 31)
    (hh : 1 ≤ h ∧ h < 2 ^ 31) (ho : ∀ n, o = .exact n → 0 < n ∧ n < 2 ^ 31) (hr : SizeFor cur w h o r) :
    0 < r ∧ r ≤ 2 ^ 31 := by
  have hb : 1 ≤ baseSize cur w h o ∧ baseSize cur w h o < 2 ^ 31 := by
    cases o
    case exact n =>
      have := ho n rfl
      simp only [baseSize]
      omega
    all_goals simp only [baseSize] <;> first | assumption | (split <;> assumption)
  have next {n r : ℕ} (hn : n < 2 ^ 31) (h : NextPower n r) : 0 < r ∧ r ≤ 2 ^ 31 := by
    obtain ⟨k, rfl, -, hk⟩ := h
    exact ⟨by positivity, hk 31 hn.le⟩
  have near {n r : ℕ} (hn : n < 2 ^ 31) (h : NearestPower n r) : 0 < r ∧ r ≤ 2 ^ 31 := by
    obtain ⟨k, rfl, hk⟩ := h
    refine ⟨by positivity, ?_⟩
    by_contra hc
    have := (hk 31).1
    unfold gap at this
    omega
  cases o <;> simp only [SizeFor] at hr
  all_goals first
    | exact next hb.2 hr
    | exact near hb.2 hr
    | (subst hr; omega)

/-- The target size of a job whose first image is `i`. -/
theorem target_asked {c : Cmd N} {i : Image N} (hc : Spec.Countable i) (hg : GivenSizes c) :
    SizeFor i.bmp.width i.bmp.width i.bmp.height (sizeOfInt c.width) (targetSize c i unset unset).1 ∧
      SizeFor i.bmp.height i.bmp.width i.bmp.height (sizeOfInt c.height) (targetSize c i unset unset).2 := by
  obtain ⟨h1, h2, h3, h4, -⟩ := hc
  unfold targetSize
  rw [if_pos ⟨rfl, rfl⟩]
  constructor
  · exact C36_dimension _ ⟨h1, h3.le⟩ ⟨h1, h3.le⟩ ⟨h2, h4.le⟩ (fun n hn => by
      have := hg _ (by simp) n hn
      omega)
  · exact C36_dimension _ ⟨h2, h4.le⟩ ⟨h1, h3.le⟩ ⟨h2, h4.le⟩ (fun n hn => by
      have := hg _ (by simp) n hn
      omega)

theorem target_bounds {c : Cmd N} {i : Image N} (hc : Spec.Countable i) (hg : GivenSizes c) :
    (0 < (targetSize c i unset unset).1 ∧ (targetSize c i unset unset).1 ≤ 2 ^ 31) ∧
      0 < (targetSize c i unset unset).2 ∧ (targetSize c i unset unset).2 ≤ 2 ^ 31 := by
  obtain ⟨h1, h2⟩ := target_asked hc hg
  obtain ⟨a1, a2, a3, a4, -⟩ := hc
  exact ⟨sizeFor_bounds ⟨a1, a3⟩ ⟨a1, a3⟩ ⟨a2, a4⟩ (fun n hn => hg _ (by simp) n hn) h1,
    sizeFor_bounds ⟨a2, a4⟩ ⟨a1, a3⟩ ⟨a2, a4⟩ (fun n hn => hg _ (by simp) n hn) h2⟩

theorem else_case {p : Prop} [Decidable p] {a b x : SizeOpt} (h : (if p then a else b) = x) (ha : a ≠ x) :
    ¬ p ∧ b = x := by
  by_cases hp : p
  · rw [if_pos hp] at h
    exact absurd h ha
  · rw [if_neg hp] at h
    exact ⟨hp, h⟩

/-- A target size is never the value for a size that is not known yet. -/
theorem target_small {c : Cmd N} {i : Image N} (hc : Spec.Countable i) (hi : IntSizes c) :
    (targetSize c i unset unset).1 + 1 < 2 ^ 32 ∧ (targetSize c i unset unset).2 + 1 < 2 ^ 32 := by
  obtain ⟨a1, a2, a3, a4, -⟩ := hc
  have key (cur : ℕ) (hcur : 1 ≤ cur ∧ cur < 2 ^ 31) (v : ℤ) (hv : -2 ^ 31 ≤ v ∧ v < 2 ^ 31) :
      getDimension cur i.bmp.width i.bmp.height (sizeOfInt v) + 1 < 2 ^ 32 := by
    by_cases he : ∃ n, sizeOfInt v = .exact n
    · obtain ⟨n, e⟩ := he
      have : n = v ∧ v ≠ -1 := by
        unfold sizeOfInt at e
        obtain ⟨h1, e⟩ := else_case e (by simp)
        iterate 14 replace e := (else_case e (by simp)).2
        exact ⟨(SizeOpt.exact.inj e).symm, h1⟩
      rw [e]
      simp only [getDimension]
      omega
    · have ho (n : ℤ) (e : sizeOfInt v = .exact n) : 0 < n ∧ n < 2 ^ 31 := absurd ⟨n, e⟩ he
      have := sizeFor_bounds hcur ⟨a1, a3⟩ ⟨a2, a4⟩ ho (C36_dimension _ ⟨hcur.1, hcur.2.le⟩ ⟨a1, a3.le⟩ ⟨a2, a4.le⟩
        (fun n hn => by
          have := ho n hn
          omega))
      omega
  unfold targetSize
  rw [if_pos ⟨rfl, rfl⟩]
  exact ⟨key _ ⟨a1, a3⟩ _ (hi _ (by simp)), key _ ⟨a2, a4⟩ _ (hi _ (by simp))⟩

theorem target_kept {c : Cmd N} {i : Image N} {w h : ℕ} (hw : w + 1 < 2 ^ 32) : targetSize c i w h = (w, h) := by
  unfold targetSize
  rw [if_neg]
  rintro ⟨e, -⟩
  unfold pow32 at e
  omega

/-- One image, for a known target size. -/
theorem loadAndProcess_asked (L : LawfulArith A) (F : LawfulFI A FI) {read : Str → ColorSpace → Img? N}
    (R : LoadsWell A read) {c : Cmd N} {p : Str} {w h l : ℕ} {r : Img? N × ℕ × ℕ}
    (e : loadAndProcess A FI read c p w h l = .ok (some r)) :
    ∃ i, read p c.imageColorSpace = some i ∧ (r.2.1, r.2.2) = targetSize c i w h ∧
      ∀ j, r.1 = some j → ¬ TurnedMip c (targetSize c i w h) l → AsAsked c (targetSize c i w h) l j := by
  unfold loadAndProcess at e
  cases hr : read p c.imageColorSpace with
  | none => rw [hr] at e; cases e
  | some i =>
    rw [hr] at e
    obtain ⟨o, eo, e⟩ := Res.bind_eq_ok.1 e
    cases e
    refine ⟨i, rfl, rfl, ?_⟩
    rintro j rfl ht
    obtain ⟨h1, h2, h3⟩ := R _ _ _ hr
    obtain ⟨b1, b2, b3, -⟩ := processLoaded_shape L F h1 h2 ⟨h3.1, h3.2.1⟩ eo
    exact ⟨b2, b1, by rw [b3]; exact lastSize_asked ht⟩

theorem loadAndProcess_defined (L : LawfulArith A) (F : LawfulFI A FI) (D : FiltersDefined A)
    {read : Str → ColorSpace → Img? N} (R : LoadsWell A read) {c : Cmd N} {p : Str} {w h l : ℕ} (hl : l < 32)
    (ht : ∀ i, read p c.imageColorSpace = some i → (targetSize c i w h).1 + 1 < 2 ^ 32 ∧ (targetSize c i w h).2 < 2 ^ 32 ∧
      (c.normalMap = true → Counts (targetSize c i w h))) :
    ∃ r, loadAndProcess A FI read c p w h l = .ok r := by
  unfold loadAndProcess
  cases hr : read p c.imageColorSpace with
  | none => exact ⟨_, rfl⟩
  | some i =>
    obtain ⟨h1, h2, h3⟩ := R _ _ _ hr
    obtain ⟨t1, t2, t3⟩ := ht i hr
    obtain ⟨o, e⟩ := processLoaded_defined (c := c) (l := l) L F D h1 h2 h3 (lt_trans (Nat.lt_succ_self _) t1) t2 hl t3
    dsimp only
    rw [e]
    exact ⟨_, rfl⟩

variable {E : ToolEnv (Image N) N σ} {read : Str → ColorSpace → Img? N}

/-- The images after the first one. -/
theorem loadMain_asked (L : LawfulArith A) (F : LawfulFI A FI) (R : LoadsWell A read)
    (hE : E.load = loadAndProcess A FI read) {c : Cmd N} {T : ℕ × ℕ} (hp : 0 < T.1 ∧ 0 < T.2) (hT : T.1 ≤ 2 ^ 31) :
    ∀ {ps : List Str} {r : List (Img? N) × ℕ × ℕ}, loadMain E c ps T.1 T.2 = .ok (some r) →
      (r.2.1, r.2.2) = T ∧ ∀ j, some j ∈ r.1 → AsAsked c T 0 j
  | [], r, e => by
    cases e
    exact ⟨rfl, by simp⟩
  | p :: ps, r, e => by
    simp only [loadMain, Res.bind_eq_ok] at e
    obtain ⟨o, eo, e⟩ := e
    cases o with
    | none => cases e
    | some o =>
      obtain ⟨q, eq, e⟩ := Res.bind_eq_ok.1 e
      cases q with
      | none => cases e
      | some q =>
        cases e
        rw [hE] at eo
        obtain ⟨i, -, h2, h3⟩ := loadAndProcess_asked L F R eo
        rw [target_kept (by omega), Prod.mk.eta] at h2 h3
        have e1 : o.2.1 = T.1 := congrArg Prod.fst h2
        have e2 : o.2.2 = T.2 := congrArg Prod.snd h2
        rw [e1, e2] at eq
        obtain ⟨a1, a2⟩ := loadMain_asked L F R hE hp hT eq
        refine ⟨a1, ?_⟩
        intro j hj
        rcases List.mem_cons.1 hj with hj | hj
        · exact h3 j hj.symm (fun ht => ht.2.2 (level_zero hp))
        · exact a2 j hj

/-- The custom mips. -/
theorem loadCustom_asked (L : LawfulArith A) (F : LawfulFI A FI) (R : LoadsWell A read)
    (hE : E.load = loadAndProcess A FI read) {c : Cmd N} {T : ℕ × ℕ} (hT : T.1 ≤ 2 ^ 31) {n : ℕ} :
    ∀ {cs : CustomMipFiles} {r : CustomMips (Image N)}, loadCustom E c n cs T.1 T.2 = .ok (some r) →
      ∀ e ∈ r, ∀ j, e.2.image = some (some j) → ¬ TurnedMip c T e.1.mipLevel → AsAsked c T e.1.mipLevel j
  | [], r, e => by
    cases e
    simp
  | m :: ms, r, e => by
    unfold loadCustom at e
    split at e
    · cases e
    · split at e
      · cases e
      · obtain ⟨o, eo, e⟩ := Res.bind_eq_ok.1 e
        cases o with
        | none => cases e
        | some o =>
          obtain ⟨q, eq, e⟩ := Res.bind_eq_ok.1 e
          cases q with
          | none => cases e
          | some q =>
            cases e
            rw [hE] at eo
            obtain ⟨i, -, h2, h3⟩ := loadAndProcess_asked L F R eo
            rw [target_kept (by omega), Prod.mk.eta] at h2 h3
            have e1 : o.2.1 = T.1 := congrArg Prod.fst h2
            have e2 : o.2.2 = T.2 := congrArg Prod.snd h2
            rw [e1, e2] at eq
            have a2 := loadCustom_asked L F R hE hT eq
            intro e he j hj ht
            rcases List.mem_cons.1 he with rfl | he
            · dsimp only at hj ht ⊢
              exact h3 j (Option.some.inj hj) ht
            · exact a2 e he j hj ht

theorem loadMain_defined (L : LawfulArith A) (F : LawfulFI A FI) (D : FiltersDefined A) (R : LoadsWell A read)
    (hE : E.load = loadAndProcess A FI read) {c : Cmd N} {T : ℕ × ℕ} (hT : T.1 + 1 < 2 ^ 32) (hT' : T.2 < 2 ^ 32)
    (hn : c.normalMap = true → Counts T) :
    ∀ (ps : List Str), ∃ r, loadMain E c ps T.1 T.2 = .ok r ∧ ∀ q, r = some q → (q.2.1, q.2.2) = T
  | [] => ⟨_, rfl, by rintro q ⟨⟩; rfl⟩
  | p :: ps => by
    obtain ⟨o, eo⟩ := loadAndProcess_defined (c := c) (p := p) (w := T.1) (h := T.2) (l := 0) L F D R (by norm_num)
      (fun i _ => by rw [target_kept hT, Prod.mk.eta]; exact ⟨hT, hT', hn⟩)
    unfold loadMain
    rw [hE, eo, Res.ok_bind]
    cases o with
    | none => exact ⟨_, rfl, by simp⟩
    | some o =>
      obtain ⟨i, -, h2, -⟩ := loadAndProcess_asked L F R eo
      rw [target_kept hT, Prod.mk.eta] at h2
      have e1 : o.2.1 = T.1 := congrArg Prod.fst h2
      have e2 : o.2.2 = T.2 := congrArg Prod.snd h2
      dsimp only
      rw [e1, e2]
      obtain ⟨q, eq, hq⟩ := loadMain_defined L F D R hE hT hT' hn ps
      rw [eq, Res.ok_bind]
      cases q with
      | none => exact ⟨_, rfl, by simp⟩
      | some q =>
        refine ⟨_, rfl, ?_⟩
        rintro r ⟨⟩
        exact hq q rfl

theorem loadCustom_defined (L : LawfulArith A) (F : LawfulFI A FI) (D : FiltersDefined A) (R : LoadsWell A read)
    (hE : E.load = loadAndProcess A FI read) {c : Cmd N} {T : ℕ × ℕ} (hT : T.1 + 1 < 2 ^ 32) (hT' : T.2 < 2 ^ 32)
    (hn : c.normalMap = true → Counts T) {n : ℕ} (h32 : n ≤ 32) :
    ∀ (cs : CustomMipFiles), ∃ r, loadCustom E c n cs T.1 T.2 = .ok r
  | [] => ⟨_, rfl⟩
  | m :: ms => by
    unfold loadCustom
    split
    · exact ⟨_, rfl⟩
    · rename_i hl
      split
      · exact ⟨_, rfl⟩
      · obtain ⟨o, eo⟩ := loadAndProcess_defined (c := c) (p := m.2.1) (w := T.1) (h := T.2) (l := m.1.mipLevel) L F D R
          (by omega) (fun i _ => by rw [target_kept hT, Prod.mk.eta]; exact ⟨hT, hT', hn⟩)
        rw [hE, eo, Res.ok_bind]
        cases o with
        | none => exact ⟨_, rfl⟩
        | some o =>
          obtain ⟨i, -, h2, -⟩ := loadAndProcess_asked L F R eo
          rw [target_kept hT, Prod.mk.eta] at h2
          have e1 : o.2.1 = T.1 := congrArg Prod.fst h2
          have e2 : o.2.2 = T.2 := congrArg Prod.snd h2
          dsimp only
          rw [e1, e2]
          obtain ⟨q, eq⟩ := loadCustom_defined L F D R hE hT hT' hn h32 ms
          rw [eq, Res.ok_bind]
          cases q with
          | none => exact ⟨_, rfl⟩
          | some q => exact ⟨_, rfl⟩

end Cuttlefish
