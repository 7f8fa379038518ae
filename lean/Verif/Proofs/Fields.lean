import Verif.Proofs.Quant
import Verif.Proofs.Bytes
/-
The bytes of one texel, channel by channel.
-/
namespace Cuttlefish
open Spec

/-- The clamped channel value (0 for NaN). -/
def clampQ (lo hi : ℚ) (w : Nat) : ℚ := (clampVal lo hi (F32.ofBits w)).getD 0

/-- The stored field for a channel word. -/
def quantQ (t : TType) (n w : Nat) : Nat :=
  match t with
  | .UNorm => (roundAwayQ (rne (clampQ 0 1 w * ((2 ^ n - 1 : ℕ) : ℚ)))).toNat
  | .SNorm => bits n (roundAwayQ (rne (clampQ (-1) 1 w * ((2 ^ (n - 1) - 1 : ℤ) : ℚ))))
  | .UInt => (roundAwayQ (clampQ 0 (2 ^ n - 1) w)).toNat
  | .Int => bits n (roundAwayQ (clampQ (-2 ^ (n - 1)) (2 ^ (n - 1) - 1) w))
  | .Float | .UFloat => w

theorem clampQ_some {w : Nat} (h : F32.ofBits w ≠ .nan) (lo hi : ℚ) :
    clampVal lo hi (F32.ofBits w) = some (clampQ lo hi w) := by
  unfold clampQ
  cases hc : clampVal lo hi (F32.ofBits w) with
  | none => exact absurd (clampVal_none.1 hc) h
  | some c => rfl

theorem unorm_ok {w n top : Nat} (h : F32.ofBits w ≠ .nan) (hn : n ≤ 24) (ht : 2 ^ n - 1 ≤ top) :
    toUNorm top (2 ^ n - 1) w = .ok (quantQ .UNorm n w) ∧ quantQ .UNorm n w < 2 ^ n := by
  have h2 : 2 ^ n ≤ 2 ^ 24 := Nat.pow_le_pow_right (by norm_num) hn
  obtain ⟨h1, h0, hle⟩ := toUNorm_eq (top := top) (m := 2 ^ n - 1) (clampQ_some h 0 1)
    (le_trans (Nat.sub_le _ _) h2) ht
  refine ⟨h1, ?_⟩
  have hp : 0 < 2 ^ n := by positivity
  simp only [quantQ]
  omega

theorem maskU_ok {w n top : Nat} (h : F32.ofBits w ≠ .nan) (hn : n ≤ 24) (ht : 2 ^ n - 1 ≤ top) :
    maskU top (2 ^ n - 1) w = .ok (quantQ .UNorm n w) := by
  obtain ⟨h1, h2⟩ := unorm_ok h hn ht
  unfold maskU
  rw [h1, Res.ok_bind, Nat.and_two_pow_sub_one_eq_mod, Nat.mod_eq_of_lt h2]
  rfl

theorem clamp01_rep {w : Nat} {c : ℚ} (h : clampVal 0 1 (F32.ofBits w) = some c) : Rep c := by
  have r0 : Rep (0 : ℚ) := by simpa using rep_int (n := 0) (by norm_num)
  have r1 : Rep (1 : ℚ) := by simpa using rep_int (n := 1) (by norm_num)
  cases hv : F32.ofBits w with
  | nan => rw [hv] at h; simp [clampVal] at h
  | inf s => rw [hv] at h; cases s <;> simp [clampVal] at h <;> subst h <;> assumption
  | fin q =>
    rw [hv] at h
    simp only [clampVal, Option.some.injEq] at h
    have rq := ofBits_rep hv
    rcases max_choice (0 : ℚ) (min 1 q) with e | e
    · rw [← h, e]; exact r0
    · rw [← h, e]
      rcases min_choice (1 : ℚ) q with e | e <;> rw [e] <;> assumption

theorem a1_ok {w : Nat} (h : F32.ofBits w ≠ .nan) :
    toA1 w = .ok (quantQ .UNorm 1 w) := by
  have hc := clampQ_some h 0 1
  rw [(toA1_eq hc).1]
  simp only [quantQ]
  norm_num
  rw [rne_exact (clamp01_rep hc)]

theorem unorm_lt {w n : Nat} (h : F32.ofBits w ≠ .nan) (hn : n ≤ 24) :
    quantQ .UNorm n w < 2 ^ n := (unorm_ok (top := 2 ^ n - 1) h hn (le_refl _)).2

theorem snorm_ok {w n : Nat} (h : F32.ofBits w ≠ .nan) (hn : 1 ≤ n) (hn2 : n ≤ 16) :
    toSNorm n w = .ok (quantQ .SNorm n w) :=
  (toSNorm_eq (clampQ_some h (-1) 1) hn hn2).1

theorem field_ok {w n : Nat} (h : F32.ofBits w ≠ .nan) (hn : n ≤ 31) :
    toField (2 ^ n - 1) w = .ok (quantQ .UInt n w) ∧ quantQ .UInt n w < 2 ^ n := by
  have h2 : 2 ^ n ≤ 2 ^ 31 := Nat.pow_le_pow_right (by norm_num) hn
  have hp : 0 < 2 ^ n := by positivity
  have hcast : ((2 ^ n - 1 : ℕ) : ℚ) = 2 ^ n - 1 := by
    rw [Nat.cast_sub hp]; push_cast; rfl
  have hc := clampQ_some h 0 (2 ^ n - 1)
  rw [← hcast] at hc
  obtain ⟨h1, h0, hle⟩ := toField_eq (m := 2 ^ n - 1) hc (by omega)
  rw [h1]
  simp only [quantQ, ← hcast]
  refine ⟨trivial, ?_⟩
  omega

/-- A float below 2^32 is at most 2^32 - 256; same one power lower. -/
theorem rep_below {q : ℚ} {k : Nat} (hk : 24 ≤ k) (hr : Rep q) (hq : q < 2 ^ k) :
    q ≤ 2 ^ k - 2 ^ (k - 24) := by
  obtain ⟨n, e, hn, _, rfl⟩ := hr
  have hk' : (2 : ℚ) ^ k = 2 ^ 24 * 2 ^ (k - 24) := by rw [← pow_add]; congr 1; omega
  have hpos : (0 : ℚ) < 2 ^ (k - 24) := by positivity
  by_cases he : (k : ℤ) - 24 ≤ e
  · obtain ⟨d, hd⟩ : ∃ d : Nat, e = (k - 24 : ℕ) + d := ⟨(e - (k - 24)).toNat, by omega⟩
    have he2 : (2 : ℚ) ^ e = 2 ^ (k - 24) * 2 ^ d := by
      rw [hd, zpow_add₀ (by norm_num), zpow_natCast, zpow_natCast]
    rw [he2, hk'] at hq
    rw [he2, hk']
    have h1 : ((n * 2 ^ d : ℤ) : ℚ) < 2 ^ 24 := by
      push_cast
      have : (n : ℚ) * 2 ^ d * 2 ^ (k - 24) < 2 ^ 24 * 2 ^ (k - 24) := by linarith
      exact lt_of_mul_lt_mul_right this hpos.le
    have h2 : (n * 2 ^ d : ℤ) < 2 ^ 24 := by exact_mod_cast h1
    have h3 : (n * 2 ^ d : ℤ) ≤ 2 ^ 24 - 1 := by omega
    have h4 : (n : ℚ) * 2 ^ d ≤ 2 ^ 24 - 1 := by exact_mod_cast h3
    nlinarith
  · have he' : e + 1 ≤ ((k - 24 : ℕ) : ℤ) := by omega
    have h1 : (2 : ℚ) ^ (e + 1) ≤ 2 ^ (k - 24) := by
      rw [← zpow_natCast]; exact zpow_le_zpow_right₀ (by norm_num) he'
    rw [zpow_add₀ (by norm_num), zpow_one] at h1
    have h2 : (n : ℚ) ≤ 2 ^ 24 := by exact_mod_cast le_trans (le_abs_self _) hn
    have h3 : (0 : ℚ) < 2 ^ e := by positivity
    have h4 : (n : ℚ) * 2 ^ e ≤ 2 ^ 24 * 2 ^ e := mul_le_mul_of_nonneg_right h2 h3.le
    rw [hk']
    nlinarith

/-- `toInt` when the upper limit rounds up to `hi + 1` and the value is below that. -/
theorem toInt_eq32 {lo hi : ℤ} {k v : Nat} (hk : 25 < k) (hhi : hi = 2 ^ k - 1) (hlo : lo ≤ 0)
    (rlo : F32.round lo = .fin lo) (rhi : F32.round hi = .fin (2 ^ k : ℚ))
    (hn : F32.ofBits v ≠ .nan) (hv : (F32.ofBits v).lt (.fin (2 ^ k)) = true) :
    toInt lo hi v = .ok (roundAwayQ (clampQ lo hi v)) ∧ lo ≤ roundAwayQ (clampQ lo hi v) ∧
      roundAwayQ (clampQ lo hi v) ≤ hi := by
  have hk2 : (1 : ℚ) ≤ 2 ^ k := one_le_pow₀ (by norm_num)
  have hk2z : (1 : ℤ) ≤ 2 ^ k := one_le_pow₀ (by norm_num)
  have hlh : lo ≤ hi := by omega
  have hlhq : (lo : ℚ) ≤ hi := by exact_mod_cast hlh
  have hc := clampQ_some hn lo hi
  have hr := clampVal_range hlhq hc
  have h0 : lo ≤ roundAwayQ (clampQ lo hi v) := by
    have := roundAway_mono hr.1
    rwa [roundAway_int] at this
  have h1 : roundAwayQ (clampQ lo hi v) ≤ hi := by
    have := roundAway_mono hr.2
    rwa [roundAway_int] at this
  refine ⟨?_, h0, h1⟩
  have hlk : (lo : ℚ) ≤ 2 ^ k := by
    have : (lo : ℚ) ≤ 0 := by exact_mod_cast hlo
    linarith
  have hsame : clampVal (lo : ℚ) (2 ^ k) (F32.ofBits v) = some (clampQ lo hi v) := by
    rw [← hc]
    cases hq : F32.ofBits v with
    | nan => exact absurd hq hn
    | inf s =>
      rw [hq] at hv
      cases s with
      | true => rfl
      | false => simp [F32.lt] at hv
    | fin q =>
      rw [hq] at hv
      simp only [F32.lt, decide_eq_true_eq] at hv
      have hb := rep_below (by omega) (ofBits_rep hq) hv
      have hp : (1 : ℚ) ≤ 2 ^ (k - 24) := one_le_pow₀ (by norm_num)
      have hh : ((hi : ℤ) : ℚ) = 2 ^ k - 1 := by rw [hhi]; push_cast; rfl
      simp only [clampVal]
      rw [min_eq_right hv.le, min_eq_right (show q ≤ (hi : ℚ) by rw [hh]; linarith)]
  unfold toInt
  rw [rlo, rhi, clampF_fin hlk hsame]
  simp only [F32.roundAway]
  rw [cast_int h0 h1]

theorem round_lo32 : F32.round (((-2 ^ 31 : ℤ)) : ℚ) = .fin ((-2 ^ 31 : ℤ) : ℚ) := by decide +kernel
theorem round_hi31 : F32.round (((2 ^ 31 - 1 : ℤ)) : ℚ) = .fin (2 ^ 31 : ℚ) := by decide +kernel
theorem round_hi32 : F32.round (((2 ^ 32 - 1 : ℤ)) : ℚ) = .fin (2 ^ 32 : ℚ) := by decide +kernel
theorem round_lo0 : F32.round (((0 : ℤ)) : ℚ) = .fin ((0 : ℤ) : ℚ) := by decide +kernel

theorem uint_ok {n w : Nat} (hn : n = 8 ∨ n = 16 ∨ n = 32) (h : Storable .UInt n w) :
    ∃ i : ℤ, toInt (intLo false n) (intHi false n) w = .ok i ∧ 0 ≤ i ∧ i < 2 ^ n ∧
      bits n i = quantQ .UInt n w := by
  obtain ⟨_, hnan, h32, _⟩ := h
  have key : ∀ i : ℤ, 0 ≤ i → i ≤ 2 ^ n - 1 → i = roundAwayQ (clampQ 0 (2 ^ n - 1) w) →
      0 ≤ i ∧ i < 2 ^ n ∧ bits n i = quantQ .UInt n w := by
    intro i h0 h1 h2
    refine ⟨h0, by omega, ?_⟩
    rw [bits_nonneg h0 (by omega), h2]
    rfl
  have hcast : ((2 ^ n - 1 : ℤ) : ℚ) = 2 ^ n - 1 := by push_cast; rfl
  have hc := clampQ_some hnan ((0 : ℤ) : ℚ) ((2 ^ n - 1 : ℤ) : ℚ)
  have he : clampQ ((0 : ℤ) : ℚ) ((2 ^ n - 1 : ℤ) : ℚ) w = clampQ 0 (2 ^ n - 1) w := by
    rw [hcast]; norm_num
  simp only [intLo, intHi, Bool.false_eq_true, if_false]
  rcases hn with rfl | rfl | rfl
  · obtain ⟨h1, h2, h3⟩ := toInt_eq hc (by norm_num) (by norm_num) (by norm_num)
    exact ⟨_, h1, key _ h2 h3 (by rw [he])⟩
  · obtain ⟨h1, h2, h3⟩ := toInt_eq hc (by norm_num) (by norm_num) (by norm_num)
    exact ⟨_, h1, key _ h2 h3 (by rw [he])⟩
  · obtain ⟨h1, h2, h3⟩ := toInt_eq32 (k := 32) (by norm_num) rfl (le_refl _) round_lo0 round_hi32
      hnan (h32 rfl rfl)
    exact ⟨_, h1, key _ h2 h3 (by rw [he])⟩

theorem int_ok {n w : Nat} (hn : n = 8 ∨ n = 16 ∨ n = 32) (h : Storable .Int n w) :
    ∃ i : ℤ, toInt (intLo true n) (intHi true n) w = .ok i ∧ -2 ^ (n - 1) ≤ i ∧ i < 2 ^ (n - 1) ∧
      bits n i = quantQ .Int n w ∧ i = roundAwayQ (clampQ (-2 ^ (n - 1)) (2 ^ (n - 1) - 1) w) := by
  obtain ⟨_, hnan, _, h32⟩ := h
  have key : ∀ i : ℤ, -2 ^ (n - 1) ≤ i → i ≤ 2 ^ (n - 1) - 1 →
      i = roundAwayQ (clampQ (-2 ^ (n - 1)) (2 ^ (n - 1) - 1) w) →
      -2 ^ (n - 1) ≤ i ∧ i < 2 ^ (n - 1) ∧ bits n i = quantQ .Int n w ∧
        i = roundAwayQ (clampQ (-2 ^ (n - 1)) (2 ^ (n - 1) - 1) w) := by
    intro i h0 h1 h2
    refine ⟨h0, by omega, ?_, h2⟩
    rw [h2]
    rfl
  have hc := clampQ_some hnan ((-2 ^ (n - 1) : ℤ) : ℚ) ((2 ^ (n - 1) - 1 : ℤ) : ℚ)
  have he : clampQ ((-2 ^ (n - 1) : ℤ) : ℚ) ((2 ^ (n - 1) - 1 : ℤ) : ℚ) w =
      clampQ (-2 ^ (n - 1)) (2 ^ (n - 1) - 1) w := by
    push_cast; rfl
  simp only [intLo, intHi, if_true]
  rcases hn with rfl | rfl | rfl
  · obtain ⟨h1, h2, h3⟩ := toInt_eq hc (by norm_num) (by norm_num) (by norm_num)
    exact ⟨_, h1, key _ h2 h3 (by rw [he])⟩
  · obtain ⟨h1, h2, h3⟩ := toInt_eq hc (by norm_num) (by norm_num) (by norm_num)
    exact ⟨_, h1, key _ h2 h3 (by rw [he])⟩
  · obtain ⟨h1, h2, h3⟩ := toInt_eq32 (k := 31) (lo := -2 ^ 31) (by norm_num) rfl (by norm_num)
      round_lo32 round_hi31 hnan (h32 rfl rfl)
    exact ⟨_, h1, key _ h2 h3 (by rw [← he])⟩

/-! ### One channel of the template converters -/

theorem chan_unorm (X : Ext) {s c w : Nat} (hs : s = 1 ∨ s = 2) (h : F32.ofBits w ≠ .nan) :
    chanBytes X (.unorm s c) w = .ok (leBytes s (quantQ .UNorm (8 * s) w)) ∧
      quantQ .UNorm (8 * s) w < 256 ^ s := by
  obtain ⟨h1, h2⟩ := unorm_ok (n := 8 * s) (top := 2 ^ (8 * s) - 1) h (by omega) (le_refl _)
  refine ⟨?_, ?_⟩
  · simp only [chanBytes, h1, Res.ok_bind, Res.pure_eq]
  · rw [pow_mul] at h2
    norm_num at h2
    exact h2

theorem chan_snorm (X : Ext) {s c w : Nat} (hs : s = 1 ∨ s = 2) (h : F32.ofBits w ≠ .nan) :
    chanBytes X (.snorm s c) w = .ok (leBytes s (quantQ .SNorm (8 * s) w)) ∧
      quantQ .SNorm (8 * s) w < 256 ^ s := by
  have h1 := snorm_ok (n := 8 * s) h (by omega) (by omega)
  refine ⟨?_, ?_⟩
  · simp only [chanBytes, h1, Res.ok_bind, Res.pure_eq]
  · have h2 := bits_lt (8 * s) (roundAwayQ (rne (clampQ (-1) 1 w * ((2 ^ (8 * s - 1) - 1 : ℤ) : ℚ))))
    rw [pow_mul] at h2
    norm_num at h2
    simpa [quantQ] using h2

theorem chan_uint (X : Ext) {s c w : Nat} (hs : s = 1 ∨ s = 2 ∨ s = 4)
    (h : Storable .UInt (8 * s) w) :
    chanBytes X (.int false s c) w = .ok (leBytes s (quantQ .UInt (8 * s) w)) ∧
      quantQ .UInt (8 * s) w < 256 ^ s := by
  obtain ⟨i, h1, h2, h3, h4⟩ := uint_ok (by omega) h
  refine ⟨?_, ?_⟩
  · simp only [chanBytes, h1, Res.ok_bind, Res.pure_eq, h4]
  · rw [← h4]
    have := bits_lt (8 * s) i
    rw [pow_mul] at this
    simpa using this

theorem chan_int (X : Ext) {s c w : Nat} (hs : s = 1 ∨ s = 2 ∨ s = 4)
    (h : Storable .Int (8 * s) w) :
    chanBytes X (.int true s c) w = .ok (leBytes s (quantQ .Int (8 * s) w)) ∧
      quantQ .Int (8 * s) w < 256 ^ s := by
  obtain ⟨i, h1, h2, h3, h4, _⟩ := int_ok (by omega) h
  refine ⟨?_, ?_⟩
  · simp only [chanBytes, h1, Res.ok_bind, Res.pure_eq, h4]
  · rw [← h4]
    have := bits_lt (8 * s) i
    rw [pow_mul] at this
    simpa using this

theorem chan_float (X : Ext) {c w : Nat} (h : w < 2 ^ 32) :
    chanBytes X (.float c) w = .ok (leBytes 4 (quantQ .Float 32 w)) ∧
      quantQ .Float 32 w < 256 ^ 4 := ⟨rfl, by simpa [quantQ] using h⟩

/-! ### A whole texel -/

theorem array_texel (X : Ext) (k : Conv) (p : Pixel) (s : Nat) (q : Nat → Nat) (chs : List Chan)
    (h : ∀ c ∈ chs, chanBytes X k (c.of p) = .ok (leBytes s (q (c.of p))) ∧
      q (c.of p) < 256 ^ s) :
    ∃ bs, mapRes (chanBytes X k) (chs.map (fun c => c.of p)) = .ok bs ∧
      bs.flatten.length = s * chs.length ∧
      arrayFields (chs.map (fun c => (c, 8 * s))) bs.flatten = chs.map (fun c => (c, q (c.of p))) := by
  induction chs with
  | nil => exact ⟨[], rfl, rfl, rfl⟩
  | cons c chs ih =>
    obtain ⟨bs, h1, h2, h3⟩ := ih (fun c hc => h c (List.mem_cons_of_mem _ hc))
    obtain ⟨h4, h5⟩ := h c List.mem_cons_self
    refine ⟨leBytes s (q (c.of p)) :: bs, ?_, ?_, ?_⟩
    · simp only [List.map_cons, mapRes, h4, h1, Res.ok_bind, Res.pure_eq]
    · simp only [List.flatten_cons, List.length_append, leBytes_length, h2, List.length_cons]
      ring
    · simp only [List.map_cons, arrayFields, List.flatten_cons]
      have e : 8 * s / 8 = s := by omega
      rw [e, List.take_left' (leBytes_length _ _), List.drop_left' (leBytes_length _ _), h3,
        leVal_leBytes_of_lt h5]

/-- The first channels in the order red, green, blue, alpha. -/
def rgba (n : Nat) : List Chan := [Chan.R, .G, .B, .A].take n

theorem rgba_chans (n : Nat) (p : Pixel) : p.chans.take n = (rgba n).map (fun c => c.of p) := by
  unfold rgba
  rw [List.map_take]
  rfl

/-- What `texel_fields` says for one converter. -/
def FieldsOK (X : Ext) (k : Conv) (t : TType) (cs : List (Chan × Nat)) (p : Pixel) : Prop :=
  ∃ bs, texelBytes X k p = .ok bs ∧ 8 * bs.length = bitsOf cs ∧
    texelFields cs bs = cs.map (fun e => (e.1, quantQ t e.2 (e.1.of p)))

theorem isArray_map (s : Nat) (chs : List Chan) : isArray (chs.map (fun c => (c, 8 * s))) = true := by
  simp [isArray]

theorem bitsOf_map (s : Nat) (chs : List Chan) :
    bitsOf (chs.map (fun c => (c, 8 * s))) = 8 * (s * chs.length) := by
  induction chs with
  | nil => rfl
  | cons c chs ih =>
    simp only [bitsOf, List.map_cons, List.sum_cons, List.length_cons] at ih ⊢
    rw [ih]; ring

theorem template_fields (X : Ext) (k : Conv) (t : TType) (s n : Nat) (p : Pixel)
    (hk : ∀ q, k ≠ .packed q) (hch : k.channels = n)
    (h : ∀ e ∈ (rgba n).map (fun c => (c, 8 * s)), Storable t e.2 (e.1.of p))
    (hq : ∀ w, Storable t (8 * s) w → chanBytes X k w = .ok (leBytes s (quantQ t (8 * s) w)) ∧
      quantQ t (8 * s) w < 256 ^ s) :
    FieldsOK X k t ((rgba n).map (fun c => (c, 8 * s))) p := by
  obtain ⟨bs, h1, h2, h3⟩ := array_texel X k p s (quantQ t (8 * s)) (rgba n)
    (fun c hc => hq _ (h (c, 8 * s) (List.mem_map_of_mem hc)))
  refine ⟨bs.flatten, ?_, ?_, ?_⟩
  · have : texelBytes X k p = (do
        let bs ← mapRes (chanBytes X k) (p.chans.take k.channels)
        pure bs.flatten) := by
      cases k with
      | packed q => exact absurd rfl (hk q)
      | _ => rfl
    rw [this, hch, rgba_chans, h1]
    rfl
  · rw [h2, bitsOf_map]
  · rw [texelFields, if_pos (isArray_map _ _), h3, List.map_map]
    rfl

theorem create8_fields (X : Ext) {n : Nat} {t : TType} {k : Conv} (hk : create8 n t = some k)
    (p : Pixel) (h : ∀ e ∈ (rgba n).map (fun c => (c, 8)), Storable t e.2 (e.1.of p)) :
    FieldsOK X k t ((rgba n).map (fun c => (c, 8))) p := by
  cases t <;> simp only [create8, reduceCtorEq, Option.some.injEq] at hk <;> subst hk
  · exact template_fields X _ _ 1 n p (by simp) rfl h (fun w hw => chan_unorm X (by simp) hw.2.1)
  · exact template_fields X _ _ 1 n p (by simp) rfl h (fun w hw => chan_snorm X (by simp) hw.2.1)
  · exact template_fields X _ _ 1 n p (by simp) rfl h (fun w hw => chan_uint X (by simp) hw)
  · exact template_fields X _ _ 1 n p (by simp) rfl h (fun w hw => chan_int X (by simp) hw)

theorem create16_fields (X : Ext) {n : Nat} {t : TType} {k : Conv} (hk : create16 n t = some k)
    (ht : t ≠ .Float)
    (p : Pixel) (h : ∀ e ∈ (rgba n).map (fun c => (c, 16)), Storable t e.2 (e.1.of p)) :
    FieldsOK X k t ((rgba n).map (fun c => (c, 16))) p := by
  cases t <;> simp only [create16, reduceCtorEq, Option.some.injEq] at hk <;> subst hk
  · exact template_fields X _ _ 2 n p (by simp) rfl h (fun w hw => chan_unorm X (by simp) hw.2.1)
  · exact template_fields X _ _ 2 n p (by simp) rfl h (fun w hw => chan_snorm X (by simp) hw.2.1)
  · exact template_fields X _ _ 2 n p (by simp) rfl h (fun w hw => chan_uint X (by simp) hw)
  · exact template_fields X _ _ 2 n p (by simp) rfl h (fun w hw => chan_int X (by simp) hw)
  · exact absurd rfl ht

theorem create32_fields (X : Ext) {n : Nat} {t : TType} {k : Conv} (hk : create32 n t = some k)
    (p : Pixel) (h : ∀ e ∈ (rgba n).map (fun c => (c, 32)), Storable t e.2 (e.1.of p)) :
    FieldsOK X k t ((rgba n).map (fun c => (c, 32))) p := by
  cases t <;> simp only [create32, reduceCtorEq, Option.some.injEq] at hk <;> subst hk
  · exact template_fields X _ _ 4 n p (by simp) rfl h (fun w hw => chan_uint X (by simp) hw)
  · exact template_fields X _ _ 4 n p (by simp) rfl h (fun w hw => chan_int X (by simp) hw)
  · exact template_fields X _ _ 4 n p (by simp) rfl h (fun w hw => chan_float X hw.1)

end Cuttlefish
