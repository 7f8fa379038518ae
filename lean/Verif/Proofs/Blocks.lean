import Verif.Proofs.Converted
import Verif.Proofs.ToBits
import Verif.Spec.Blocks
/-
What the block encoders hand to the compression libraries.
-/
namespace Cuttlefish
open Spec
variable {Img : Type} {X : Ext} {view : Img → FImg} {W : World Img} {t t' : Tex Img} {f : Format}
  {ty : TType} {face : Option CubeFace} {m d : Nat} {img : FImg} {bytes : List UInt8}

/-- The bytes made from the texels of a block. -/
def blockCompress (X : Ext) (k : Conv) (a : ConvArgs) (b : Nat × Nat × List Pixel) :
    Res (List UInt8) :=
  match k with
  | .s3tc s => compressS3tc X s a b.2.2
  | .etc => .ok (X.codec (.etc (etcFormat a.format a.type) (etcMetric a.format a.colorSpace)
      (etcEffort X.consts a.quality) b.1 b.2.1
      (if etcFormat a.format a.type = .SIGNED_R11 ∨ etcFormat a.format a.type = .SIGNED_RG11 then
        b.2.2.map (fun p => { p with r := halfPlusHalf p.r, g := halfPlusHalf p.g })
       else b.2.2)))
  | .astc bx by_ => .ok (X.codec (.astc (astcConfig bx by_ a) (astcSwizzle a.alphaType a.colorMask) b.2.2))
  | _ => .ub

/-- Which converter handles a block format. -/
theorem conv_kind {c : Features} {k : Conv} (hk : createConverter c f ty = some k)
    (hl : layout f = none) (hp : isPvrtc f = false) :
    (isEtc f = true ∧ k = .etc) ∨ (isEtc f = false ∧ (∃ s, k = .s3tc s) ∧ blockWidth f = 4 ∧
      blockHeight f = 4) ∨ (isEtc f = false ∧ k = .astc (blockWidth f) (blockHeight f)) := by
  cases f <;> simp only [layout, reduceCtorEq] at hl <;>
    simp only [isPvrtc, Bool.true_eq_false] at hp <;>
    simp only [createConverter, ifUNorm, createAstc, reduceCtorEq] at hk <;>
    (split at hk <;> [skip; exact absurd hk (by simp)]) <;>
    cases ty <;> simp only [reduceCtorEq, or_self, or_true, true_or, if_true, if_false,
      Option.some.injEq] at hk <;> subst hk <;>
    first
    | exact Or.inl ⟨rfl, rfl⟩
    | exact Or.inr (Or.inl ⟨rfl, ⟨_, rfl⟩, by decide, by decide⟩)
    | exact Or.inr (Or.inr ⟨rfl, rfl⟩)

theorem blockEnc_eq {c : Features} {k : Conv} (hk : createConverter c f ty = some k)
    (hl : layout f = none) (hp : isPvrtc f = false) (a : ConvArgs)
    (hf : Fits f img.width img.height) {x y : Nat}
    (hx : x < ceilDiv img.width (blockWidth f)) (hy : y < ceilDiv img.height (blockHeight f)) :
    blockEnc X k a img (x, y) = blockCompress X k a (blockTexels f img x y) := by
  obtain ⟨-, -, -, hw0, hh0, -⟩ := conv_block hk hl hp
  rw [← ceilDiv_eq hw0] at hx
  rw [← ceilDiv_eq hh0] at hy
  obtain ⟨p1, p2, hf⟩ := hf
  rw [hl] at hf
  obtain ⟨f1, f2, -⟩ := hf
  rcases conv_kind hk hl hp with ⟨he, rfl⟩ | ⟨he, ⟨s, rfl⟩, e1, e2⟩ | ⟨he, rfl⟩
  · have e1 : blockWidth f = 4 ∧ blockHeight f = 4 := by
      cases f <;> simp only [isEtc, Bool.false_eq_true] at he <;> exact ⟨rfl, rfl⟩
    rw [e1.1] at f1 hx
    rw [e1.2] at f2 hy
    obtain ⟨g1, g2, g3⟩ := gatherCropped_eq img x y f1 f2 hx hy
    simp only [blockEnc, etcProcess, blockCompress, blockTexels, he, if_true, g3, g1, g2, Res.ok_bind,
      Res.pure_eq]
  · have := gatherClamped_eq img _ _ x y p1 p2 hw0 hh0 f1 f2 hx hy
    rw [e1, e2] at this
    simp only [blockEnc, blockCompress, blockTexels, he, this, Res.ok_bind, e1, e2, Bool.false_eq_true,
      if_false]
  · have := gatherClamped_eq img _ _ x y p1 p2 hw0 hh0 f1 f2 hx hy
    simp only [blockEnc, astcProcess, blockCompress, blockTexels, he, this, Res.ok_bind, Res.pure_eq,
      Bool.false_eq_true, if_false]

/-- Every block of an encoded image is the compressed block of its texels. -/
theorem encode_block (hX : CodecSizes X) {c : Features} {k : Conv}
    (hk : createConverter c f ty = some k) (hl : layout f = none) (hp : isPvrtc f = false)
    (a : ConvArgs) (ha : a.format = f) (hf : Fits f img.width img.height)
    (he : encodeImage X k a img = .ok bytes) :
    bytes.length = ceilDiv img.width (blockWidth f) * ceilDiv img.height (blockHeight f) *
      blockSize f ∧
    ∀ x y, x < ceilDiv img.width (blockWidth f) → y < ceilDiv img.height (blockHeight f) →
      blockCompress X k a (blockTexels f img x y) =
        .ok (texelAt bytes (blockSize f) (ceilDiv img.width (blockWidth f)) x y) := by
  refine ⟨surface_size X hX hk hp a ha img hf bytes he, ?_⟩
  obtain ⟨h1, rfl⟩ := (block_surface X hX hk hl hp a ha img hf bytes).1 he
  obtain ⟨h2, -, h3, -⟩ := conv_block hk hl hp
  have hlen : ∀ x y, x < ceilDiv img.width (blockWidth f) → y < ceilDiv img.height (blockHeight f) →
      (resVal (blockEnc X k a img (x, y))).length = blockSize f ∧
      blockEnc X k a img (x, y) = .ok (resVal (blockEnc X k a img (x, y))) := by
    intro x y hx hy
    have := h1 x y hx hy
    cases ht : blockEnc X k a img (x, y) with
    | ub => exact absurd ht this
    | ok bs =>
      have := block_len X hX h2 a img _ _ ht
      rw [ha, h3] at this
      exact ⟨this, rfl⟩
  intro x y hx hy
  rw [rowMajor_slice hx hy (fun x y hx hy => (hlen x y hx hy).1), ← blockEnc_eq hk hl hp a hf hx hy]
  exact (hlen x y hx hy).2

theorem toUNorm8 {v n : Nat} (h : toUNorm 255 255 v = .ok n) : IsUNorm 8 v (UInt8.ofNat n).toNat := by
  have hn : F32.ofBits v ≠ .nan := fun hc => by rw [toUNorm_nan hc] at h; simp at h
  obtain ⟨h1, h2, h3⟩ := toUNorm_eq (top := 255) (m := 255) (clampQ_some hn 0 1) (by norm_num) (le_refl _)
  rw [h] at h1
  simp only [Res.ok.injEq] at h1
  have := stored_unorm (n := 8) (w := v) (by norm_num) hn
  have e : quantQ .UNorm 8 v = n := by rw [h1]; rfl
  rw [e] at this
  have hlt : n < 256 := by
    rw [h1]
    have : roundAwayQ (rne (clampQ 0 1 v * ((255 : ℕ) : ℚ))) ≤ 255 := h3
    omega
  rw [UInt8.toNat_ofNat_of_lt' hlt]
  exact this

theorem toSNorm8 {v n : Nat} (h : toSNorm 8 v = .ok n) : IsSNorm 8 v (UInt8.ofNat n).toNat := by
  have hn : F32.ofBits v ≠ .nan := fun hc => by rw [toSNorm_nan hc] at h; simp at h
  obtain ⟨h1, h2, h3⟩ := toSNorm_eq (n := 8) (clampQ_some hn (-1) 1) (by norm_num) (by norm_num)
  rw [h] at h1
  simp only [Res.ok.injEq] at h1
  have := stored_snorm (n := 8) (w := v) (by norm_num) (by norm_num) hn
  have e : quantQ .SNorm 8 v = n := by rw [h1]; rfl
  rw [e] at this
  have hlt : n < 256 := this.choose_spec.2.1
  rw [UInt8.toNat_ofNat_of_lt' hlt]
  exact this

theorem forall2_of_mapRes {α β : Type} {g : α → Res β} {P : α → β → Prop}
    (hP : ∀ a b, g a = .ok b → P a b) : ∀ {as : List α} {bs : List β}, mapRes g as = .ok bs →
    List.Forall₂ P as bs := by
  intro as
  induction as with
  | nil => intro bs h; simp only [mapRes, Res.pure_eq, Res.ok.injEq] at h; subst h; exact .nil
  | cons a as ih =>
    intro bs h
    simp only [mapRes, Res.bind_eq_ok, Res.pure_eq, Res.ok.injEq] at h
    obtain ⟨b, h1, bs', h2, rfl⟩ := h
    exact .cons (hP _ _ h1) (ih h2)

theorem unormBytes_ok {vs : List Nat} {bs : List UInt8} (h : unormBytes vs = .ok bs) :
    UNormBytes vs bs := by
  refine forall2_of_mapRes ?_ h
  intro v b hb
  simp only [Res.bind_eq_ok, Res.pure_eq, Res.ok.injEq] at hb
  obtain ⟨n, h1, rfl⟩ := hb
  exact toUNorm8 h1

theorem snormBytes_ok {vs : List Nat} {bs : List UInt8} (h : snormBytes vs = .ok bs) :
    SNormBytes vs bs := by
  refine forall2_of_mapRes ?_ h
  intro v b hb
  simp only [Res.bind_eq_ok, Res.pure_eq, Res.ok.injEq] at hb
  obtain ⟨n, h1, rfl⟩ := hb
  exact toSNorm8 h1

theorem toColorBlock_ok {ps : List Pixel} {bs : List UInt8} (h : toColorBlock ps = .ok bs) :
    UNormBytes (allChannels ps) bs := by
  simp only [toColorBlock, Res.bind_eq_ok, Res.pure_eq, Res.ok.injEq, exists_eq_right] at h
  exact unormBytes_ok h

/-- The 4-bit alpha of every byte. -/
theorem bc2Nibble_table : ∀ a : Fin 256, ∃ n : Fin 16, bc2Nibble (UInt8.ofNat a) = .ok n ∧
    (17 * (n : ℤ) - a ≤ 8 ∧ (a : ℤ) - 17 * n ≤ 8) := by decide +kernel

theorem bc2Nibble_ok {v : Nat} {a : UInt8} (ha : IsUNorm 8 v a.toNat) :
    ∃ n, bc2Nibble a = .ok n ∧ n < 16 ∧ IsUNorm 4 v n := by
  obtain ⟨n, h1, h2, h3⟩ := bc2Nibble_table ⟨a.toNat, a.toNat_lt⟩
  simp only [UInt8.ofNat_toNat] at h1
  refine ⟨n, h1, n.2, ?_⟩
  obtain ⟨c, hc, hle, herr⟩ := ha
  refine ⟨c, hc, by have := n.2; omega, ?_⟩
  have h2 : 17 * ((n : ℕ) : ℚ) - (a.toNat : ℚ) ≤ 8 := by exact_mod_cast h2
  have h3 : (a.toNat : ℚ) - 17 * ((n : ℕ) : ℚ) ≤ 8 := by exact_mod_cast h3
  rw [abs_le] at herr ⊢
  obtain ⟨e1, e2⟩ := herr
  norm_num at e1 e2 ⊢
  constructor <;> linarith

theorem packBc2_ok : ∀ (n : Nat) (ps : List Pixel) (px bs : List UInt8), ps.length = 2 * n →
    UNormBytes (allChannels ps) px → packBc2Alpha (alphaBytes px) = .ok bs → Bc2Alpha ps bs := by
  intro n
  induction n with
  | zero =>
    intro ps px bs hlen hpx h
    have : ps = [] := List.length_eq_zero_iff.1 (by omega)
    subst this
    simp only [UNormBytes, allChannels, List.flatMap_nil, List.forall₂_nil_left_iff] at hpx
    subst hpx
    simp only [alphaBytes, packBc2Alpha, Res.ok.injEq] at h
    subst h
    exact ⟨rfl, fun i p hp => by simp at hp⟩
  | succ n ih =>
    intro ps px bs hlen hpx h
    match ps, hlen with
    | p0 :: p1 :: ps, hlen =>
    simp only [UNormBytes, allChannels, List.flatMap_cons, List.cons_append, List.nil_append,
      List.forall₂_cons_left_iff] at hpx
    obtain ⟨_, _, -, ⟨_, _, -, ⟨_, _, -, ⟨a0, _, ha0, ⟨_, _, -, ⟨_, _, -, ⟨_, _, -, ⟨a1, rest, ha1, hrest,
      rfl⟩, rfl⟩, rfl⟩, rfl⟩, rfl⟩, rfl⟩, rfl⟩, rfl⟩ := hpx
    simp only [alphaBytes, packBc2Alpha, Res.bind_eq_ok, Res.pure_eq, Res.ok.injEq] at h
    obtain ⟨c0, h0, c1, h1, bs', h2, rfl⟩ := h
    obtain ⟨n0, g0, l0, i0⟩ := bc2Nibble_ok ha0
    obtain ⟨n1, g1, l1, i1⟩ := bc2Nibble_ok ha1
    rw [h0] at g0; rw [h1] at g1
    simp only [Res.ok.injEq] at g0 g1
    subst g0; subst g1
    obtain ⟨j1, j2⟩ := ih ps rest bs' (by simp at hlen; omega) hrest h2
    have hb : (UInt8.ofNat (c0 ||| c1 <<< 4)).toNat = c0 + 16 * c1 := by
      have : c0 ||| c1 <<< 4 = c0 + 16 * c1 := by
        rw [Nat.or_comm, Nat.shiftLeft_eq, Nat.mul_comm,
          ← Nat.two_pow_add_eq_or_of_lt (i := 4) (by simpa using l0)]
        omega
      rw [this, UInt8.toNat_ofNat_of_lt' (by show _ < 256; omega)]
    refine ⟨by simp; omega, ?_⟩
    intro i p hp
    match i with
    | 0 =>
      simp only [List.getElem?_cons_zero, Option.some.injEq] at hp
      subst hp
      have : nibble (UInt8.ofNat (c0 ||| c1 <<< 4) :: bs') 0 = c0 := by
        simp only [nibble, Nat.zero_div, List.getD_cons_zero, hb, Nat.zero_mod, pow_zero, Nat.div_one]
        omega
      rw [this]; exact i0
    | 1 =>
      simp only [List.getElem?_cons_succ, List.getElem?_cons_zero, Option.some.injEq] at hp
      subst hp
      have : nibble (UInt8.ofNat (c0 ||| c1 <<< 4) :: bs') 1 = c1 := by
        show (((UInt8.ofNat (c0 ||| c1 <<< 4) :: bs').getD 0 0).toNat) / 16 ^ 1 % 16 = c1
        rw [List.getD_cons_zero, hb]
        omega
      rw [this]; exact i1
    | i + 2 =>
      simp only [List.getElem?_cons_succ] at hp
      have : nibble (UInt8.ofNat (c0 ||| c1 <<< 4) :: bs') (i + 2) = nibble bs' i := by
        simp only [nibble, Nat.add_mod_right, Nat.add_div_right _ (show 0 < 2 by norm_num),
          Nat.succ_eq_add_one, List.getD_cons_succ]
      rw [this]; exact j2 i p hp

theorem value_rank (q : Quality) : q.value = rank q := by cases q <;> rfl

theorem rgbcxLevel_eq (K : EncoderConsts) (q : Quality) : rgbcxLevel K q = levelOf K q := by
  simp only [rgbcxLevel, levelOf, value_rank]; rfl

theorem compressonatorLevel_eq (q : Quality) : compressonatorLevel q = .fin (rank q / 4) := by
  cases q <;> decide +kernel

theorem hq_of_low {q : Quality} (h : lowQuality q = true) : hqRadius q = none := by
  cases q <;> first | rfl | (revert h; decide)

theorem hq_of_high {q : Quality} (h : ¬ lowQuality q = true) : hqRadius q = some (searchRadius q) := by
  cases q <;> first | rfl | (revert h; decide)

theorem squishFit_ok (q : Quality) :
    (squishFit q = .range ↔ rank q ≤ 1) ∧ (squishFit q = .iterative ↔ q = .Highest) := by
  cases q <;> decide

theorem squishWeights_ok (cs : ColorSpace) (mask : ColorMask) : SquishWeights cs mask (squishWeights cs mask) := by
  obtain ⟨r, g, b, a⟩ := mask
  cases cs <;> cases r <;> cases g <;> cases b <;> simp [SquishWeights, squishWeights]

theorem bc7Weights_ok (K : EncoderConsts) (q : Quality) (cs : ColorSpace) (mask : ColorMask) :
    Bc7Weights K q cs mask (bc7Params K q cs mask).weights := by
  cases cs <;> cases q <;> simp [Bc7Weights, bc7Params, maskWeights, rank]

/-- The S3TC encoders hand the right data to the libraries. -/
theorem compressS3tc_ok {c : Features} {s : S3tcConv} {a : ConvArgs}
    (hk : createConverter c a.format a.type = some (.s3tc s)) {ps : List Pixel} (hps : ps.length = 16)
    (h : compressS3tc X s a ps = .ok bytes) : S3tcBlock X a ps bytes := by
  obtain ⟨f, ty, al, mask, cs, q, th⟩ := a
  simp only at hk
  unfold S3tcBlock
  rw [show levelOf X.consts (ConvArgs.mk f ty al mask cs q th).quality = rgbcxLevel X.consts q from (rgbcxLevel_eq _ _).symm]
  cases f <;> simp only [createConverter, ifUNorm, create8, create16, create32, createAstc, reduceCtorEq,
      if_false, if_true] at hk <;>
    try (first | trivial | (cases ty <;> simp at hk; done) | (split at hk <;> simp at hk; done))
  case BC1_RGB =>
    have : s = .Bc1 := by cases ty <;> simp at hk; exact hk.2.symm
    subst this
    simp only [compressS3tc, Res.bind_eq_ok, Res.pure_eq, Res.ok.injEq] at h
    obtain ⟨px, h1, rfl⟩ := h
    exact ⟨px, toColorBlock_ok h1, rfl⟩
  case BC1_RGBA =>
    have : s = .Bc1A := by cases ty <;> simp at hk; exact hk.2.symm
    subst this
    simp only [compressS3tc, Res.bind_eq_ok, Res.pure_eq] at h
    obtain ⟨px, h1, h⟩ := h
    refine ⟨px, toColorBlock_ok h1, ?_, ?_⟩
    · intro hex
      rw [if_pos (List.any_eq_true.2 hex)] at h
      refine ⟨_, _, squishWeights_ok cs mask, (squishFit_ok q).1, (squishFit_ok q).2, ?_⟩
      simpa using h.symm
    · intro hex
      rw [if_neg (by
        intro hc
        obtain ⟨p, hp, hpt⟩ := List.any_eq_true.1 hc
        exact hex p hp hpt)] at h
      simpa using h.symm
  case BC2 =>
    have : s = .Bc2 := by cases ty <;> simp at hk; exact hk.2.symm
    subst this
    simp only [compressS3tc, Res.bind_eq_ok, Res.pure_eq, Res.ok.injEq] at h
    obtain ⟨px, h1, al, h2, rfl⟩ := h
    exact ⟨px, al, toColorBlock_ok h1, packBc2_ok 8 ps px al hps (toColorBlock_ok h1) h2, rfl⟩
  case BC3 =>
    have : s = .Bc3 := by cases ty <;> simp at hk; exact hk.2.symm
    subst this
    simp only [compressS3tc, Res.bind_eq_ok, Res.pure_eq] at h
    obtain ⟨px, h1, h⟩ := h
    refine ⟨px, toColorBlock_ok h1, ?_⟩
    split at h <;> rename_i hq <;> (simp only [Res.ok.injEq] at h; subst h)
    · simp only [hq_of_low hq]
    · simp only [hq_of_high hq]
  case BC4 =>
    cases ty <;> simp at hk <;> obtain ⟨-, rfl⟩ := hk
    · simp only [compressS3tc, Res.bind_eq_ok, Res.pure_eq] at h
      obtain ⟨px, h1, h⟩ := h
      refine ⟨px, unormBytes_ok h1, ?_⟩
      split at h <;> rename_i hq <;> (simp only [Res.ok.injEq] at h; subst h)
      · simp only [hq_of_low hq]
      · simp only [hq_of_high hq]
    · simp only [compressS3tc, Res.bind_eq_ok, Res.pure_eq, Res.ok.injEq] at h
      obtain ⟨px, h1, rfl⟩ := h
      exact ⟨px, snormBytes_ok h1, by rw [compressonatorLevel_eq]⟩
  case BC5 =>
    cases ty <;> simp at hk <;> obtain ⟨-, rfl⟩ := hk
    · simp only [compressS3tc, Res.bind_eq_ok, Res.pure_eq] at h
      obtain ⟨px, h1, h⟩ := h
      refine ⟨px, unormBytes_ok h1, ?_⟩
      split at h <;> rename_i hq <;> (simp only [Res.ok.injEq] at h; subst h)
      · simp only [hq_of_low hq]
      · simp only [hq_of_high hq]
    · simp only [compressS3tc, Res.bind_eq_ok, Res.pure_eq, Res.ok.injEq] at h
      obtain ⟨px, h1, py, h2, rfl⟩ := h
      exact ⟨px, py, snormBytes_ok h1, snormBytes_ok h2, by rw [compressonatorLevel_eq]⟩
  case BC6H =>
    have hs : ∀ q, speed (bc6Profile q) = rank q := by intro q; cases q <;> rfl
    cases ty <;> simp at hk <;> obtain ⟨-, rfl⟩ := hk <;> simp only [compressS3tc, compressonatorLevel_eq] at h
    · refine ⟨fun hi _ => ?_, fun hi => ?_⟩
      · rw [if_pos (by simp [hi]), Res.ok.injEq] at h
        exact ⟨_, hs q, h.symm⟩
      · rw [if_neg (by simpa using hi), Res.ok.injEq] at h
        simpa using h.symm
    · refine ⟨fun _ hc => by simp at hc, fun _ => ?_⟩
      rw [if_neg (by simp), Res.ok.injEq] at h
      simpa using h.symm
  case BC7 =>
    have hs : ∀ q, speed (bc7eProfile q) = rank q := by intro q; cases q <;> rfl
    have : s = .Bc7 := by cases ty <;> simp at hk; exact hk.2.symm
    subst this
    simp only [compressS3tc, Res.bind_eq_ok, Res.pure_eq] at h
    obtain ⟨px, h1, h⟩ := h
    refine ⟨px, toColorBlock_ok h1, fun hi => ?_, fun hi => ?_⟩
    · rw [if_pos hi, Res.ok.injEq] at h
      exact ⟨_, hs q, h.symm⟩
    · rw [if_neg (by simp [hi]), Res.ok.injEq] at h
      exact ⟨_, bc7Weights_ok _ _ _ _, h.symm⟩

theorem rowMajor_get {α : Type} {w h i j : Nat} {f : Nat → Nat → α} (hi : i < w) (hj : j < h) :
    (rowMajor w h (fun i j => [f i j]))[j * w + i]? = some (f i j) := by
  rw [rowMajor_range, ← List.map_eq_flatMap]
  have hlt : j * w + i < h * w := by
    calc j * w + i < j * w + w := by omega
      _ = (j + 1) * w := by rw [Nat.add_mul]; omega
      _ ≤ h * w := Nat.mul_le_mul_right _ hj
  have hw : 0 < w := by omega
  rw [List.getElem?_map, List.getElem?_range hlt]
  simp only [Option.map_some]
  have e1 : (j * w + i) % w = i := by rw [Nat.mul_comm, Nat.mul_add_mod, Nat.mod_eq_of_lt hi]
  have e2 : (j * w + i) / w = j := by
    rw [Nat.mul_comm, Nat.mul_add_div hw, Nat.div_eq_of_lt hi, Nat.add_zero]
  rw [e1, e2]

theorem clampedBlock_len (img : FImg) (bw bh x y : Nat) :
    (clampedBlock img bw bh x y).length = bw * bh := by
  unfold clampedBlock
  rw [rowMajor_length (s := 1) (fun _ _ _ _ => rfl), Nat.mul_one]

/-- The largest finite float. -/
theorem ofBits_bound {n : Nat} {q : ℚ} (h : F32.ofBits n = .fin q) :
    |q| ≤ ((2 ^ 24 - 1 : ℤ) : ℚ) * (2 : ℚ) ^ (104 : ℤ) := by
  unfold F32.ofBits at h
  simp only at h
  have hm : n % 2 ^ 23 < 2 ^ 23 := Nat.mod_lt _ (by norm_num)
  have he : n / 2 ^ 23 % 256 < 256 := Nat.mod_lt _ (by norm_num)
  generalize hmm : n % 2 ^ 23 = m at h hm
  generalize hee : n / 2 ^ 23 % 256 = e at h he
  have hs : ∀ s : ℚ, (s = if n / 2 ^ 31 % 2 = 1 then -1 else 1) → |s| = 1 := by
    rintro s rfl; split <;> norm_num
  have hs := hs _ rfl
  generalize (if n / 2 ^ 31 % 2 = 1 then (-1 : ℚ) else 1) = s at h hs
  have hm1 : ((2 ^ 23 + m : ℕ) : ℚ) ≤ 2 ^ 24 - 1 := by
    have : 2 ^ 23 + m ≤ 2 ^ 24 - 1 := by omega
    calc ((2 ^ 23 + m : ℕ) : ℚ) ≤ ((2 ^ 24 - 1 : ℕ) : ℚ) := by exact_mod_cast this
      _ = 2 ^ 24 - 1 := by norm_num
  have hm2 : (m : ℚ) ≤ 2 ^ 24 - 1 := by
    have := hm1
    push_cast at this
    linarith
  have hm0 : (0 : ℚ) ≤ (m : ℚ) := by positivity
  have hC : (2 : ℚ) ^ (104 : ℤ) = 2 ^ (104 : ℕ) := by norm_num
  rw [hC]
  have hK : ((2 ^ 24 - 1 : ℤ) : ℚ) = 2 ^ 24 - 1 := by norm_num
  rw [hK]
  split at h
  · split at h <;> cases h
  split at h
  · simp only [F32.fin.injEq] at h
    rw [← h, abs_div, abs_mul, hs, one_mul, abs_of_nonneg hm0, abs_of_pos (by positivity)]
    rw [div_le_iff₀ (by positivity)]
    calc (m : ℚ) ≤ 2 ^ 24 - 1 := hm2
      _ ≤ _ := by norm_num
  split at h
  · simp only [F32.fin.injEq] at h
    rw [← h, abs_div, abs_mul, hs, one_mul, abs_of_nonneg (by positivity), abs_of_pos (by positivity)]
    rw [div_le_iff₀ (by positivity)]
    have h1 : (1 : ℚ) ≤ 2 ^ (150 - e) := one_le_pow₀ (by norm_num)
    have h2 : (1 : ℚ) ≤ 2 ^ 104 := one_le_pow₀ (by norm_num)
    calc ((2 ^ 23 + m : ℕ) : ℚ) ≤ 2 ^ 24 - 1 := hm1
      _ = (2 ^ 24 - 1) * 1 * 1 := by ring
      _ ≤ (2 ^ 24 - 1) * 2 ^ 104 * 2 ^ (150 - e) := by gcongr
  · simp only [F32.fin.injEq] at h
    rw [← h, abs_mul, abs_mul, hs, one_mul, abs_of_nonneg (by positivity), abs_of_pos (by positivity)]
    have h1 : (2 : ℚ) ^ (e - 150) ≤ 2 ^ 104 := pow_le_pow_right₀ (by norm_num) (by omega)
    gcongr

/-- `v*0.5f + 0.5f` never overflows and is rounded twice. -/
theorem halfPlusHalf_ok (v : Nat) : Halved v (halfPlusHalf v) := by
  unfold Halved halfPlusHalf
  cases hv : F32.ofBits v with
  | nan => simp only [F32.mul, F32.add, F32.toBits]; decide +kernel
  | inf s => cases s <;> decide +kernel
  | fin q =>
    have hq := ofBits_bound hv
    set B : ℚ := ((2 ^ 24 - 1 : ℤ) : ℚ) * (2 : ℚ) ^ (103 : ℤ) with hB
    have hBB : ((2 ^ 24 - 1 : ℤ) : ℚ) * (2 : ℚ) ^ (104 : ℤ) = 2 * B := by
      rw [hB, show (104 : ℤ) = 103 + 1 by norm_num, zpow_add₀ (by norm_num)]; ring
    have hB1 : B + 1 / 2 ≤ (2 : ℚ) ^ (127 : ℤ) := by rw [hB]; norm_num
    have hB2 : (2 : ℚ) ^ (127 : ℤ) < (2 : ℚ) ^ (128 : ℤ) := by norm_num
    have rB : Rep B := ⟨2 ^ 24 - 1, 103, by norm_num, by norm_num, rfl⟩
    have rB' : Rep (-B) := ⟨-(2 ^ 24 - 1), 103, by norm_num, by norm_num, by rw [hB]; push_cast; ring⟩
    clear_value B
    rw [hBB] at hq
    have hq2 : |q / 2| ≤ B := by
      rw [abs_div, show |(2 : ℚ)| = 2 by norm_num]; linarith
    have hr2 : |rne (q / 2)| ≤ B := by
      obtain ⟨h1, h2⟩ := abs_le.1 hq2
      rw [abs_le]
      exact ⟨by rw [← rne_exact rB']; exact rne_mono h1, by rw [← rne_exact rB]; exact rne_mono h2⟩
    have hsum : |rne (q / 2) + 1 / 2| ≤ (2 : ℚ) ^ (127 : ℤ) := by
      obtain ⟨h1, h2⟩ := abs_le.1 hr2
      rw [abs_le]; constructor <;> linarith
    have hfin : |rne (rne (q / 2) + 1 / 2)| ≤ (2 : ℚ) ^ (127 : ℤ) := by
      have r1 : Rep ((2 : ℚ) ^ (127 : ℤ)) := ⟨1, 127, by norm_num, by norm_num, by simp⟩
      have r2 : Rep (-(2 : ℚ) ^ (127 : ℤ)) := ⟨-1, 127, by norm_num, by norm_num, by simp⟩
      obtain ⟨h1, h2⟩ := abs_le.1 hsum
      rw [abs_le]
      exact ⟨by rw [← rne_exact r2]; exact rne_mono h1, by rw [← rne_exact r1]; exact rne_mono h2⟩
    refine ⟨_, ?_, rfl⟩
    simp only [F32.mul]
    rw [show q * (1 / 2) = q / 2 by ring, round_fin (by linarith)]
    simp only [F32.add]
    rw [round_fin hsum]
    exact ofBits_toBits (rne_rep _) (by linarith)

end Cuttlefish
