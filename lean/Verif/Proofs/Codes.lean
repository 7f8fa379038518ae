import Verif.Spec.Codes
import Verif.Proofs.Bytes
import Verif.Proofs.FileTables
import Verif.Proofs.Shaped
/-
The positions of channels, and the format codes of the file formats: whole tables.
-/
namespace Cuttlefish
open Spec
open scoped List

/-- The positions of the channels of a format. -/
def positions (cs : List (Chan × Nat)) : List Position :=
  if isArray cs then lowFirst cs 0 else highFirst cs

theorem lowFirst_append (as bs : List (Chan × Nat)) (lo : Nat) :
    lowFirst (as ++ bs) lo = lowFirst as lo ++ lowFirst bs (lo + bitsOf as) := by
  induction as generalizing lo with
  | nil => simp [lowFirst, bitsOf]
  | cons a as ih =>
    obtain ⟨c, n⟩ := a
    simp only [List.cons_append, lowFirst, ih, bitsOf, List.map_cons, List.sum_cons]
    rw [Nat.add_assoc]

theorem bitsOf_reverse (cs : List (Chan × Nat)) : bitsOf cs.reverse = bitsOf cs := by
  simp [bitsOf, List.sum_reverse]

theorem extract_highFirst (bs : List UInt8) (cs : List (Chan × Nat)) :
    extract (highFirst cs) bs ~ wordFields cs (leVal bs) := by
  induction cs with
  | nil => simp [highFirst, lowFirst, extract, wordFields]
  | cons a cs ih =>
    obtain ⟨c, n⟩ := a
    unfold highFirst at ih ⊢
    rw [List.reverse_cons, lowFirst_append, bitsOf_reverse, Nat.zero_add]
    simp only [extract, List.map_append, lowFirst, List.map_cons, List.map_nil, wordFields] at ih ⊢
    exact List.perm_append_comm.trans (List.Perm.cons _ ih)

theorem leVal_take (bs : List UInt8) (k : Nat) : leVal (bs.take k) = leVal bs % 256 ^ k := by
  rcases Nat.lt_or_ge bs.length k with h | h
  · rw [List.take_of_length_le h.le, Nat.mod_eq_of_lt]
    exact (leVal_lt bs).trans_le (Nat.pow_le_pow_right (by norm_num) h.le)
  · conv_rhs => rw [← List.take_append_drop k bs, leVal_append]
    have hl : (bs.take k).length = k := by simp [h]
    rw [hl, Nat.add_mul_mod_self_left, Nat.mod_eq_of_lt]
    have := leVal_lt (bs.take k)
    rwa [hl] at this

theorem leVal_drop (bs : List UInt8) (k : Nat) : leVal (bs.drop k) = leVal bs / 256 ^ k := by
  rcases Nat.lt_or_ge bs.length k with h | h
  · rw [List.drop_of_length_le h.le, Nat.div_eq_of_lt]
    · rfl
    · exact (leVal_lt bs).trans_le (Nat.pow_le_pow_right (by norm_num) h.le)
  · conv_rhs => rw [← List.take_append_drop k bs, leVal_append]
    have hl : (bs.take k).length = k := by simp [h]
    rw [hl, Nat.add_mul_div_left _ _ (by positivity), Nat.div_eq_of_lt, Nat.zero_add]
    have := leVal_lt (bs.take k)
    rwa [hl] at this

theorem extract_lowFirst (cs : List (Chan × Nat)) (h : isArray cs = true) : ∀ (bs : List UInt8) (lo : Nat),
    lo % 8 = 0 → extract (lowFirst cs lo) bs = arrayFields cs (bs.drop (lo / 8)) := by
  induction cs with
  | nil => intros; rfl
  | cons a cs ih =>
    obtain ⟨c, n⟩ := a
    intro bs lo hlo
    simp only [isArray, List.all_cons, Bool.and_eq_true, beq_iff_eq] at h
    have hi := ih h.2 bs (lo + n) (by omega)
    simp only [extract, lowFirst, List.map_cons, arrayFields] at hi ⊢
    rw [hi, List.drop_drop, leVal_take, leVal_drop]
    have e1 : 2 ^ lo = 256 ^ (lo / 8) := by
      rw [show (256 : Nat) = 2 ^ 8 by norm_num, ← pow_mul, Nat.mul_div_cancel' (by omega)]
    have e2 : 2 ^ n = 256 ^ (n / 8) := by
      rw [show (256 : Nat) = 2 ^ 8 by norm_num, ← pow_mul, Nat.mul_div_cancel' (by omega)]
    rw [e1, e2, show (lo + n) / 8 = lo / 8 + n / 8 by omega]

/-- The fields of a texel are at the positions of its channels. -/
theorem extract_positions (cs : List (Chan × Nat)) (bs : List UInt8) :
    extract (positions cs) bs ~ texelFields cs bs := by
  unfold positions texelFields
  by_cases h : isArray cs = true
  · rw [if_pos h, if_pos h, extract_lowFirst cs h bs 0 (by norm_num)]
    simp
  · rw [if_neg h, if_neg h]
    exact extract_highFirst bs cs

theorem extract_perm {ps qs : List Position} (h : ps ~ qs) (bs : List UInt8) :
    extract ps bs ~ extract qs bs := h.map _

/-- The colour space is one the format can store. -/
def spaceOk (f : Format) (ty : TType) (cs : ColorSpace) : Bool :=
  decide (cs = .Linear) || hasNativeSRGB f ty

theorem Spec.Conversion.space {Img : Type} {X : Ext} {view : Img → FImg} {W : World Img} {t t' : Tex Img}
    {f : Format} {ty : TType} (hC : Conversion X view W t t' f ty) :
    spaceOk f ty t'.colorSpace = true := by
  obtain ⟨calls, outs, hs, hr⟩ := hC.hist
  obtain ⟨q, al, mask, th, hc⟩ := hC.conv
  obtain ⟨-, -, -, -, -, -, e7, -⟩ :=
    C09_success_effect W hC.lawful calls hs outs t hr f ty q al mask th t' hc
  by_contra h
  have := convert_reject (W := W) (t := t) (f := f) (ty := ty) (q := q) (al := al) (m := mask)
    (th := th) (fun hcv => h (by
      unfold spaceOk; rw [e7]
      rcases hcv.2.2 with h | h <;> simp [h]))
  rw [this] at hc; simp at hc

/-- The codes of an uncompressed KTX texture. -/
theorem ktx_texel {c : Features} {f : Format} {ty : TType} {cs : ColorSpace} {info : KtxInfo}
    {l : List (Chan × Nat)} (hv : isFormatValid c f ty = true) (hs : spaceOk f ty cs = true)
    (h : ktxInfo f ty cs = some info) (hl : layout f = some l)
    (hne : f ≠ .B8G8R8A8 ∧ f ≠ .A8B8G8R8) :
    (∃ fm ps, info.format = some fm ∧ glPositions info.type fm = some ps ∧ ps ~ positions l) ∧
    glInternal info.internalFormat = some (ty, cs) := by
  have key : ∀ f ∈ Format.all, ∀ ty ∈ TType.all, ∀ cs ∈ [ColorSpace.Linear, ColorSpace.sRGB],
      isFormatValid Features.full f ty = true → spaceOk f ty cs = true →
      f ≠ .B8G8R8A8 ∧ f ≠ .A8B8G8R8 → ∀ info ∈ ktxInfo f ty cs, ∀ l ∈ layout f,
      ((glPositions info.type (info.format.getD 0)).isSome = true ∧ info.format.isSome = true ∧
        ((glPositions info.type (info.format.getD 0)).getD []) ~ positions l) ∧
      glInternal info.internalFormat = some (ty, cs) := by decide +kernel
  obtain ⟨⟨h1, h2, h3⟩, h4⟩ := key f f.mem_all ty ty.mem_all cs (by cases cs <;> simp) (valid_full hv) hs hne
    info h l hl
  obtain ⟨fm, hfm⟩ := Option.isSome_iff_exists.1 h2
  rw [hfm] at h1 h3
  obtain ⟨ps, hps⟩ := Option.isSome_iff_exists.1 h1
  rw [hps] at h3
  exact ⟨⟨fm, ps, hfm, hps, h3⟩, h4⟩

/-- The data type of an uncompressed KTX texture. -/
theorem ktx_type {c : Features} {f : Format} {ty : TType} {cs : ColorSpace} {info : KtxInfo}
    {l : List (Chan × Nat)} (hv : isFormatValid c f ty = true) (hs : spaceOk f ty cs = true)
    (h : ktxInfo f ty cs = some info) (hl : layout f = some l)
    (hne : f ≠ .R8G8 ∨ (ty ≠ .SNorm ∧ ty ≠ .Int)) : ty ∈ glTypes info.type := by
  have key : ∀ f ∈ Format.all, ∀ ty ∈ TType.all, ∀ cs ∈ [ColorSpace.Linear, ColorSpace.sRGB],
      isFormatValid Features.full f ty = true → spaceOk f ty cs = true →
      f ≠ .R8G8 ∨ (ty ≠ .SNorm ∧ ty ≠ .Int) → ∀ info ∈ ktxInfo f ty cs, ∀ l ∈ layout f,
      ty ∈ glTypes info.type := by decide +kernel
  exact key f f.mem_all ty ty.mem_all cs (by cases cs <;> simp) (valid_full hv) hs hne info h l hl

/-- The code of a compressed KTX texture. -/
theorem ktx_block {c : Features} {f : Format} {ty : TType} {cs : ColorSpace} {info : KtxInfo}
    (hv : isFormatValid c f ty = true) (hs : spaceOk f ty cs = true)
    (h : ktxInfo f ty cs = some info) (hl : layout f = none) :
    ∃ ts, glCompressed info.internalFormat = some (f, ts, cs) ∧ ty ∈ ts := by
  have key : ∀ f ∈ Format.all, ∀ ty ∈ TType.all, ∀ cs ∈ [ColorSpace.Linear, ColorSpace.sRGB],
      isFormatValid Features.full f ty = true → spaceOk f ty cs = true →
      layout f = none → ∀ info ∈ ktxInfo f ty cs,
      (match glCompressed info.internalFormat with
        | some (f', ts, c') => decide (f' = f ∧ c' = cs ∧ ty ∈ ts)
        | none => false) = true := by decide +kernel
  have hk := key f f.mem_all ty ty.mem_all cs (by cases cs <;> simp) (valid_full hv) hs hl info h
  split at hk
  · rename_i f' ts c' he
    simp only [decide_eq_true_eq] at hk
    obtain ⟨rfl, rfl, h3⟩ := hk
    exact ⟨ts, he, h3⟩
  · cases hk

/-- The code of a DDS texture. -/
theorem dds_code {c : Features} {f : Format} {ty : TType} {cs : ColorSpace}
    (hv : isFormatValid c f ty = true) (hs : spaceOk f ty cs = true)
    (h : ddsFormat f ty cs ≠ DXGI_UNKNOWN) (hne : f ≠ .R4G4) :
    (∀ l, layout f = some l → ∃ l', dxgiTexel (ddsFormat f ty cs) = some (l', ty, cs) ∧
      lowFirst l' 0 ~ positions l) ∧
    (layout f = none → ∃ fs, dxgiCompressed (ddsFormat f ty cs) = some (fs, ty, cs) ∧ f ∈ fs) := by
  have key : ∀ f ∈ Format.all, ∀ ty ∈ TType.all, ∀ cs ∈ [ColorSpace.Linear, ColorSpace.sRGB],
      isFormatValid Features.full f ty = true → spaceOk f ty cs = true → f ≠ .R4G4 →
      ddsFormat f ty cs ≠ DXGI_UNKNOWN →
      (match layout f with
      | some l => (match dxgiTexel (ddsFormat f ty cs) with
        | some (l', t', c') => decide (t' = ty ∧ c' = cs ∧ lowFirst l' 0 ~ positions l)
        | none => false)
      | none => (match dxgiCompressed (ddsFormat f ty cs) with
        | some (fs, t', c') => decide (t' = ty ∧ c' = cs ∧ f ∈ fs)
        | none => false)) = true := by decide +kernel
  have hk := key f f.mem_all ty ty.mem_all cs (by cases cs <;> simp) (valid_full hv) hs hne h
  constructor
  · intro l hl
    rw [hl] at hk
    simp only at hk
    split at hk
    · rename_i l' t' c' he
      simp only [decide_eq_true_eq] at hk
      obtain ⟨rfl, rfl, h3⟩ := hk
      exact ⟨l', he, h3⟩
    · cases hk
  · intro hl
    rw [hl] at hk
    simp only at hk
    split at hk
    · rename_i l' t' c' he
      simp only [decide_eq_true_eq] at hk
      obtain ⟨rfl, rfl, h3⟩ := hk
      exact ⟨l', he, h3⟩
    · cases hk

/-- The code of a PVR texture. -/
theorem pvr_code {c : Features} {f : Format} {ty : TType} {al : Alpha} {pf : Nat}
    (hv : isFormatValid c f ty = true) (h : pvrPixelFormat f al = some pf) :
    pvrType (pvrChannelType f ty) = some ty ∧
    (∀ l, layout f = some l → f ≠ .E5B9G9R9_UFloat → pvrChannels pf = l) ∧
    (layout f = none ∨ f = .E5B9G9R9_UFloat → f ∈ pvrCompressed pf) := by
  have key : ∀ f ∈ Format.all, ∀ ty ∈ TType.all,
      ∀ al ∈ [Alpha.None, Alpha.Standard, Alpha.PreMultiplied, Alpha.Encoded],
      isFormatValid Features.full f ty = true → ∀ pf ∈ pvrPixelFormat f al,
      pvrType (pvrChannelType f ty) = some ty ∧
      (∀ l ∈ layout f, f ≠ .E5B9G9R9_UFloat → pvrChannels pf = l) ∧
      (layout f = none ∨ f = .E5B9G9R9_UFloat → f ∈ pvrCompressed pf) := by decide +kernel
  exact key f f.mem_all ty ty.mem_all al (by cases al <;> simp) (valid_full hv) pf h

end Cuttlefish
