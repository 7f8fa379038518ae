import Verif.Proofs.Convert
/-
C01: accepted formats can always be converted.
-/
namespace Cuttlefish
variable {Img : Type}

/-- A format/type pair is reported as valid exactly when a converter exists for it, in every build
configuration. -/
theorem C01_valid_iff_encoder (c : Features) (f : Format) (t : TType) :
    isFormatValid c f t = true ↔ ∃ k, createConverter c f t = some k := by
  rw [valid_iff_converter]; exact Option.isSome_iff_exists

/-- The query is defined for every pair of integers cast to the enumerations, and rejects every
value that is not an enumerator. -/
theorem C01_query_total (c : Features) (f t : Nat) :
    ∃ b, isFormatValidRaw c f t = .ok b ∧
      (b = true → ∃ f' t', Format.toNat f' = f ∧ TType.toNat t' = t ∧
        isFormatValid c f' t' = true) := by
  have hF : ∀ n, n < formatCount → ∃ f' : Format, f'.toNat = n := by
    have h : ∀ n, n < formatCount → ∃ f' ∈ Format.all, f'.toNat = n := by decide
    exact fun n hn => (h n hn).imp fun _ h => h.2
  have hT : ∀ n, n < typeCount → ∃ t' : TType, t'.toNat = n := by
    intro n hn
    have : n < 6 := hn
    match n, this with
    | 0, _ => exact ⟨.UNorm, rfl⟩
    | 1, _ => exact ⟨.SNorm, rfl⟩
    | 2, _ => exact ⟨.UInt, rfl⟩
    | 3, _ => exact ⟨.Int, rfl⟩
    | 4, _ => exact ⟨.UFloat, rfl⟩
    | 5, _ => exact ⟨.Float, rfl⟩
  by_cases h : f ≥ formatCount ∨ t ≥ typeCount
  · exact ⟨false, by simp [isFormatValidRaw, h], by simp⟩
  · rw [not_or] at h
    obtain ⟨f', rfl⟩ := hF f (by omega)
    obtain ⟨t', rfl⟩ := hT t (by omega)
    have hd : ∃ b, isFormatValidRaw c f'.toNat t'.toNat = .ok b := by
      have : (validTable c).length = formatCount := by simp [validTable, formatCount, Format.toNat]
      have h2 : ∀ row ∈ validTable c, row.length = typeCount := by
        simp [validTable, typeCount, TType.toNat]
      unfold isFormatValidRaw
      rw [if_neg (by omega)]
      cases hr : (validTable c)[f'.toNat]? with
      | none => rw [List.getElem?_eq_none_iff] at hr; omega
      | some row =>
        have := h2 row (List.mem_of_getElem? hr)
        simp only
        cases hr' : row[t'.toNat]? with
        | none => rw [List.getElem?_eq_none_iff] at hr'; omega
        | some b => exact ⟨b, rfl⟩
    obtain ⟨b, hb⟩ := hd
    refine ⟨b, hb, ?_⟩
    rintro rfl
    exact ⟨f', t', rfl, rfl, by simp [isFormatValid, hb]⟩

/-- `convert()` on a texture whose images are all present, with a format/type pair that the query
accepts and a colour space the format supports, returns true: it never fails for lack of an
encoder.  (`henc`: the encoders themselves run without undefined behaviour on these images; see
C15, C18 and C19 for when that holds.) -/
theorem C01_convert_succeeds (W : World Img) (i : TexImpl Img)
    (f : Format) (t : TType) (q : Quality) (al : Alpha) (m : ColorMask) (th : Nat)
    (hcomplete : Tex.imagesComplete (some i) = true)
    (hvalid : isFormatValid W.feat f t = true)
    (hcs : i.colorSpace = .Linear ∨ hasNativeSRGB f t = true)
    (henc : ∀ k a g, createConverter W.feat f t = some k → W.enc k a g ≠ .ub) :
    ∃ t', Tex.convert W.feat W.hw W.enc (some i) f t q al m th = .ok (true, t') := by
  obtain ⟨k, hk⟩ := (C01_valid_iff_encoder W.feat f t).1 hvalid
  unfold Tex.convert
  rw [if_neg (by simp [hcomplete, hvalid])]
  simp only
  rw [if_neg (by rcases hcs with h | h <;> simp [h])]
  obtain ⟨bs, h1, -, -⟩ := convMips_some (enc := W.enc) (k := k)
    (a := ⟨f, t, al, m, i.colorSpace, q, if th = allCores then W.hw else th⟩) hk i.images
    (by
      intro ds h1 fs h2 g h3
      obtain ⟨x, rfl⟩ := imagesComplete_iff.1 hcomplete ds h1 fs h2 g h3
      exact ⟨x, rfl, henc _ _ _ hk⟩)
  simp [h1]

/-- Conversely a pair the query rejects is never converted, whatever the texture. -/
theorem C01_convert_rejects (W : World Img) (tex : Tex Img)
    (f : Format) (t : TType) (q : Quality) (al : Alpha) (m : ColorMask) (th : Nat)
    (hvalid : isFormatValid W.feat f t = false) :
    Tex.convert W.feat W.hw W.enc tex f t q al m th = .ok (false, tex) := by
  simp [Tex.convert, hvalid]

example : isFormatValid ⟨true, false, false, false⟩ .BC6H .Float = true ∧
    isFormatValid ⟨false, true, true, true⟩ .BC6H .Float = false ∧
    createConverter ⟨true, false, false, false⟩ .BC6H .Float = some (.s3tc (.Bc6H true)) := by
  decide

/-- The hypotheses of `C01_convert_succeeds` are met by a 2x2 cube map with two levels. -/
example :
    let i : TexImpl Unit :=
      { dimension := .Cube, colorSpace := .sRGB, width := 2, height := 2, depth := 0,
        mipLevels := 2, faces := 6,
        images := [[List.replicate 6 (some ())], [List.replicate 6 (some ())]] }
    Tex.imagesComplete (some i) = true ∧
    isFormatValid ⟨true, true, true, true⟩ .BC7 .UNorm = true ∧
    hasNativeSRGB .BC7 .UNorm = true := by decide

end Cuttlefish
