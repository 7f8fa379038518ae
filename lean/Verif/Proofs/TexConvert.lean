import Verif.Proofs.TexInv
namespace Cuttlefish
open Spec
variable {Img : Type}

theorem facesAt_shape {α β : Type} {s : Store α} {s' : Store β}
    (h : List.map (List.map List.length) s = List.map (List.map List.length) s') (m d : Nat) :
    s.facesAt m d = s'.facesAt m d := by
  have hs : ∀ {γ : Type} (s : Store γ), s.facesAt m d =
      ((List.map (List.map List.length) s)[m]?).bind (fun ds => ds[d]?) := by
    intro γ s
    unfold Store.facesAt
    rw [List.getElem?_map]
    cases h : (s[m]? : Option _) <;> simp
  rw [hs s, hs s', h]

/-- The state after a successful conversion. -/
theorem convert_ok {W : World Img} {i : TexImpl Img} {k : Conv}
    {f : Format} {t : TType} {q : Quality} {al : Alpha} {m : ColorMask} {th : Nat}
    (hcomplete : Tex.imagesComplete (some i) = true)
    (hk : createConverter W.feat f t = some k)
    (hcs : i.colorSpace = .Linear ∨ hasNativeSRGB f t = true)
    (henc : ∀ ds ∈ i.images, ∀ fs ∈ ds, ∀ g, some g ∈ fs →
      W.enc k ⟨f, t, al, m, i.colorSpace, q, if th = allCores then W.hw else th⟩ g ≠ .ub) :
    ∃ textures : Store (List UInt8), Tex.convert W.feat W.hw W.enc (some i) f t q al m th =
      .ok (true, some { i with
        format := f, type := t, alphaType := al, colorMask := m
        images := List.map (List.map (fun fs => List.replicate fs.length none)) i.images
        textures }) ∧
      List.map (List.map List.length) textures = List.map (List.map List.length) i.images ∧
      ∀ mip d fc g, i.images.at? mip d fc = some (some g) →
        ∃ b, textures.at? mip d fc = some b ∧
          W.enc k ⟨f, t, al, m, i.colorSpace, q, if th = allCores then W.hw else th⟩ g = .ok b := by
  have hvalid : isFormatValid W.feat f t = true := by rw [valid_iff_converter, hk]; rfl
  obtain ⟨bs, h1, h2, h3⟩ := convMips_some (enc := W.enc) (k := k)
    (a := ⟨f, t, al, m, i.colorSpace, q, if th = allCores then W.hw else th⟩) hk i.images
    (by
      intro ds h1 fs h2 g h3
      obtain ⟨x, rfl⟩ := imagesComplete_iff.1 hcomplete ds h1 fs h2 g h3
      exact ⟨x, rfl, henc ds h1 fs h2 x h3⟩)
  refine ⟨bs, ?_, h2, h3⟩
  unfold Tex.convert
  rw [if_neg (by simp [hcomplete, hvalid])]
  simp only
  rw [if_neg (by rcases hcs with h | h <;> simp [h])]
  simp [h1]

theorem convert_reject {W : World Img} {t : Tex Img}
    {f : Format} {ty : TType} {q : Quality} {al : Alpha} {m : ColorMask} {th : Nat}
    (h : ¬ (t.imagesComplete = true ∧ isFormatValid W.feat f ty = true ∧
      (t.colorSpace = .Linear ∨ hasNativeSRGB f ty = true))) :
    Tex.convert W.feat W.hw W.enc t f ty q al m th = .ok (false, t) := by
  unfold Tex.convert
  by_cases h1 : (!t.imagesComplete || !isFormatValid W.feat f ty) = true
  · rw [if_pos h1]
  · rw [if_neg h1]
    simp only [Bool.or_eq_true, Bool.not_eq_true', not_or, Bool.not_eq_false] at h1
    cases t with
    | none => simp [Tex.imagesComplete] at h1
    | some i =>
      simp only
      rw [if_pos]
      have : ¬ (i.colorSpace = .Linear ∨ hasNativeSRGB f ty = true) := fun hx => h ⟨h1.1, h1.2, hx⟩
      rw [not_or] at this
      refine ⟨?_, by simpa using this.2⟩
      cases hc : i.colorSpace with
      | Linear => exact absurd hc this.1
      | sRGB => rfl

theorem inv_converted {L : ImageLib Img} {i : TexImpl Img} (hI : Inv L i)
    {f : Format} {t : TType} {al : Alpha} {m : ColorMask}
    {textures : Store (List UInt8)}
    (h2 : List.map (List.map List.length) textures = List.map (List.map List.length) i.images) :
    Inv L { i with
        format := f, type := t, alphaType := al, colorMask := m
        images := List.map (List.map (fun fs => List.replicate fs.length none)) i.images
        textures } := by
  refine ⟨hI.w, hI.h, hI.d, hI.mips, hI.faces, by simp [hI.len], ?_, ?_, ?_⟩
  · intro m' ds hds
    simp only [List.getElem?_map, Option.map_eq_some_iff] at hds ⊢
    obtain ⟨ds0, h0, rfl⟩ := hds
    obtain ⟨a, b, c⟩ := hI.depths m' ds0 h0
    refine ⟨by simpa using a, by simpa using b, ?_⟩
    intro fs hfs
    simp only [List.mem_map] at hfs
    obtain ⟨fs0, hf0, rfl⟩ := hfs
    simpa using c fs0 hf0
  · intro m' d f' g hg
    exfalso
    obtain ⟨ds, fs, h1, h2, h3, -⟩ := Store.mem_of_at? hg
    simp only [List.mem_map] at h1
    obtain ⟨ds0, -, rfl⟩ := h1
    simp only [List.mem_map] at h2
    obtain ⟨fs0, -, rfl⟩ := h2
    rw [List.mem_replicate] at h3
    exact absurd h3.2 (by simp)
  · right
    intro m' hm d hd
    simp only at hm hd ⊢
    rw [facesAt_shape h2]
    exact images_slot hI hm hd

theorem data_slot {L : ImageLib Img} {t : TexImpl Img} (hI : Inv L t)
    (hc : Tex.converted (some t) = true) {face : Option CubeFace}
    {m d f : Nat} (h : HasSlot t face m d f) :
    ∃ b, t.textures.at? m d f = some b ∧ Tex.data (some t) face m d = .ok (some b) := by
  have hne : t.textures ≠ [] := by
    intro he; simp [Tex.converted, he] at hc
  have hs : (t.textures.at? m d f).isSome := by
    rw [Store.at?_isSome]
    rcases hI.texs with h0 | h1
    · exact absurd h0 hne
    · exact ⟨t.faces, h1 m h.1 d h.2.1, faceIndex_lt hI h.2.2⟩
  obtain ⟨b, hb⟩ := Option.isSome_iff_exists.1 hs
  refine ⟨b, hb, ?_⟩
  unfold Tex.data
  rw [depthAt_eq hI]
  simp only [hc, Bool.not_true, Bool.false_eq_true, if_false, Res.ok_bind, h.1, if_true,
    Nat.not_le.2 h.2.1, ge_iff_le, h.2.2]
  rw [(Store.get_ok).2 hb]; rfl

theorem data_noSlot {L : ImageLib Img} {t : TexImpl Img} (hI : Inv L t) {face : Option CubeFace}
    {m d : Nat} (h : Tex.converted (some t) = false ∨ ∀ f, ¬ HasSlot t face m d f) :
    Tex.data (some t) face m d = .ok none := by
  unfold Tex.data
  by_cases hc : Tex.converted (some t) = true
  · have h := h.resolve_left (by simp [hc])
    rw [depthAt_eq hI]
    simp only [hc, Bool.not_true, Bool.false_eq_true, if_false, Res.ok_bind]
    by_cases hm : m < t.mipLevels
    · simp only [hm, if_true]
      by_cases hd : d < depthExtent t.dimension t.depth m
      · simp only [ge_iff_le, Nat.not_le.2 hd, if_false]
        cases hf : faceIndex t.faces face with
        | none => simp
        | some f => exact absurd ⟨hm, hd, hf⟩ (h f)
      · simp [Nat.le_of_not_lt hd]
    · simp [hm]
  · simp [hc]

theorem data_none (face : Option CubeFace) (m d : Nat) :
    Tex.data (none : Tex Img) face m d = .ok none := by
  simp [Tex.data, Tex.converted]

end Cuttlefish
