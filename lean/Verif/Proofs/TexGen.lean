import Verif.Proofs.TexMips3d
namespace Cuttlefish
open Spec
variable {Img : Type}

/-- Every level-0 image is present. -/
def BaseOK (i : TexImpl Img) : Prop :=
  ∀ d f, d < depthExtent i.dimension i.depth 0 → f < i.faces →
    ∃ g, i.images.at? 0 d f = some (some g)

theorem genLevels_le (i : TexImpl Img) (r : Nat) :
    genLevels i r ≤ maxMipmapLevels i.dimension i.width i.height i.depth := by
  unfold genLevels; omega

theorem genLevels_pos {L : ImageLib Img} {i : TexImpl Img} (hI : Inv L i) (r : Nat) :
    1 ≤ genLevels i r := by
  have := hI.mips; unfold genLevels; omega

theorem images0 {L : ImageLib Img} {i : TexImpl Img} (hI : Inv L i) :
    ∃ ds, i.images[0]? = some ds ∧ ds.length = depthExtent i.dimension i.depth 0 ∧
      ∀ fs ∈ ds, fs.length = i.faces := by
  have h0len : 0 < List.length i.images := by
    have := hI.len; have := hI.mips.1; omega
  have h00 : i.images[0]? = some (i.images[0]'h0len) := List.getElem?_eq_getElem h0len
  have hd0 := hI.depths 0 _ h00
  exact ⟨_, h00, hd0.2.1 (Or.inr rfl), hd0.2.2⟩

theorem base_any {L : ImageLib Img} {i : TexImpl Img} (hI : Inv L i) {ds}
    (h : i.images[0]? = some ds) :
    ds.any (fun fs => fs.any Option.isNone) = true ↔ ¬ BaseOK i := by
  obtain ⟨ds', h1, h2, h3⟩ := images0 hI
  rw [h] at h1; simp only [Option.some.injEq] at h1; subst h1
  constructor
  · intro ha hb
    simp only [List.any_eq_true] at ha
    obtain ⟨fs, hfs, o, ho, hn⟩ := ha
    obtain ⟨d, hd, rfl⟩ := List.getElem_of_mem hfs
    obtain ⟨f, hf, rfl⟩ := List.getElem_of_mem ho
    obtain ⟨g, hg⟩ := hb d f (by omega) (by rw [h3 _ hfs] at hf; exact hf)
    unfold Store.at? at hg
    rw [h] at hg
    simp only [Option.bind_some, List.getElem?_eq_getElem hd, List.getElem?_eq_getElem hf,
      Option.some.injEq] at hg
    rw [hg] at hn; simp at hn
  · intro hb
    by_contra ha
    apply hb
    intro d f hd hf
    have hd' : d < ds.length := by omega
    have hf' : f < (ds[d]'hd').length := by rw [h3 _ (List.getElem_mem hd')]; exact hf
    unfold Store.at?
    rw [h]
    simp only [Option.bind_some, List.getElem?_eq_getElem hd', List.getElem?_eq_getElem hf',
      Option.some.injEq]
    cases ho : (ds[d]'hd')[f]'hf' with
    | some g => exact ⟨g, rfl⟩
    | none =>
      exfalso; apply ha
      simp only [List.any_eq_true]
      exact ⟨_, List.getElem_mem hd', _, List.getElem_mem hf', by simp [ho]⟩

/-- The check of the custom images at the start of `generateMipmaps`. -/
def CustomPtrOK (custom : CustomMips Img) : Prop := ∀ e ∈ custom, ∃ g, e.2.image = some (some g)

theorem usable_iff (c : CustomMip Img) : c.usable = true ↔ ∃ g, c.image = some (some g) := by
  unfold CustomMip.usable
  match h : c.image with
  | some (some g) => simp
  | some none => simp
  | none => simp

theorem custom_any (custom : CustomMips Img) :
    (custom.any (fun e => !e.2.usable)) = true ↔ ¬ CustomPtrOK custom := by
  unfold CustomPtrOK
  simp [← usable_iff]

theorem GoodCustom.ptr {L : ImageLib Img} {filter : ResizeFilter} {custom : CustomMips Img}
    (h : GoodCustom L filter custom) : CustomPtrOK custom := by
  intro e he
  have := h e he 1 1 (by omega) (by omega)
  unfold fit at this
  match hi : e.2.image, this with
  | some (some g), _ => exact ⟨g, rfl⟩
  | some none, h => simp at h
  | none, h => simp at h

theorem gen_reject {L : ImageLib Img} {i : TexImpl Img} (hI : Inv L i) {filter : ResizeFilter}
    {r : Nat} {custom : CustomMips Img} (h : ¬ (BaseOK i ∧ CustomPtrOK custom)) :
    Tex.generateMipmaps L (some i) filter r custom = .ok (false, some i) := by
  obtain ⟨ds, h1, -, -⟩ := images0 hI
  unfold Tex.generateMipmaps
  simp only [h1]
  by_cases hb : BaseOK i
  · rw [if_neg (by rw [base_any hI h1]; simp [hb])]
    rw [if_pos ((custom_any custom).2 (fun hc => h ⟨hb, hc⟩))]
  · rw [if_pos ((base_any hI h1).2 hb)]

theorem gen_extents {L : ImageLib Img} {i : TexImpl Img} (hI : Inv L i) (r : Nat) :
    ∃ d, Tex.depthAt (some i) 0 = .ok d ∧ Tex.widthAt (some i) 0 = .ok i.width ∧
      Tex.heightAt (some i) 0 = .ok i.height ∧
      min (max r 1) (maxMipmapLevels i.dimension i.width i.height d) = genLevels i r := by
  have hm := hI.mips.1
  refine ⟨_, depthAt_eq hI 0, ?_, ?_, ?_⟩
  · rw [widthAt_eq hI, if_pos (by omega)]; rfl
  · rw [heightAt_eq hI, if_pos (by omega)]; rfl
  · rw [if_pos (by omega)]
    unfold genLevels maxMipmapLevels depthExtent
    by_cases h3 : i.dimension = .Dim3D
    · simp only [h3, if_true]; rfl
    · simp only [h3, if_false]

theorem gen_accept_flat {L : ImageLib Img} {i : TexImpl Img} (hI : Inv L i) {filter : ResizeFilter}
    {r : Nat} {custom : CustomMips Img} (hb : BaseOK i) (hc : CustomPtrOK custom)
    (h3 : i.dimension ≠ .Dim3D) :
    Tex.generateMipmaps L (some i) filter r custom =
      (genMipsFlat L { i with mipLevels := genLevels i r, images := vresize i.images (genLevels i r) [] }
        filter custom >>= fun images =>
        .ok (true, some { i with mipLevels := genLevels i r, images })) := by
  obtain ⟨ds, h1, -, -⟩ := images0 hI
  obtain ⟨d, hd, hw, hh, hl⟩ := gen_extents hI r
  unfold Tex.generateMipmaps
  simp only [h1]
  rw [if_neg (by rw [base_any hI h1]; simp [hb]),
    if_neg (by rw [custom_any]; simp [hc])]
  simp only [hd, hw, hh, Res.ok_bind, hl, h3, if_false]
  rfl

theorem gen_accept_3d {L : ImageLib Img} {i : TexImpl Img} (hI : Inv L i) {filter : ResizeFilter}
    {r : Nat} {custom : CustomMips Img} (hb : BaseOK i) (hc : CustomPtrOK custom)
    (h3 : i.dimension = .Dim3D) :
    Tex.generateMipmaps L (some i) filter r custom =
      (genMips3dLoop L
        { i with mipLevels := genLevels i r, images := vresize i.images (genLevels i r) [] }
        filter custom (List.range' 1 (genLevels i r - 1)) (vresize i.images (genLevels i r) []) []
        >>= fun p => .ok (p.1, some { i with mipLevels := genLevels i r, images := p.2 })) := by
  obtain ⟨ds, h1, -, -⟩ := images0 hI
  obtain ⟨d, hd, hw, hh, hl⟩ := gen_extents hI r
  unfold Tex.generateMipmaps
  simp only [h1]
  rw [if_neg (by rw [base_any hI h1]; simp [hb]),
    if_neg (by rw [custom_any]; simp [hc])]
  simp only [hd, hw, hh, Res.ok_bind, hl, if_pos h3, mipRange_eq]
  rfl

/-- Result of `generateMipmaps` for textures that are not 3D. -/
theorem gen_flat {L : ImageLib Img} (hL : Lawful L) {i : TexImpl Img} (hI : Inv L i)
    {filter : ResizeFilter} {r : Nat} {custom : CustomMips Img} (hgood : GoodCustom L filter custom)
    (hb : BaseOK i) (h3 : i.dimension ≠ .Dim3D) :
    ∃ images, Tex.generateMipmaps L (some i) filter r custom =
        .ok (true, some { i with mipLevels := genLevels i r, images }) ∧
      Shape i images (genLevels i r) (max i.depth 1) ∧
      (∀ d f, images.at? 0 d f = i.images.at? 0 d f) ∧
      ∀ d f, d < max i.depth 1 → f < i.faces → ∃ base src0,
        i.images.at? 0 d f = some (some base) ∧ L.isRGBAF src0 = true ∧
        (src0 = base ∨ Leak custom i.faces (genLevels i r) (d * i.faces + f)) ∧
        ∀ m, 1 ≤ m → m < genLevels i r → images.at? m d f =
          some (chainFrom L filter i.width i.height (custOf custom d f) base src0 m).1 := by
  obtain ⟨images, h1, h2⟩ := genMipsFlat_ok hL hI h3 hgood (genLevels_pos hI r) (genLevels_le i r)
    (fun d f hd hf => hb d f (by rw [depthExtent_flat h3]; exact hd) hf)
  refine ⟨images, ?_, h2⟩
  rw [gen_accept_flat hI hb hgood.ptr h3, h1]; rfl

/-- Level-0 slices of a 3D texture. -/
theorem base3d {L : ImageLib Img} {i : TexImpl Img} (hI : Inv L i) (hb : BaseOK i)
    (h3 : i.dimension = .Dim3D) :
    ∃ base : List Img, i.images[0]? = some ((base.map some).map (fun x => [x])) ∧
      base.length = i.depth ∧ ∀ g ∈ base, L.isRGBAF g = true := by
  obtain ⟨ds, h1, h2, hfs⟩ := images0 hI
  have hfaces : i.faces = 1 := by rw [hI.faces, if_neg (by rw [h3]; decide)]
  have hdep : depthExtent i.dimension i.depth 0 = i.depth := by
    unfold depthExtent; rw [if_pos h3]; rfl
  have key : ∀ fs ∈ ds, ∃ g, fs = [some g] ∧ L.isRGBAF g = true := by
    intro fs hf
    obtain ⟨d, hd, rfl⟩ := List.getElem_of_mem hf
    obtain ⟨g, hg⟩ := hb d 0 (by omega) (by omega)
    have hr := (hI.imgs 0 d 0 g hg).2.2
    refine ⟨g, ?_, hr⟩
    have hl := hfs _ hf
    rw [hfaces] at hl
    unfold Store.at? at hg
    rw [h1] at hg
    simp only [Option.bind_some, List.getElem?_eq_getElem hd] at hg
    match hx : ds[d]'hd, hl with
    | [a], _ => rw [hx] at hg; simp at hg; rw [hg]
  have : ∀ ds : List (List (Option Img)), (∀ fs ∈ ds, ∃ g, fs = [some g] ∧ L.isRGBAF g = true) →
      ∃ base : List Img, ds = (base.map some).map (fun x => [x]) ∧ base.length = ds.length ∧
        ∀ g ∈ base, L.isRGBAF g = true := by
    intro ds
    induction ds with
    | nil => intro _; exact ⟨[], by simp⟩
    | cons fs ds ih =>
      intro h
      obtain ⟨g, rfl, hg⟩ := h fs (by simp)
      obtain ⟨base, b1, b2, b3⟩ := ih (fun fs hf => h fs (by simp [hf]))
      refine ⟨g :: base, by simp [b1], by simp [b2], ?_⟩
      intro g' hg'
      rcases List.mem_cons.1 hg' with rfl | hg'
      · exact hg
      · exact b3 g' hg'
  obtain ⟨base, b1, b2, b3⟩ := this ds key
  exact ⟨base, by rw [h1, b1], by omega, b3⟩

/-- Result of `generateMipmaps` for 3D textures. -/
theorem gen_3d {L : ImageLib Img} (hL : Lawful L) {i : TexImpl Img} (hI : Inv L i)
    {filter : ResizeFilter} {r : Nat} {custom : CustomMips Img} (hgood : GoodCustom L filter custom)
    (hb : BaseOK i) (h3 : i.dimension = .Dim3D) {base : List Img}
    (hbase : i.images[0]? = some ((base.map some).map (fun x => [x]))) 
    (hbl : base.length = i.depth) (hbf : ∀ g ∈ base, L.isRGBAF g = true) :
    let C := chain3d L filter i.colorSpace i.width i.height i.depth (CustomMips.find custom) base
    ∃ ok images, Tex.generateMipmaps L (some i) filter r custom =
        .ok (ok, some { i with mipLevels := genLevels i r, images }) ∧
      images.length = genLevels i r ∧ images[0]? = i.images[0]? ∧
      (ok = true ↔ ∀ m, 1 ≤ m → m < genLevels i r →
        consistent3d (CustomMips.find custom) m (extent i.depth m)) ∧
      (ok = true → ∀ m, m < genLevels i r → images[m]? = some ((C m).1.map (fun x => [x]))) ∧
      (ok = false → ∃ j, 1 ≤ j ∧ j < genLevels i r ∧
        (∀ m, 1 ≤ m → m < j → consistent3d (CustomMips.find custom) m (extent i.depth m) ∧
          images[m]? = some ((C m).1.map (fun x => [x]))) ∧
        (∀ m, j ≤ m → m < genLevels i r → images[m]? = some (i.images[m]?.getD []))) := by
  intro C
  have hlp := genLevels_pos hI r
  have hl32 : genLevels i r ≤ 32 := by
    have := genLevels_le i r; have := maxMip_le i.dimension i.width i.height i.depth; omega
  have hd := hI.d.2 h3
  let im0 : Store (Option Img) := vresize i.images (genLevels i r) []
  have him0 : ∀ (m : Nat), im0[m]? = if m < genLevels i r then some (i.images[m]?.getD []) else none :=
    fun m => vresize_getElem? _ _ _ _
  have him00 : im0[0]? = some ((base.map some).map (fun x => [x])) := by
    rw [him0, if_pos (by omega), hbase]; rfl
  have hne : base ≠ [] := by intro h; rw [h] at hbl; simp at hbl; omega
  obtain ⟨ok, images, h1, h2, h4⟩ := loop3d hL (t := { i with mipLevels := genLevels i r, images := im0 })
    hgood h3 hI.w.1 hI.h.1 hd hl32 (base := base) (im0 := im0) (genLevels i r - 1) 0 im0 []
    (by show 0 + 1 + (genLevels i r - 1) = genLevels i r; omega)
    ⟨vresize_length _ _ _, by
        intro m hm
        have : m = 0 := by omega
        subst this
        rw [him00]; rfl, fun m hm => rfl, Or.inr ⟨rfl, Or.inl rfl⟩⟩
    (by
      intro o ho
      simp only [chain3d, List.mem_map] at ho
      obtain ⟨g, hg, rfl⟩ := ho
      exact ⟨g, rfl, hbf g hg⟩)
    (by simpa [chain3d] using hne)
  have hlow0 : ∀ k inputs, 1 ≤ k → Inv3d L { i with mipLevels := genLevels i r, images := im0 } filter
      custom base im0 k images inputs → images[0]? = i.images[0]? := by
    intro k inputs hk hinv
    rw [hinv.low 0 (by omega), hbase]; rfl
  refine ⟨ok, images, ?_, ?_, ?_, ?_, ?_, ?_⟩
  · rw [gen_accept_3d hI hb hgood.ptr h3]
    have h1' : genMips3dLoop L
        { i with mipLevels := genLevels i r, images := vresize i.images (genLevels i r) [] }
        filter custom (List.range' 1 (genLevels i r - 1)) (vresize i.images (genLevels i r) []) [] =
        .ok (ok, images) := h1
    rw [h1']; rfl
  · cases ok with
    | true => obtain ⟨-, inputs, hinv⟩ := h2 rfl; exact hinv.len
    | false => obtain ⟨j, -, -, -, -, inputs, hinv⟩ := h4 rfl; exact hinv.len
  · cases ok with
    | true => obtain ⟨-, inputs, hinv⟩ := h2 rfl; exact hlow0 _ _ hlp hinv
    | false => obtain ⟨j, hj, -, -, -, inputs, hinv⟩ := h4 rfl; exact hlow0 _ _ hj hinv
  · cases ok with
    | true => exact ⟨fun _ => (h2 rfl).1, fun _ => rfl⟩
    | false =>
      obtain ⟨j, hj1, hj2, hj3, -, -⟩ := h4 rfl
      exact ⟨fun h => by simp at h, fun h => absurd (h j hj1 hj2) hj3⟩
  · intro h m hm
    obtain ⟨-, inputs, hinv⟩ := h2 h
    exact hinv.low m hm
  · intro h
    obtain ⟨j, hj1, hj2, hj3, hj4, inputs, hinv⟩ := h4 h
    refine ⟨j, hj1, hj2, fun m a b => ⟨hj4 m a b, hinv.low m b⟩, fun m a b => ?_⟩
    rw [hinv.high m a, him0, if_pos b]

/-- Encoded surfaces still cover the texture after the number of levels changed. -/
def TexturesFit (i : TexImpl Img) (levels : Nat) : Prop := i.textures = [] ∨ levels ≤ i.mipLevels

theorem texturesOK_gen {L : ImageLib Img} {i : TexImpl Img} (hI : Inv L i) {levels : Nat}
    (h : TexturesFit i levels) {images : Store (Option Img)} :
    TexturesOK { i with mipLevels := levels, images } := by
  rcases h with h | h
  · exact Or.inl h
  · rcases hI.texs with h0 | h1
    · exact Or.inl h0
    · exact Or.inr (fun m hm d hd => h1 m (Nat.lt_of_lt_of_le hm h) d hd)

theorem inv_gen_flat {L : ImageLib Img} (hL : Lawful L) {i : TexImpl Img} (hI : Inv L i)
    {filter : ResizeFilter} {r : Nat} {custom : CustomMips Img} (hgood : GoodCustom L filter custom)
    (h3 : i.dimension ≠ .Dim3D) (hfit : TexturesFit i (genLevels i r))
    {images : Store (Option Img)}
    (hs : Shape i images (genLevels i r) (max i.depth 1))
    (h0 : ∀ d f, images.at? 0 d f = i.images.at? 0 d f)
    (hc : ∀ d f, d < max i.depth 1 → f < i.faces → ∃ base src0,
        i.images.at? 0 d f = some (some base) ∧ L.isRGBAF src0 = true ∧
        (src0 = base ∨ Leak custom i.faces (genLevels i r) (d * i.faces + f)) ∧
        ∀ m, 1 ≤ m → m < genLevels i r → images.at? m d f =
          some (chainFrom L filter i.width i.height (custOf custom d f) base src0 m).1) :
    Inv L { i with mipLevels := genLevels i r, images } := by
  refine ⟨hI.w, hI.h, hI.d, ⟨genLevels_pos hI r, genLevels_le i r⟩, hI.faces, hs.len, ?_, ?_,
    texturesOK_gen hI hfit⟩
  · intro m ds hds
    simp only at hds ⊢
    have hm : m < genLevels i r := by
      rw [← hs.len]; exact (List.getElem?_eq_some_iff.1 hds).1
    have hl := hs.ds m hm
    rw [hds] at hl
    simp only [Option.map_some, Option.some.injEq] at hl
    rw [depthExtent_flat h3]
    refine ⟨by omega, fun _ => hl, ?_⟩
    intro fs hfs
    obtain ⟨d, hd, rfl⟩ := List.getElem_of_mem hfs
    have := hs.fs m d hm (by omega)
    unfold Store.facesAt at this
    rw [hds] at this
    simpa [List.getElem?_eq_getElem hd] using this
  · intro m d f g hg
    simp only at hg ⊢
    obtain ⟨ds, fs, e1, e2, e3, e4, e5⟩ := Store.mem_of_at? hg
    have hm : m < genLevels i r := by
      rw [← hs.len]; exact (List.getElem?_eq_some_iff.1 e4).1
    have hl := hs.ds m hm
    rw [e4] at hl
    simp only [Option.map_some, Option.some.injEq] at hl
    have hd : d < max i.depth 1 := by
      have := (List.getElem?_eq_some_iff.1 e5).1; omega
    have hf : f < i.faces := by
      have h5 := Store.at?_isSome.1 (by rw [hg]; rfl : (images.at? m d f).isSome)
      obtain ⟨n, h6, h7⟩ := h5
      rw [hs.fs m d hm hd] at h6
      simp only [Option.some.injEq] at h6; omega
    by_cases hm0 : m = 0
    · subst hm0
      rw [h0] at hg
      exact hI.imgs 0 d f g hg
    · obtain ⟨base, src0, -, c2, -, c4⟩ := hc d f hd hf
      rw [c4 m (by omega) hm] at hg
      obtain ⟨g', hg', ho⟩ := (chainFrom_ok hL hI.w.1 hI.h.1 (base := base) (filter := filter)
        (cust := custOf custom d f) (fun m c hc => hgood _ (find_mem hc)) c2 m).2 (by omega)
      simp only [Option.some.injEq] at hg
      rw [hg] at hg'; simp only [Option.some.injEq] at hg'; subst hg'
      exact ho

theorem at?_slices {l : List (Option Img)} {s : Store (Option Img)} {m d f : Nat}
    (h : s[m]? = some (l.map (fun x => [x]))) {o : Option Img} (ho : s.at? m d f = some o) :
    f = 0 ∧ l[d]? = some o := by
  unfold Store.at? at ho
  rw [h] at ho
  simp only [Option.bind_some, List.getElem?_map] at ho
  cases hd : l[d]? with
  | none => simp [hd] at ho
  | some x =>
    simp only [hd, Option.map_some, Option.bind_some] at ho
    cases f with
    | zero => simp at ho; exact ⟨rfl, by rw [ho]⟩
    | succ f => simp at ho

theorem inv_gen_3d {L : ImageLib Img} (hL : Lawful L) {i : TexImpl Img} (hI : Inv L i)
    {filter : ResizeFilter} {r : Nat} {custom : CustomMips Img} (hgood : GoodCustom L filter custom)
    (h3 : i.dimension = .Dim3D) (hfit : TexturesFit i (genLevels i r))
    {base : List Img} {images : Store (Option Img)} 
    (hlen : images.length = genLevels i r) (h0 : images[0]? = i.images[0]?)
    (hlev : ∀ m, 1 ≤ m → m < genLevels i r →
      (consistent3d (CustomMips.find custom) m (extent i.depth m) ∧ images[m]? =
        some ((chain3d L filter i.colorSpace i.width i.height i.depth (CustomMips.find custom) base
          m).1.map (fun x => [x]))) ∨
      (images[m]? = i.images[m]?)) :
    Inv L { i with mipLevels := genLevels i r, images } := by
  have hfaces : i.faces = 1 := by rw [hI.faces, if_neg (by rw [h3]; decide)]
  refine ⟨hI.w, hI.h, hI.d, ⟨genLevels_pos hI r, genLevels_le i r⟩, hI.faces, hlen, ?_, ?_,
    texturesOK_gen hI hfit⟩
  · intro m ds hds
    simp only at hds ⊢
    have hm : m < genLevels i r := by
      rw [← hlen]; exact (List.getElem?_eq_some_iff.1 hds).1
    by_cases hm0 : m = 0
    · subst hm0
      rw [h0] at hds
      exact hI.depths 0 ds hds
    · rcases hlev m (by omega) hm with ⟨hc, hx⟩ | hx
      · rw [hds] at hx
        simp only [Option.some.injEq] at hx
        subst hx
        have hok := (chain3d_ok hL (cs := i.colorSpace) (base := base) hI.w.1 hI.h.1 (hI.d.2 h3)
          hgood m (by omega) hc).1
        have hl : (List.map (fun x => [x]) (chain3d L filter i.colorSpace i.width i.height i.depth
            (CustomMips.find custom) base m).1).length = depthExtent i.dimension i.depth m := by
          rw [List.length_map, hok.1]; unfold depthExtent; rw [if_pos h3]
        refine ⟨by omega, fun _ => hl, ?_⟩
        intro fs hfs
        simp only [List.mem_map] at hfs
        obtain ⟨x, -, rfl⟩ := hfs
        simp [hfaces]
      · rw [hds] at hx
        exact hI.depths m ds hx.symm
  · intro m d f g hg
    simp only at hg ⊢
    obtain ⟨ds, fs, e1, e2, e3, e4, e5⟩ := Store.mem_of_at? hg
    have hm : m < genLevels i r := by
      rw [← hlen]; exact (List.getElem?_eq_some_iff.1 e4).1
    have hsame : images[m]? = i.images[m]? → L.width g = extent i.width m ∧
        L.height g = extent i.height m ∧ L.isRGBAF g = true := by
      intro hx
      apply hI.imgs m d f g
      unfold Store.at? at hg ⊢
      rw [← hx]; exact hg
    by_cases hm0 : m = 0
    · subst hm0; exact hsame h0
    · rcases hlev m (by omega) hm with ⟨hc, hx⟩ | hx
      · have hok := (chain3d_ok hL (cs := i.colorSpace) (base := base) hI.w.1 hI.h.1 (hI.d.2 h3)
          hgood m (by omega) hc).1
        obtain ⟨-, hd⟩ := at?_slices hx hg
        obtain ⟨g', hg', ho⟩ := hok.2 _ (List.mem_of_getElem? hd)
        simp only [Option.some.injEq] at hg'; subst hg'
        exact ho
      · exact hsame hx

end Cuttlefish
