import Verif.Proofs.Convert
import Verif.Proofs.Geometry
import Verif.Spec.Safe
/-
The state invariant of `Texture` and its preservation by the calls that do not generate mips.
-/
namespace Cuttlefish
open Spec
variable {Img : Type}

/-- Storage for encoded surfaces covers every addressable surface. -/
def TexturesOK (t : TexImpl Img) : Prop :=
  t.textures = [] ∨ ∀ m, m < t.mipLevels → ∀ d, d < depthExtent t.dimension t.depth m →
    t.textures.facesAt m d = some t.faces

/-- The invariant of a valid texture. -/
structure Inv (L : ImageLib Img) (t : TexImpl Img) : Prop where
  w : 0 < t.width ∧ t.width < pow32
  h : 0 < t.height ∧ t.height < pow32
  d : t.depth < pow32 ∧ (t.dimension = .Dim3D → 0 < t.depth)
  mips : 1 ≤ t.mipLevels ∧ t.mipLevels ≤ maxMipmapLevels t.dimension t.width t.height t.depth
  faces : t.faces = if t.dimension = .Cube then 6 else 1
  len : t.images.length = t.mipLevels
  depths : ∀ (m : Nat) ds, t.images[m]? = some ds →
    depthExtent t.dimension t.depth m ≤ ds.length ∧
    (t.dimension ≠ .Dim3D ∨ m = 0 → ds.length = depthExtent t.dimension t.depth m) ∧
    ∀ fs ∈ ds, fs.length = t.faces
  imgs : ∀ m d f g, t.images.at? m d f = some (some g) →
    L.width g = extent t.width m ∧ L.height g = extent t.height m ∧ L.isRGBAF g = true
  texs : TexturesOK t

/-- The invariant of a texture object. -/
def TInv (L : ImageLib Img) : Tex Img → Prop
  | none => True
  | some t => Inv L t

theorem depthExtent_pos (dim : Dimension) (d k : Nat) (h : dim = .Dim3D → 0 < d) :
    0 < depthExtent dim d k := by
  unfold depthExtent
  split
  · rename_i h3; exact extent_pos _ _ (h h3)
  · split <;> omega

theorem mip_lt_32 {L : ImageLib Img} {t : TexImpl Img} (hI : Inv L t) {m : Nat}
    (hm : m < t.mipLevels) : m < 32 := by
  have := hI.mips.2
  have := maxMip_le t.dimension t.width t.height t.depth
  omega

theorem mipExtent_ok (n m : Nat) (hn : 0 < n) (hm : m < 32) : mipExtent n m = .ok (extent n m) := by
  simp [mipExtent, shr32_ok _ _ hm, extent_eq_max n m hn]

theorem widthAt_eq {L : ImageLib Img} {t : TexImpl Img} (hI : Inv L t) (m : Nat) :
    Tex.widthAt (some t) m = .ok (if m < t.mipLevels then extent t.width m else 0) := by
  unfold Tex.widthAt
  by_cases h : m < t.mipLevels
  · simp [Nat.not_le.2 h, h, mipExtent_ok _ _ hI.w.1 (mip_lt_32 hI h)]
  · simp [Nat.le_of_not_lt h, h]

theorem heightAt_eq {L : ImageLib Img} {t : TexImpl Img} (hI : Inv L t) (m : Nat) :
    Tex.heightAt (some t) m = .ok (if m < t.mipLevels then extent t.height m else 0) := by
  unfold Tex.heightAt
  by_cases h : m < t.mipLevels
  · simp [Nat.not_le.2 h, h, mipExtent_ok _ _ hI.h.1 (mip_lt_32 hI h)]
  · simp [Nat.le_of_not_lt h, h]

theorem depthAt_eq {L : ImageLib Img} {t : TexImpl Img} (hI : Inv L t) (m : Nat) :
    Tex.depthAt (some t) m =
      .ok (if m < t.mipLevels then depthExtent t.dimension t.depth m else 0) := by
  unfold Tex.depthAt depthExtent
  by_cases h : m < t.mipLevels
  · simp only [ge_iff_le, Nat.not_le.2 h, h, if_false, if_true]
    split
    · rename_i h3; rw [mipExtent_ok _ _ (hI.d.2 h3) (mip_lt_32 hI h)]
    · split
      · simp [*]
      · congr 1; omega
  · simp [Nat.le_of_not_lt h, h]

theorem images_slot {L : ImageLib Img} {t : TexImpl Img} (hI : Inv L t) {m d : Nat}
    (hm : m < t.mipLevels) (hd : d < depthExtent t.dimension t.depth m) :
    t.images.facesAt m d = some t.faces := by
  have hm' : m < List.length t.images := by rw [hI.len]; exact hm
  have hds := hI.depths m _ (List.getElem?_eq_getElem hm')
  unfold Store.facesAt
  rw [List.getElem?_eq_getElem hm']
  simp only [Option.bind_some]
  have hd' : d < (t.images[m]'hm').length := by omega
  rw [List.getElem?_eq_getElem hd']
  simp [hds.2.2 _ (List.getElem_mem hd')]

theorem faceIndex_lt {L : ImageLib Img} {t : TexImpl Img} (hI : Inv L t) {face : Option CubeFace}
    {f : Nat} (h : faceIndex t.faces face = some f) : f < t.faces := by
  have hf := hI.faces
  cases face with
  | none => simp [faceIndex] at h; obtain ⟨h, rfl⟩ := h; omega
  | some c =>
    simp only [faceIndex] at h
    split at h
    · simp at h
    · rename_i hc
      simp only [Option.some.injEq] at h
      split at hf
      · rw [hf, ← h]; cases c <;> simp [CubeFace.toNat]
      · simp only [hf, not_and, not_not] at hc
        have := hc (by decide)
        subst this; subst h; rw [hf]; decide

/-- A slot of a texture: the (face, level, depth) triples that the accessors accept. -/
def HasSlot (t : TexImpl Img) (face : Option CubeFace) (m d f : Nat) : Prop :=
  m < t.mipLevels ∧ d < depthExtent t.dimension t.depth m ∧ faceIndex t.faces face = some f

theorem hasSlot_isSome {L : ImageLib Img} {t : TexImpl Img} (hI : Inv L t) {face : Option CubeFace}
    {m d f : Nat} (h : HasSlot t face m d f) : (t.images.at? m d f).isSome := by
  rw [Store.at?_isSome]
  exact ⟨t.faces, images_slot hI h.1 h.2.1, faceIndex_lt hI h.2.2⟩

theorem getImage_slot {L : ImageLib Img} {t : TexImpl Img} (hI : Inv L t) {face : Option CubeFace}
    {m d f : Nat} (h : HasSlot t face m d f) :
    ∃ g, t.images.at? m d f = some g ∧ Tex.getImage (some t) face m d = .ok g := by
  obtain ⟨g, hg⟩ := Option.isSome_iff_exists.1 (hasSlot_isSome hI h)
  refine ⟨g, hg, ?_⟩
  unfold Tex.getImage
  rw [depthAt_eq hI]
  simp only [Res.ok_bind, h.1, if_true, Nat.not_le.2 h.2.1, ge_iff_le, if_false, h.2.2]
  rw [Store.get_ok]; exact hg

theorem getImage_noSlot {L : ImageLib Img} {t : TexImpl Img} (hI : Inv L t) {face : Option CubeFace}
    {m d : Nat} (h : ∀ f, ¬ HasSlot t face m d f) : Tex.getImage (some t) face m d = .ok none := by
  unfold Tex.getImage
  rw [depthAt_eq hI]
  simp only [Res.ok_bind]
  by_cases hm : m < t.mipLevels
  · simp only [hm, if_true]
    by_cases hd : d < depthExtent t.dimension t.depth m
    · simp only [ge_iff_le, Nat.not_le.2 hd, if_false]
      cases hf : faceIndex t.faces face with
      | none => simp
      | some f => exact absurd ⟨hm, hd, hf⟩ (h f)
    · simp [Nat.le_of_not_lt hd]
  · simp [hm]

/-- What `setImage` stores. -/
def stored (L : ImageLib Img) (cs : ColorSpace) (img : Option Img) (move : Bool) : Option Img :=
  (match img with
    | none => none
    | some g => if move ∧ L.isRGBAF g then some g else L.toRGBAF g).map
    (fun g => L.changeColorSpace g cs)

theorem setImage_slot {L : ImageLib Img} {t : TexImpl Img} (hI : Inv L t)
    {img : Option Img} {mv : Bool} {face : Option CubeFace}
    {m d f : Nat} (h : HasSlot t face m d f)
    (hw : L.widthO img = extent t.width m) (hh : L.heightO img = extent t.height m) :
    ∃ images, t.images.set m d f (stored L t.colorSpace img mv) = .ok images ∧
    Tex.setImage L (some t) img mv face m d =
      .ok ((stored L t.colorSpace img mv).isSome, some { t with images }) := by
  obtain ⟨images, h1, -⟩ := Store.set_ok (a := stored L t.colorSpace img mv) (hasSlot_isSome hI h)
  refine ⟨images, h1, ?_⟩
  unfold Tex.setImage
  rw [depthAt_eq hI, widthAt_eq hI, heightAt_eq hI]
  simp only [Res.ok_bind, h.1, if_true, Nat.not_le.2 h.2.1, ge_iff_le, if_false, h.2.2, hw, hh,
    ne_eq, not_true_eq_false, or_self]
  have : ∀ x, x = stored L t.colorSpace img mv →
      (t.images.set m d f x >>= fun images => pure (x.isSome, some { t with images }))
        = Res.ok ((stored L t.colorSpace img mv).isSome, some { t with images }) := by
    rintro x rfl; rw [h1]; rfl
  exact this _ rfl

theorem setImage_reject {L : ImageLib Img} {t : TexImpl Img} (hI : Inv L t)
    {img : Option Img} {mv : Bool} {face : Option CubeFace} {m d : Nat}
    (h : ¬ ((∃ f, HasSlot t face m d f) ∧ L.widthO img = extent t.width m ∧
      L.heightO img = extent t.height m)) :
    Tex.setImage L (some t) img mv face m d = .ok (false, some t) := by
  unfold Tex.setImage
  rw [depthAt_eq hI, widthAt_eq hI, heightAt_eq hI]
  simp only [Res.ok_bind]
  by_cases hm : m < t.mipLevels
  · simp only [hm, if_true]
    by_cases hd : d < depthExtent t.dimension t.depth m
    · simp only [ge_iff_le, Nat.not_le.2 hd, if_false]
      by_cases hs : L.widthO img = extent t.width m ∧ L.heightO img = extent t.height m
      · rw [if_neg (by simp [hs.1, hs.2])]
        cases hf : faceIndex t.faces face with
        | none => simp
        | some f => exact absurd ⟨⟨f, hm, hd, hf⟩, hs⟩ h
      · rw [if_pos (by rw [not_and_or] at hs; exact hs)]; rfl
    · simp [Nat.le_of_not_lt hd]
  · simp [hm]

theorem stored_ok {L : ImageLib Img} (hL : Lawful L) {cs : ColorSpace} {img : Option Img}
    {mv : Bool} {g : Img} (h : stored L cs img mv = some g) :
    L.width g = L.widthO img ∧ L.height g = L.heightO img ∧ L.isRGBAF g = true ∧
    L.colorSpace g = cs := by
  unfold stored at h
  cases img with
  | none => simp at h
  | some i =>
    simp only [Option.map_eq_some_iff] at h
    obtain ⟨x, hx, rfl⟩ := h
    have h1 := hL.changeColorSpace x cs
    split at hx
    · rename_i hr
      simp only [Option.some.injEq] at hx; subst hx
      exact ⟨h1.1, h1.2.1, by rw [h1.2.2.1, hr.2], h1.2.2.2⟩
    · have h2 := hL.toRGBAF i x hx
      exact ⟨by rw [h1.1, h2.1]; rfl, by rw [h1.2.1, h2.2.1]; rfl, by rw [h1.2.2.1, h2.2.2],
        h1.2.2.2⟩

theorem inv_setImages {L : ImageLib Img} (hL : Lawful L) {t : TexImpl Img} (hI : Inv L t)
    {img : Option Img} {mv : Bool} {face : Option CubeFace}
    {m d f : Nat} (h : HasSlot t face m d f)
    (hw : L.widthO img = extent t.width m) (hh : L.heightO img = extent t.height m)
    {images : Store (Option Img)}
    (hs : t.images.set m d f (stored L t.colorSpace img mv) = .ok images) :
    Inv L { t with images } := by
  obtain ⟨images', h1, h2, h3, h4, h5⟩ :=
    Store.set_ok (a := stored L t.colorSpace img mv) (hasSlot_isSome hI h)
  rw [h1] at hs; cases hs
  refine ⟨hI.w, hI.h, hI.d, hI.mips, hI.faces, by rw [← hI.len, ← h3], ?_, ?_, hI.texs⟩
  · intro m' ds hds
    have hl := h4 m'
    have hds' : images[m']? = some ds := hds
    rw [hds'] at hl
    cases ho : t.images[m']? with
    | none => rw [ho] at hl; simp at hl
    | some ds0 =>
      rw [ho] at hl; simp only [Option.map_some, Option.some.injEq] at hl
      obtain ⟨a, b, c⟩ := hI.depths m' ds0 ho
      refine ⟨by rw [hl]; exact a, fun hx => by rw [hl]; exact b hx, ?_⟩
      intro fs hfs
      obtain ⟨d', hd', rfl⟩ := List.getElem_of_mem hfs
      have := h5 m' d'
      unfold Store.facesAt at this
      rw [hds', ho] at this
      simp only [Option.bind_some] at this
      rw [List.getElem?_eq_getElem hd', List.getElem?_eq_getElem (by omega)] at this
      simp only [Option.map_some, Option.some.injEq] at this
      rw [this]
      exact c _ (List.getElem_mem _)
  · intro m' d' f' g hg
    have hg' := h2 m' d' f'
    rw [show images.at? m' d' f' = some (some g) from hg] at hg'
    split at hg'
    · rename_i he
      obtain ⟨rfl, rfl, rfl⟩ := he
      simp only [Option.some.injEq] at hg'
      have := stored_ok hL hg'.symm
      exact ⟨by rw [this.1, hw], by rw [this.2.1, hh], this.2.2.1⟩
    · exact hI.imgs m' d' f' g hg'.symm

theorem inv_initialize {L : ImageLib Img} (old : Tex Img) (dim : Dimension) (w h d mips : Nat)
    (cs : ColorSpace) (hw : w < pow32) (hh : h < pow32) (hd : d < pow32) :
    TInv L (Tex.initialize old dim w h d mips cs).2 := by
  unfold Tex.initialize
  split
  · trivial
  · rename_i hc
    rw [not_or, not_or] at hc
    have hw0 : 0 < w := by omega
    have hh0 : 0 < h := by omega
    have hd0 : dim = .Dim3D → 0 < d := fun h3 => by
      have := hc.2.2; simp only [h3, true_and] at this; omega
    have hpos := maxMip_pos dim w h d hw0 hw hh0 hh (fun h3 => ⟨hd0 h3, hd⟩)
    refine ⟨⟨hw0, hw⟩, ⟨hh0, hh⟩, ⟨hd, hd0⟩, ⟨by simp only; omega, by simp only; omega⟩, rfl,
      by simp, ?_, ?_, Or.inl rfl⟩
    · intro m ds hds
      simp only at hds ⊢
      rw [List.getElem?_replicate] at hds
      split at hds
      · simp only [Option.some.injEq] at hds; subst hds
        refine ⟨?_, ?_, ?_⟩
        · simp only [List.length_replicate, depthExtent]
          split
          · rename_i h3
            rw [extent_eq_max _ _ (hd0 h3)]
            have : d >>> m ≤ d := by rw [Nat.shiftRight_eq_div_pow]; exact Nat.div_le_self _ _
            omega
          · split <;> omega
        · intro hx
          simp only [List.length_replicate, depthExtent]
          split
          · rename_i h3
            rcases hx with hx | rfl
            · exact absurd h3 hx
            · simp only [extent]; have := hd0 h3; omega
          · split <;> omega
        · intro fs hfs
          rw [List.mem_replicate] at hfs
          rw [hfs.2]; simp
      · simp at hds
    · intro m d f g hg
      exfalso
      obtain ⟨ds, fs, h1, h2, h3, -⟩ := Store.mem_of_at? hg
      simp only at h1
      rw [List.mem_replicate] at h1
      rw [h1.2, List.mem_replicate] at h2
      rw [h2.2, List.mem_replicate] at h3
      exact absurd h3.2 (by simp)

end Cuttlefish
