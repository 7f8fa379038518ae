import Verif.Proofs.TexGen
import Verif.Proofs.TexConvert
import Verif.Spec.Texture
/-
Histories of calls: the invariant along histories, and the refinement to the map specification.
-/
namespace Cuttlefish
open Spec
variable {Img : Type}

theorem faceIndex_addressed {dim : Dimension} {faces : Nat} (h : faces = if dim = .Cube then 6 else 1)
    (face : Option CubeFace) : faceIndex faces face = (addressed dim face).map CubeFace.toNat := by
  subst h
  cases face with
  | none => by_cases hd : dim = .Cube <;> simp [faceIndex, addressed, hd, CubeFace.toNat]
  | some f => by_cases hd : dim = .Cube <;> by_cases hf : f = .PosX <;>
      simp [faceIndex, addressed, hd, hf]

theorem CubeFace.toNat_inj {a b : CubeFace} (h : a.toNat = b.toNat) : a = b := by
  cases a <;> cases b <;> simp_all [CubeFace.toNat]

/-- Every face index is addressed by some overload. -/
theorem face_of_index {dim : Dimension} {faces f : Nat} (h : faces = if dim = .Cube then 6 else 1)
    (hf : f < faces) : ∃ face cf, addressed dim face = some cf ∧ cf.toNat = f := by
  by_cases hcube : dim = .Cube
  · rw [if_pos hcube] at h
    have : f < 6 := by omega
    match f, this with
    | 0, _ => exact ⟨some .PosX, .PosX, by simp [addressed], rfl⟩
    | 1, _ => exact ⟨some .NegX, .NegX, by simp [addressed, hcube], rfl⟩
    | 2, _ => exact ⟨some .PosY, .PosY, by simp [addressed, hcube], rfl⟩
    | 3, _ => exact ⟨some .NegY, .NegY, by simp [addressed, hcube], rfl⟩
    | 4, _ => exact ⟨some .PosZ, .PosZ, by simp [addressed, hcube], rfl⟩
    | 5, _ => exact ⟨some .NegZ, .NegZ, by simp [addressed, hcube], rfl⟩
  · rw [if_neg hcube] at h
    have : f = 0 := by omega
    subst this
    exact ⟨none, .PosX, by simp [addressed, hcube], rfl⟩

theorem ofIndex_toNat (cf : CubeFace) : CubeFace.ofIndex cf.toNat = cf := by
  cases cf <;> rfl

theorem basePresent_iff {L : ImageLib Img} {i : TexImpl Img} (hI : Inv L i) :
    BasePresent (some i) ↔ BaseOK i := by
  have hm : 0 < i.mipLevels := hI.mips.1
  have hd0 : Tex.depthAt (some i) 0 = .ok (depthExtent i.dimension i.depth 0) := by
    rw [depthAt_eq hI, if_pos hm]
  constructor
  · rintro ⟨-, h⟩ d f hd hf
    obtain ⟨face, cf, ha, hcf⟩ := face_of_index hI.faces hf
    have hfi := faceIndex_addressed hI.faces face
    rw [ha, Option.map_some, hcf] at hfi
    obtain ⟨g, hg, hres⟩ := getImage_slot hI (m := 0) (d := d) ⟨hm, hd, hfi⟩
    obtain ⟨x, hx⟩ := h face d _ hd0 hd (by show (addressed i.dimension face).isSome = true; rw [ha]; rfl)
    rw [hres] at hx; simp only [Res.ok.injEq] at hx
    exact ⟨x, by rw [hg, hx]⟩
  · intro h
    refine ⟨rfl, ?_⟩
    intro face d k hk hd hf
    rw [hd0] at hk; simp only [Res.ok.injEq] at hk; subst hk
    have hfi := faceIndex_addressed hI.faces face
    obtain ⟨cf, hf⟩ := Option.isSome_iff_exists.1 hf
    have hf : addressed i.dimension face = some cf := hf
    rw [hf, Option.map_some] at hfi
    obtain ⟨g, hg, hres⟩ := getImage_slot hI (m := 0) (d := d) ⟨hm, hd, hfi⟩
    obtain ⟨x, hx⟩ := h d _ hd (faceIndex_lt hI hfi)
    rw [hg] at hx; simp only [Option.some.injEq] at hx
    exact ⟨x, by rw [hres, hx]⟩

theorem limitLevels_eq (r m : Nat) (hm : 1 ≤ m) : limitLevels r m = min (max r 1) m := by
  unfold limitLevels; split
  · omega
  · split <;> omega

/-- The concrete texture `t` represents the map `a`. -/
def Refines : Tex Img → Option (ATex Img) → Prop
  | none, none => True
  | some i, some a =>
    i.dimension = a.shape.dim ∧ i.colorSpace = a.shape.cs ∧ i.width = a.shape.width ∧
    i.height = a.shape.height ∧ i.depth = a.shape.depth ∧ i.mipLevels = a.shape.levels ∧
    ∀ f m d, f.toNat < i.faces → a.shape.has m d → i.images.at? m d f.toNat = some (a.img f m d)
  | _, _ => False

theorem refines_init (old : Tex Img) (L : ImageLib Img) (t : Option (ATex Img)) (dim : Dimension)
    (w h d m : Nat) (cs : ColorSpace) (hw : w < pow32) (hh : h < pow32) (hd : d < pow32) :
    (Out.bool (Tex.initialize old dim w h d m cs).1 : Out Img) =
      (mapCall L t (.initialize dim w h d m cs)).1 ∧
    Refines (Tex.initialize old dim w h d m cs).2 (mapCall L t (.initialize dim w h d m cs)).2 := by
  unfold Tex.initialize mapCall
  by_cases hc : w = 0 ∨ h = 0 ∨ (dim = .Dim3D ∧ d = 0)
  · simp [if_pos hc, Refines]
  · simp only [if_neg hc, Refines, true_and]
    rw [not_or, not_or] at hc
    have hd0 : dim = .Dim3D → 0 < d := fun h3 => by
      have := hc.2.2; simp only [h3, true_and] at this; omega
    have hpos := maxMip_pos dim w h d (by omega) hw (by omega) hh (fun h3 => ⟨hd0 h3, hd⟩)
    have hlim := limitLevels_eq m _ hpos
    refine ⟨hlim.symm, ?_⟩
    intro f m' d' hf hh
    obtain ⟨h1, h2⟩ := hh
    simp only at h1 h2
    rw [hlim] at h1
    have : d' < max d 1 := by
      unfold depthExtent at h2
      split at h2
      · rename_i h3
        rw [extent_eq_max _ _ (hd0 h3)] at h2
        have : d >>> m' ≤ d := by rw [Nat.shiftRight_eq_div_pow]; exact Nat.div_le_self _ _
        omega
      · split at h2 <;> omega
    unfold Store.at?
    simp only [List.getElem?_replicate, h1, if_true, Option.bind_some, this, hf]

theorem refines_set {L : ImageLib Img} {i : TexImpl Img} {a : ATex Img}
    (hI : Inv L i) (hR : Refines (some i) (some a)) {g : Img} {mv : Bool} {face : Option CubeFace}
    {m d : Nat} (hok : (represent L a.shape.cs g mv).isSome = true) :
    ∃ b t, Tex.setImage L (some i) (some g) mv face m d = .ok (b, t) ∧
      (mapCall L (some a) (.setImage (some g) mv face m d)).1 = .bool b ∧
      Refines t (mapCall L (some a) (.setImage (some g) mv face m d)).2 := by
  obtain ⟨e1, e2, e3, e4, e5, e6, e7⟩ := id hR
  have hfi := faceIndex_addressed hI.faces face
  rw [e1] at hfi
  by_cases hs : (∃ f, HasSlot i face m d f) ∧ L.widthO (some g) = extent i.width m ∧
      L.heightO (some g) = extent i.height m
  · obtain ⟨⟨f, hslot⟩, hw, hh⟩ := hs
    obtain ⟨images, hset, hres⟩ := setImage_slot hI (mv := mv) hslot hw hh
    obtain ⟨images', h1, h2, h3, h4, h5⟩ :=
      Store.set_ok (a := stored L i.colorSpace (some g) mv) (hasSlot_isSome hI hslot)
    rw [h1] at hset; cases hset
    have hf := hslot.2.2
    rw [hfi, Option.map_eq_some_iff] at hf
    obtain ⟨cf, hcf, rfl⟩ := hf
    refine ⟨_, _, hres, ?_⟩
    have hst : stored L i.colorSpace (some g) mv = represent L a.shape.cs g mv := by
      rw [e2]; rfl
    obtain ⟨r, hr⟩ := Option.isSome_iff_exists.1 hok
    have hhas : a.shape.has m d := ⟨by rw [← e6]; exact hslot.1, by rw [← e1, ← e5]; exact hslot.2.1⟩
    have hcond : a.shape.has m d ∧ L.width g = extent a.shape.width m ∧
        L.height g = extent a.shape.height m := ⟨hhas, by rw [← e3]; exact hw, by rw [← e4]; exact hh⟩
    simp only [mapCall, hcf, if_pos hcond, hr]
    refine ⟨by rw [hst, hr]; rfl, e1, e2, e3, e4, e5, e6, ?_⟩
    intro f' m' d' hf' hh'
    rw [h2]
    by_cases he : f' = cf ∧ m' = m ∧ d' = d
    · obtain ⟨rfl, rfl, rfl⟩ := he
      simp [hst, hr]
    · simp only [if_neg he]
      rw [if_neg (by
        rintro ⟨x1, x2, x3⟩
        exact he ⟨CubeFace.toNat_inj x3, x1, x2⟩)]
      exact e7 f' m' d' hf' hh'
  · refine ⟨false, some i, setImage_reject hI hs, ?_⟩
    have hno : ∀ cf, addressed a.shape.dim face = some cf → ¬ (a.shape.has m d ∧
        L.width g = extent a.shape.width m ∧ L.height g = extent a.shape.height m) := by
      intro cf hcf ⟨⟨x1, x2⟩, x3, x4⟩
      apply hs
      refine ⟨⟨cf.toNat, by rw [e6]; exact x1, by rw [e1, e5]; exact x2, by rw [hfi, hcf]; rfl⟩, ?_, ?_⟩
      · rw [e3]; exact x3
      · rw [e4]; exact x4
    cases hcf : addressed a.shape.dim face with
    | none => simp only [mapCall, hcf]; exact ⟨trivial, hR⟩
    | some cf =>
      simp only [mapCall, hcf, if_neg (hno cf hcf)]
      exact ⟨trivial, hR⟩

theorem refines_get {L : ImageLib Img} {i : TexImpl Img} {a : ATex Img}
    (hI : Inv L i) (hR : Refines (some i) (some a)) {face : Option CubeFace} {m d : Nat} :
    ∃ g, Tex.getImage (some i) face m d = .ok g ∧
      mapCall L (some a) (.getImage face m d) = (.image g, some a) := by
  obtain ⟨e1, e2, e3, e4, e5, e6, e7⟩ := id hR
  have hfi := faceIndex_addressed hI.faces face
  rw [e1] at hfi
  by_cases hs : ∃ f, HasSlot i face m d f
  · obtain ⟨f, hslot⟩ := hs
    obtain ⟨g, hg, hres⟩ := getImage_slot hI hslot
    have hf := hslot.2.2
    have hlt := faceIndex_lt hI hf
    rw [hfi, Option.map_eq_some_iff] at hf
    obtain ⟨cf, hcf, rfl⟩ := hf
    have hhas : a.shape.has m d := ⟨by rw [← e6]; exact hslot.1, by rw [← e1, ← e5]; exact hslot.2.1⟩
    refine ⟨g, hres, ?_⟩
    have := e7 cf m d hlt hhas
    rw [hg] at this
    simp only [Option.some.injEq] at this
    simp only [mapCall, hcf, if_pos hhas, this]
  · refine ⟨none, getImage_noSlot hI (fun f hf => hs ⟨f, hf⟩), ?_⟩
    cases hcf : addressed a.shape.dim face with
    | none => simp only [mapCall, hcf]
    | some cf =>
      have : ¬ a.shape.has m d := by
        intro ⟨x1, x2⟩
        exact hs ⟨cf.toNat, by rw [e6]; exact x1, by rw [e1, e5]; exact x2, by rw [hfi, hcf]; rfl⟩
      simp only [mapCall, hcf, if_neg this]

theorem getImage_none (face : Option CubeFace) (m d : Nat) :
    Tex.getImage (none : Tex Img) face m d = .ok none := by
  simp [Tex.getImage, Tex.depthAt]

theorem setImage_none {L : ImageLib Img} (img : Option Img) (mv : Bool) (face : Option CubeFace)
    (m d : Nat) : Tex.setImage L none img mv face m d = .ok (false, none) := by
  simp [Tex.setImage, Tex.depthAt]

theorem setImage_invalid {L : ImageLib Img} {i : TexImpl Img} (hI : Inv L i) (mv : Bool)
    (face : Option CubeFace) (m d : Nat) :
    Tex.setImage L (some i) none mv face m d = .ok (false, some i) := by
  apply setImage_reject hI
  rintro ⟨-, hw, -⟩
  have := extent_pos i.width m hI.w.1
  simp [ImageLib.widthO] at hw; omega

theorem tinv_setImage {L : ImageLib Img} (hL : Lawful L) {t : Tex Img} (hI : TInv L t)
    {img : Option Img} {mv : Bool} {face : Option CubeFace} {m d : Nat} :
    ∃ b t', Tex.setImage L t img mv face m d = .ok (b, t') ∧ TInv L t' := by
  cases t with
  | none => exact ⟨_, _, setImage_none .., trivial⟩
  | some i =>
    by_cases hs : (∃ f, HasSlot i face m d f) ∧ L.widthO img = extent i.width m ∧
        L.heightO img = extent i.height m
    · obtain ⟨⟨f, hslot⟩, hw, hh⟩ := hs
      obtain ⟨images, hset, hres⟩ := setImage_slot hI (mv := mv) hslot hw hh
      exact ⟨_, _, hres, inv_setImages hL hI hslot hw hh hset⟩
    · exact ⟨_, _, setImage_reject hI hs, hI⟩

/-- One call of the map interface. -/
theorem refines_call {W : World Img} (hL : Lawful W.lib) {t : Tex Img} {a : Option (ATex Img)}
    (hI : TInv W.lib t) (hR : Refines t a) {o : Op Img} (ho : isMapOp o) (hwf : o.WF)
    (hset : SetOK W.lib o) :
    ∃ t', call W t o = .ok ((mapCall W.lib a o).1, t') ∧ TInv W.lib t' ∧
      Refines t' (mapCall W.lib a o).2 := by
  cases o with
  | «initialize» dim w h d m cs =>
    have h1 := inv_initialize (L := W.lib) t dim w h d m cs hwf.1 hwf.2.1 hwf.2.2
    have h2 := refines_init t W.lib a dim w h d m cs hwf.1 hwf.2.1 hwf.2.2
    exact ⟨_, by rw [← h2.1]; rfl, h1, h2.2⟩
  | reset => exact ⟨none, rfl, trivial, trivial⟩
  | setImage img mv face m d =>
    match t, a, hR with
    | none, none, hR =>
      cases img <;> exact ⟨none, by simp [call, setImage_none, mapCall], trivial, by simp [mapCall, Refines]⟩
    | some i, some a, hR =>
      cases img with
      | none =>
        exact ⟨some i, by simp [call, setImage_invalid hI, mapCall], hI, hR⟩
      | some g =>
        obtain ⟨b, t', h1, h2, h3⟩ := refines_set hI hR (face := face) (m := m) (d := d) (hset a.shape.cs)
        obtain ⟨b', t'', h4, h5⟩ := tinv_setImage hL (t := some i) hI (img := some g) (mv := mv)
          (face := face) (m := m) (d := d)
        rw [h1] at h4; simp only [Res.ok.injEq, Prod.mk.injEq] at h4
        obtain ⟨rfl, rfl⟩ := h4
        refine ⟨t', ?_, h5, h3⟩
        show (Tex.setImage W.lib (some i) (some g) mv face m d >>= _) = _
        rw [h1, h2]; rfl
  | getImage face m d =>
    match t, a, hR with
    | none, none, hR =>
      exact ⟨none, by simp [call, getImage_none, mapCall], trivial, trivial⟩
    | some i, some a, hR =>
      obtain ⟨g, h1, h2⟩ := refines_get hI hR (face := face) (m := m) (d := d)
      refine ⟨some i, ?_, hI, by rw [h2]; exact hR⟩
      show (Tex.getImage (some i) face m d >>= _) = _
      rw [h1, h2]; rfl
  | generateMipmaps _ _ _ => exact absurd ho (by simp [isMapOp])
  | convert _ _ _ _ _ _ => exact absurd ho (by simp [isMapOp])
  | extents _ => exact absurd ho (by simp [isMapOp])
  | data _ _ _ => exact absurd ho (by simp [isMapOp])

theorem refines_run {W : World Img} (hL : Lawful W.lib) :
    ∀ (os : List (Op Img)) {t : Tex Img} {a : Option (ATex Img)}, TInv W.lib t → Refines t a →
    (∀ o ∈ os, isMapOp o ∧ o.WF ∧ SetOK W.lib o) →
    ∃ t', run W t os = .ok ((mapRun W.lib a os).1, t') ∧ TInv W.lib t' ∧
      Refines t' (mapRun W.lib a os).2
  | [], t, a, hI, hR, _ => ⟨t, rfl, hI, hR⟩
  | o :: os, t, a, hI, hR, h => by
    obtain ⟨h1, h2, h3⟩ := h o (by simp)
    obtain ⟨t', c1, c2, c3⟩ := refines_call hL hI hR h1 h2 h3
    obtain ⟨t'', r1, r2, r3⟩ := refines_run hL os c2 c3 (fun o ho => h o (by simp [ho]))
    refine ⟨t'', ?_, r2, r3⟩
    simp only [run, c1, Res.ok_bind, r1]
    rfl

end Cuttlefish
