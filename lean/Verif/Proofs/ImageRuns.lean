import Verif.Spec.ImageCalls
import Verif.Proofs.TexImages
import Verif.Proofs.Mips3dSafe
import Verif.Proofs.ProcessSafe
/-
Runs with the modelled images in IEEE arithmetic: only defined methods are used.
-/
namespace Cuttlefish
open Spec
variable {Lm : Libm} {FI : FreeImage Dbl}

/-- The images of a texture. -/
def TexImage (Lm : Libm) (g : Image Dbl) : Prop := RealImage (Arith.ieee Lm) g ∧ g.format = .RGBAF ∧ Countable g

/-- A custom image. -/
def CustomImage (Lm : Libm) (g : Image Dbl) : Prop := RealImage (Arith.ieee Lm) g ∧ IsFloat g.format ∧ Countable g

theorem convert_uses (F : LawfulFI (Arith.ieee Lm) FI) {g : Image Dbl} (hg : RealImage (Arith.ieee Lm) g)
    (hc : Counts (g.bmp.width, g.bmp.height)) :
    ∃ r, (∀ L, UsesImages (Arith.ieee Lm) FI L → L.toRGBAF g = r) ∧
      g.convert (Arith.ieee Lm) FI .RGBAF true = .ok r ∧ OptAll (TexImage Lm) r := by
  obtain ⟨r, e⟩ := convert_float F hg.1
  refine ⟨r, fun L hL => hL.convert g r hg e, e, fun j ej => ?_⟩
  subst ej
  obtain ⟨h1, -, h3, h4, h5⟩ := C48_result (lawful_ieee Lm) F hg.1 e
  obtain ⟨c1, c2, c3⟩ := hc
  obtain ⟨-, p1, p2⟩ := hg
  refine ⟨⟨h5, by omega, by omega⟩, h1, by omega, by omega, ?_⟩
  rw [h3, h4]
  exact ⟨c1, c2, c3⟩

theorem change_uses {g : Image Dbl} (hg : TexImage Lm g) (cs : ColorSpace) :
    ∃ j, (∀ L, UsesImages (Arith.ieee Lm) FI L → L.changeColorSpace g cs = j) ∧
      g.changeColorSpace (Arith.ieee Lm) cs = .ok j ∧ TexImage Lm j := by
  obtain ⟨⟨h1, h2, h3⟩, h4, h5⟩ := hg
  obtain ⟨j, e⟩ := changeColorSpace_float (lawful_ieee Lm) h1 (Or.inr (Or.inl h4)) cs
  obtain ⟨k1, k2, -, k4, k5⟩ := changeColorSpace_keep (lawful_ieee Lm) h1 e
  refine ⟨j, fun L hL => hL.change g cs j ⟨h1, h2, h3⟩ e, e, ⟨k1, by omega, by omega⟩, k2.trans h4, ?_⟩
  unfold Spec.Countable
  rw [k4, k5]
  exact h5

theorem resize_uses (F : LawfulFI (Arith.ieee Lm) FI) {g : Image Dbl} (hg : CustomImage Lm g) {w h : ℕ}
    (hc : Counts (w, h)) (filter : ResizeFilter) :
    ∃ r, (∀ L, UsesImages (Arith.ieee Lm) FI L → L.resize g w h filter = r) ∧
      g.resize (Arith.ieee Lm) FI w h filter = .ok r ∧
      OptAll (fun j => CustomImage Lm j ∧ j.format = g.format ∧ j.bmp.width = w ∧ j.bmp.height = h) r := by
  obtain ⟨h1, h4, h5⟩ := hg
  obtain ⟨c1, c2, c3⟩ := hc
  obtain ⟨r, e⟩ := resize_float (lawful_ieee Lm) F filters_ieee h1.1 h5 h4 (w := w) (h := h) (c1.trans (by norm_num))
    (c2.trans (by norm_num)) filter
  refine ⟨r, fun L hL => hL.resize g w h filter r h1 e, e, fun j ej => ?_⟩
  subst ej
  obtain ⟨k1, k2, -, k4, k5, k6, k7⟩ := resize_keep (lawful_ieee Lm) F h1.1 e
  refine ⟨⟨⟨k1, by omega, by omega⟩, k2 ▸ h4, by omega, by omega, ?_⟩, k2, k4, k5⟩
  rw [k4, k5]
  exact ⟨c1, c2, c3⟩

/-- A property of images that the methods used by a texture keep, when it resizes with the filters `Fl` and its colour
space is in `S`. -/
structure KeptBy (Lm : Libm) (FI : FreeImage Dbl) (U : Image Dbl → Prop) (Fl : ResizeFilter → Prop)
    (S : ColorSpace → Prop) : Prop where
  convert : ∀ i j, ImgOk (Arith.ieee Lm) i → U i → i.convert (Arith.ieee Lm) FI .RGBAF true = .ok (some j) → U j
  change : ∀ i cs j, S cs → ImgOk (Arith.ieee Lm) i → IsFloat i.format → U i →
    i.changeColorSpace (Arith.ieee Lm) cs = .ok j → U j
  resize : ∀ i w h filter j, ImgOk (Arith.ieee Lm) i → Countable i → IsFloat i.format → w < 2 ^ 32 → h < 2 ^ 32 →
    Fl filter → U i → i.resize (Arith.ieee Lm) FI w h filter = .ok (some j) → U j
  mip3d : ∀ prev w h depth d cs filter j, S cs → prev ≠ [] → prev.length < 2 ^ 31 → d < depth → depth < 2 ^ 32 →
    (∀ i ∈ prev, ImgOk (Arith.ieee Lm) i ∧ i.bmp.width = w ∧ i.bmp.height = h) → Fl filter → (∀ i ∈ prev, U i) →
    mipSlice3d (Arith.ieee Lm) FI prev w h depth cs filter d = .ok j → U j

theorem kept_true : KeptBy Lm FI (fun _ => True) (fun _ => True) (fun _ => True) :=
  ⟨fun _ _ _ _ _ => trivial, fun _ _ _ _ _ _ _ _ => trivial, fun _ _ _ _ _ _ _ _ _ _ _ _ _ => trivial,
    fun _ _ _ _ _ _ _ _ _ _ _ _ _ _ _ _ _ => trivial⟩

theorem images_agree_with {U : Image Dbl → Prop} {Fl : ResizeFilter → Prop} {S : ColorSpace → Prop}
    (KU : KeptBy Lm FI U Fl S)
    (F : LawfulFI (Arith.ieee Lm) FI) (M : EnoughMemory FI) {L L' : ImageLib (Image Dbl)}
    (hL : UsesImages (Arith.ieee Lm) FI L) (hL' : UsesImages (Arith.ieee Lm) FI L') :
    LibsAgree L L' (fun g => RealImage (Arith.ieee Lm) g ∧ U g) (fun g => TexImage Lm g ∧ U g)
      (fun g => CustomImage Lm g ∧ U g) (fun w h => Counts (w, h)) Fl S := by
  have conv {g : Image Dbl} (hg : RealImage (Arith.ieee Lm) g ∧ U g) (hc : Counts (g.bmp.width, g.bmp.height)) :
      L.toRGBAF g = L'.toRGBAF g ∧ OptAll (fun g => TexImage Lm g ∧ U g) (L.toRGBAF g) := by
    obtain ⟨r, e, er, k⟩ := convert_uses F hg.1 hc
    rw [e L hL, e L' hL']
    exact ⟨rfl, fun j ej => ⟨k j ej, KU.convert g j hg.1.1 hg.2 (ej ▸ er)⟩⟩
  refine ⟨fun g => by rw [hL.width, hL'.width], fun g => by rw [hL.height, hL'.height], ?_, ?_, ?_, ?_⟩
  · intro g mv cs hS hg hc
    rw [hL.width, hL.height] at hc
    have map {o : Option (Image Dbl)} (ho : OptAll (fun g => TexImage Lm g ∧ U g) o) :
        (o.map (fun g => L.changeColorSpace g cs) = o.map (fun g => L'.changeColorSpace g cs)) ∧
          OptAll (fun g => TexImage Lm g ∧ U g) (o.map (fun g => L.changeColorSpace g cs)) := by
      cases o with
      | none => exact ⟨rfl, fun g e => by cases e⟩
      | some g =>
        obtain ⟨hg, ug⟩ := ho g rfl
        obtain ⟨j, e, ej, k⟩ := change_uses (FI := FI) hg cs
        rw [Option.map_some, Option.map_some, e L hL, e L' hL']
        exact ⟨rfl, fun g' e => by cases e; exact ⟨k, KU.change g cs j hS hg.1.1 (Or.inr (Or.inl hg.2.1)) ug ej⟩⟩
    rw [hL.format, hL'.format, ← (conv hg hc).1]
    refine map ?_
    split
    · rename_i h
      intro g' e
      cases e
      obtain ⟨c1, c2, c3⟩ := hc
      exact ⟨⟨hg.1, by simpa using h.2, hg.1.2.1, hg.1.2.2, c1, c2, c3⟩, hg.2⟩
    · exact (conv hg hc).2
  · intro g w h filter hf ⟨hg, ug⟩ hc
    obtain ⟨r, e, er, k⟩ := resize_uses F (g := g) ⟨hg.1, Or.inr (Or.inl hg.2.1), hg.2.2⟩ hc filter
    rw [e L hL, e L' hL']
    refine ⟨rfl, fun j ej => ?_⟩
    obtain ⟨⟨k1, -, k3⟩, k4, k5, k6⟩ := k j ej
    exact ⟨⟨⟨k1, k4.trans hg.2.1, k3⟩, KU.resize g w h filter j hg.1.1 hg.2.2 (Or.inr (Or.inl hg.2.1))
      (hc.1.trans (by norm_num)) (hc.2.1.trans (by norm_num)) hf ug (ej ▸ er)⟩, (hL.width j).trans k5, (hL.height j).trans k6⟩
  · intro g r w h filter hf ⟨hg, ug⟩ hc
    obtain ⟨o, e, er, k⟩ := resize_uses F hg hc filter
    simp only [customResult, ImageLib.resizeO, e L hL, e L' hL']
    cases o with
    | none => exact ⟨rfl, fun g e => by cases e⟩
    | some j =>
      obtain ⟨⟨k1, k2, k3⟩, k4, k5, k6⟩ := k j rfl
      have uj : U j := KU.resize g w h filter j hg.1.1 hg.2.2 hg.2.1 (hc.1.trans (by norm_num))
        (hc.2.1.trans (by norm_num)) hf ug er
      dsimp only
      have hcj : Counts (j.bmp.width, j.bmp.height) := by rw [k5, k6]; exact hc
      rw [hL.format, hL'.format, ← (conv ⟨k1, uj⟩ hcj).1]
      refine ⟨rfl, ?_⟩
      split
      · rename_i h
        intro g' e
        cases e
        exact ⟨⟨k1, by simpa using h, k3⟩, uj⟩
      · exact (conv ⟨k1, uj⟩ hcj).2
  · intro prev w h depth d cs filter hS hf hne hlen hd hdep hc hp
    have hok : ∀ i ∈ prev, ImgOk (Arith.ieee Lm) i ∧ i.bmp.width = w ∧ i.bmp.height = h := by
      intro i hi
      obtain ⟨h1, h2, h3⟩ := hp i hi
      rw [hL.width] at h2
      rw [hL.height] at h3
      exact ⟨h1.1.1.1, h2, h3⟩
    obtain ⟨j, e, k1, k2, k3, k4⟩ := mipSlice3d_ieee F M hne hlen hd hdep hok cs filter
    have real : ∀ i ∈ prev, RealImage (Arith.ieee Lm) i := fun i hi => (hp i hi).1.1.1
    rw [hL.mip3d _ _ _ _ _ _ _ _ real e, hL'.mip3d _ _ _ _ _ _ _ _ real e]
    obtain ⟨g, hg⟩ := List.exists_mem_of_ne_nil _ hne
    obtain ⟨-, g2, g3⟩ := hok g hg
    obtain ⟨-, p1, p2⟩ := real g hg
    obtain ⟨c1, c2, c3⟩ := hc
    refine ⟨rfl, ⟨⟨k1, by omega, by omega⟩, k2, by omega, by omega, ?_⟩,
      KU.mip3d prev w h depth d cs filter j hS hne hlen hd hdep hok hf (fun i hi => (hp i hi).1.2) e⟩
    rw [k3, k4]
    exact ⟨c1, c2, c3⟩

theorem images_agree (F : LawfulFI (Arith.ieee Lm) FI) (M : EnoughMemory FI) {L L' : ImageLib (Image Dbl)}
    (hL : UsesImages (Arith.ieee Lm) FI L) (hL' : UsesImages (Arith.ieee Lm) FI L') :
    LibsAgree L L' (RealImage (Arith.ieee Lm)) (TexImage Lm) (CustomImage Lm) (fun w h => Counts (w, h))
      (fun _ => True) (fun _ => True) := by
  have := images_agree_with kept_true F M hL hL'
  simpa only [and_true] using this

theorem initialize_tame {G : Image Dbl → Prop} {S : ColorSpace → Prop} {t : Tex (Image Dbl)} {dim : Dimension}
    {w h d m : ℕ} {cs : ColorSpace} (hS : S cs) (hc : Counts (w, h)) (hd : dim = .Dim3D → d < 2 ^ 31) :
    ∀ i, (t.initialize dim w h d m cs).2 = some i → Tame G (fun w h => Counts (w, h)) S i := by
  intro i e
  unfold Tex.initialize at e
  split at e
  · cases e
  · rename_i h0
    push Not at h0
    obtain ⟨c1, c2, c3⟩ := hc
    dsimp only at c1 c2 c3
    cases e
    refine ⟨hS, ?_, ?_, ?_⟩
    · intro a b ha hb
      have ha' : a ≤ w := by simp only at ha; omega
      have hb' : b ≤ h := by simp only at hb; omega
      exact ⟨by simp only; omega, by simp only; omega, (Nat.mul_le_mul ha' hb').trans_lt c3⟩
    · intro ds h1 fs h2 o h3
      rw [List.eq_of_mem_replicate h1] at h2
      rw [List.eq_of_mem_replicate h2] at h3
      rw [List.eq_of_mem_replicate h3]
      exact fun g e => by cases e
    · intro h3
      have := hd h3
      refine ⟨by simp only; omega, ?_⟩
      intro ds h1
      rw [List.eq_of_mem_replicate h1, List.length_replicate]

/-- The images given to a call have the property, and the filter and the colour space keep it. -/
def CallKept (U : Image Dbl → Prop) (Fl : ResizeFilter → Prop) (S : ColorSpace → Prop) : Op (Image Dbl) → Prop
  | .initialize _ _ _ _ _ cs => S cs
  | .setImage img _ _ _ _ => ∀ g, img = some g → U g
  | .generateMipmaps filter _ custom => Fl filter ∧ ∀ e ∈ custom, ∀ g, e.2.image = some (some g) → U g
  | _ => True

theorem call_agrees_with {U : Image Dbl → Prop} {Fl : ResizeFilter → Prop} {S : ColorSpace → Prop}
    (KU : KeptBy Lm FI U Fl S) (F : LawfulFI (Arith.ieee Lm) FI) (M : EnoughMemory FI) (W : World (Image Dbl))
    {L L' : ImageLib (Image Dbl)} (hL : UsesImages (Arith.ieee Lm) FI L) (hL' : UsesImages (Arith.ieee Lm) FI L')
    {t : Tex (Image Dbl)} (ht : ∀ i, t = some i → Tame (fun g => TexImage Lm g ∧ U g) (fun w h => Counts (w, h)) S i)
    {o : Op (Image Dbl)} (ho : ImageCall (Arith.ieee Lm) o) (hu : CallKept U Fl S o) :
    Agr (fun r => ∀ i, r.2 = some i → Tame (fun g => TexImage Lm g ∧ U g) (fun w h => Counts (w, h)) S i)
      (call (withImages W L) t o) (call (withImages W L') t o) := by
  have H := images_agree_with KU F M hL hL'
  cases o with
  | «initialize» dim w h d m cs => exact agr_ok (initialize_tame hu ho.1 ho.2)
  | reset => exact agr_ok (fun i e => by cases e)
  | setImage img mv face mip depth =>
    exact agr_bind (setImage_agrees H ht (fun g e => ⟨ho g e, hu g e⟩) mv face mip depth) (fun r hr => agr_ok hr)
  | generateMipmaps filter m custom =>
    exact agr_bind (generateMipmaps_agrees H ht hu.1 m (fun e he g hg => ⟨ho e he g hg, hu.2 e he g hg⟩)) (fun r hr => agr_ok hr)
  | convert f ty q a m th =>
    exact agr_bind (P := fun r => ∀ i, r.2 = some i → Tame (fun g => TexImage Lm g ∧ U g) (fun w h => Counts (w, h)) S i)
      (agr_self fun r e => convert_keeps ht e) (fun r hr => agr_ok hr)
  | getImage face mip depth =>
    exact agr_bind (P := fun _ => True) (agr_self fun _ _ => trivial) (fun _ _ => agr_ok ht)
  | extents mip =>
    exact agr_bind (P := fun _ => True) (agr_self fun _ _ => trivial) (fun _ _ =>
      agr_bind (P := fun _ => True) (agr_self fun _ _ => trivial) (fun _ _ =>
      agr_bind (P := fun _ => True) (agr_self fun _ _ => trivial) (fun _ _ => agr_ok ht)))
  | data face mip depth =>
    exact agr_bind (P := fun _ => True) (agr_self fun _ _ => trivial) (fun _ _ =>
      agr_bind (P := fun _ => True) (agr_self fun _ _ => trivial) (fun _ _ => agr_ok ht))

theorem run_agrees_with {U : Image Dbl → Prop} {Fl : ResizeFilter → Prop} {S : ColorSpace → Prop}
    (KU : KeptBy Lm FI U Fl S) (F : LawfulFI (Arith.ieee Lm) FI) (M : EnoughMemory FI) (W : World (Image Dbl))
    {L L' : ImageLib (Image Dbl)} (hL : UsesImages (Arith.ieee Lm) FI L) (hL' : UsesImages (Arith.ieee Lm) FI L')
    {t : Tex (Image Dbl)} (ht : ∀ i, t = some i → Tame (fun g => TexImage Lm g ∧ U g) (fun w h => Counts (w, h)) S i)
    {ops : List (Op (Image Dbl))} (ho : ∀ o ∈ ops, ImageCall (Arith.ieee Lm) o ∧ CallKept U Fl S o) :
    Agr (fun r => ∀ i, r.2 = some i → Tame (fun g => TexImage Lm g ∧ U g) (fun w h => Counts (w, h)) S i)
      (run (withImages W L) t ops) (run (withImages W L') t ops) := by
  induction ops generalizing t with
  | nil => exact agr_ok ht
  | cons o ops ih =>
    exact agr_bind (call_agrees_with KU F M W hL hL' ht (ho o (by simp)).1 (ho o (by simp)).2) (fun r hr =>
      agr_bind (ih hr (fun o h => ho o (List.mem_cons_of_mem _ h))) (fun rs hrs => agr_ok hrs))

theorem run_agrees (F : LawfulFI (Arith.ieee Lm) FI) (M : EnoughMemory FI) (W : World (Image Dbl))
    {L L' : ImageLib (Image Dbl)} (hL : UsesImages (Arith.ieee Lm) FI L) (hL' : UsesImages (Arith.ieee Lm) FI L')
    {t : Tex (Image Dbl)} (ht : ∀ i, t = some i → Tame (TexImage Lm) (fun w h => Counts (w, h)) (fun _ => True) i)
    {ops : List (Op (Image Dbl))} (ho : ∀ o ∈ ops, ImageCall (Arith.ieee Lm) o) :
    Agr (fun r => ∀ i, r.2 = some i → Tame (TexImage Lm) (fun w h => Counts (w, h)) (fun _ => True) i)
      (run (withImages W L) t ops) (run (withImages W L') t ops) := by
  have := run_agrees_with kept_true F M W hL hL' (t := t) (ops := ops) (by simpa only [and_true] using ht)
    (fun o h => ⟨ho o h, by cases o <;> simp [CallKept]⟩)
  simpa only [and_true] using this

end Cuttlefish
