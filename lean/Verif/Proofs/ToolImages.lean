import Verif.Proofs.AdjustOk
import Verif.Proofs.ImageRuns
import Verif.Model.ToolMain
/-
The whole tool with two image libraries.
-/
namespace Cuttlefish
open Spec
variable {Lm : Libm} {FI : FreeImage Dbl} {σ : Type}

variable {E : ToolEnv (Image Dbl) Dbl σ}

theorem loadMain_with (L : ImageLib (Image Dbl)) (c : Cmd Dbl) (ps : List Str) (w h : ℕ) :
    loadMain (toolWith E L) c ps w h = loadMain E c ps w h := by
  induction ps generalizing w h with
  | nil => rfl
  | cons p ps ih =>
    unfold loadMain
    simp only [ih]
    rfl

theorem loadCustom_with (L : ImageLib (Image Dbl)) (c : Cmd Dbl) (m : ℕ) (ms : CustomMipFiles) (w h : ℕ) :
    loadCustom (toolWith E L) c m ms w h = loadCustom E c m ms w h := by
  induction ms generalizing w h with
  | nil => rfl
  | cons p ps ih =>
    unfold loadCustom
    simp only [ih]
    rfl

theorem loadImages_with (L : ImageLib (Image Dbl)) (c : Cmd Dbl) : loadImages (toolWith E L) c = loadImages E c := by
  unfold loadImages
  simp only [loadMain_with, loadCustom_with]

/-- What is known of every image that `load` makes. -/
theorem load_ok (F : LawfulFI (Arith.ieee Lm) FI) {read : Str → ColorSpace → Img? Dbl}
    (R : LoadsWell (Arith.ieee Lm) read) (hE : E.load = loadAndProcess (Arith.ieee Lm) FI read) {c : Cmd Dbl} {p : Str}
    {w h l w' h' : ℕ} {g : Image Dbl} (e : E.load c p w h l = .ok (some (some g, w', h'))) :
    ImgOk (Arith.ieee Lm) g ∧ g.format ∈ floats := by
  rw [hE] at e
  unfold loadAndProcess at e
  cases hr : read p c.imageColorSpace with
  | none => rw [hr] at e; cases e
  | some i =>
    rw [hr] at e
    obtain ⟨o, eo, e⟩ := Res.bind_eq_ok.1 e
    cases e
    obtain ⟨h1, h2, h3⟩ := R _ _ _ hr
    exact processLoaded_ok F h1 h2 ⟨h3.1, h3.2.1⟩ eo

theorem loadMain_ok (F : LawfulFI (Arith.ieee Lm) FI) {read : Str → ColorSpace → Img? Dbl}
    (R : LoadsWell (Arith.ieee Lm) read) (hE : E.load = loadAndProcess (Arith.ieee Lm) FI read) {c : Cmd Dbl}
    {ps : List Str} {w h : ℕ} {r : List (Option (Image Dbl)) × ℕ × ℕ} (e : loadMain E c ps w h = .ok (some r)) :
    ∀ g, some g ∈ r.1 → ImgOk (Arith.ieee Lm) g ∧ g.format ∈ floats := by
  induction ps generalizing w h r with
  | nil => cases e; simp
  | cons p ps ih =>
    simp only [loadMain, Res.bind_eq_ok] at e
    obtain ⟨o, ho, e⟩ := e
    cases o with
    | none => simp at e
    | some o =>
      simp only [Res.bind_eq_ok] at e
      obtain ⟨q, hq, e⟩ := e
      cases q with
      | none => simp at e
      | some q =>
        simp only [Res.ok.injEq, Option.some.injEq] at e
        subst e
        intro g hg
        rcases List.mem_cons.1 hg with hg | hg
        · obtain ⟨o1, o2, o3⟩ := o
          cases hg
          exact load_ok F R hE ho
        · exact ih hq g hg

theorem loadCustom_ok (F : LawfulFI (Arith.ieee Lm) FI) {read : Str → ColorSpace → Img? Dbl}
    (R : LoadsWell (Arith.ieee Lm) read) (hE : E.load = loadAndProcess (Arith.ieee Lm) FI read) {c : Cmd Dbl} {m : ℕ}
    {ms : CustomMipFiles} {w h : ℕ} {r : CustomMips (Image Dbl)} (e : loadCustom E c m ms w h = .ok (some r)) :
    ∀ x ∈ r, ∀ g, x.2.image = some (some g) → ImgOk (Arith.ieee Lm) g ∧ g.format ∈ floats := by
  induction ms generalizing w h r with
  | nil => cases e; simp
  | cons p ps ih =>
    unfold loadCustom at e
    split at e
    · cases e
    split at e
    · cases e
    simp only [Res.bind_eq_ok] at e
    obtain ⟨o, ho, e⟩ := e
    cases o with
    | none => simp at e
    | some o =>
      simp only [Res.bind_eq_ok] at e
      obtain ⟨q, hq, e⟩ := e
      cases q with
      | none => simp at e
      | some q =>
        simp only [Res.ok.injEq, Option.some.injEq] at e
        subst e
        intro x hx g hg
        rcases List.mem_cons.1 hx with hx | hx
        · obtain ⟨o1, o2, o3⟩ := o
          subst hx
          cases hg
          exact load_ok F R hE ho
        · exact ih hq x hx g hg

theorem loadImages_ok (F : LawfulFI (Arith.ieee Lm) FI) {read : Str → ColorSpace → Img? Dbl}
    (R : LoadsWell (Arith.ieee Lm) read) (hE : E.load = loadAndProcess (Arith.ieee Lm) FI read) {c : Cmd Dbl}
    {r : List (Option (Image Dbl)) × CustomMips (Image Dbl)} (e : loadImages E c = .ok (some r)) :
    (∀ g, some g ∈ r.1 → ImgOk (Arith.ieee Lm) g ∧ g.format ∈ floats) ∧
    ∀ x ∈ r.2, ∀ g, x.2.image = some (some g) → ImgOk (Arith.ieee Lm) g ∧ g.format ∈ floats := by
  simp only [loadImages, Res.bind_eq_ok] at e
  obtain ⟨o, ho, e⟩ := e
  cases o with
  | none => simp at e
  | some o =>
    simp only [Res.bind_eq_ok] at e
    obtain ⟨q, hq, e⟩ := e
    cases q with
    | none => simp at e
    | some q =>
      simp only [Res.ok.injEq, Option.some.injEq] at e
      subst e
      exact ⟨loadMain_ok F R hE ho, loadCustom_ok F R hE hq⟩

theorem putImages_agrees (F : LawfulFI (Arith.ieee Lm) FI) (M : EnoughMemory FI) {L L' : ImageLib (Image Dbl)}
    (hL : UsesImages (Arith.ieee Lm) FI L) (hL' : UsesImages (Arith.ieee Lm) FI L') (k : ImageType)
    {images : List (Option (Image Dbl))} (hi : ∀ g, some g ∈ images → RealImage (Arith.ieee Lm) g) {n : ℕ}
    {t : Tex (Image Dbl)} (ht : ∀ i, t = some i → Tame (TexImage Lm) (fun w h => Counts (w, h)) (fun _ => True) i) :
    Agr (fun t => ∀ i, t = some i → Tame (TexImage Lm) (fun w h => Counts (w, h)) (fun _ => True) i)
      (putImages (toolWith E L) k n images t) (putImages (toolWith E L') k n images t) := by
  induction images generalizing n t with
  | nil => exact agr_ok ht
  | cons g gs ih =>
    exact agr_bind (setImage_agrees (images_agree F M hL hL') ht (fun g' e => hi g' (by simp [e])) _ _ _ _)
      (fun r hr => ih (fun g h => hi g (List.mem_cons_of_mem _ h)) hr)

theorem saveTexture_agrees (F : LawfulFI (Arith.ieee Lm) FI) (M : EnoughMemory FI) {L L' : ImageLib (Image Dbl)}
    (hL : UsesImages (Arith.ieee Lm) FI L) (hL' : UsesImages (Arith.ieee Lm) FI L') (c : Cmd Dbl)
    {images : List (Option (Image Dbl))} (hi : ∀ g, some g ∈ images → RealImage (Arith.ieee Lm) g ∧ Spec.Countable g)
    (hn : images.length < 2 ^ 31) {custom : CustomMips (Image Dbl)}
    (hc : ∀ e ∈ custom, ∀ g, e.2.image = some (some g) →
      RealImage (Arith.ieee Lm) g ∧ IsFloat g.format ∧ Spec.Countable g) (s : σ) :
    saveTexture (toolWith E L) c images custom s = saveTexture (toolWith E L') c images custom s := by
  cases images with
  | nil => rfl
  | cons first rest =>
    have e1 : L.widthO first = L'.widthO first ∧ L.heightO first = L'.heightO first ∧
        Counts (L'.widthO first, L'.heightO first) := by
      cases first with
      | none => exact ⟨rfl, rfl, by simp [ImageLib.widthO, ImageLib.heightO, Counts]⟩
      | some g =>
        obtain ⟨-, -, -, h1, h2, h3⟩ := hi g (by simp)
        simp only [ImageLib.widthO, ImageLib.heightO, hL.width, hL.height, hL'.width, hL'.height]
        exact ⟨trivial, trivial, h1, h2, h3⟩
    have hd : toolDepth c.imageType (first :: rest).length < 2 ^ 31 := by
      unfold toolDepth
      split
      · exact (Nat.mod_le _ _).trans_lt hn
      · exact (Nat.mod_le _ _).trans_lt ((Nat.div_le_self _ _).trans_lt hn)
      · norm_num
    show (do
      let t := (Tex.initialize none c.dimension (L.widthO first) (L.heightO first)
        (toolDepth c.imageType (first :: rest).length) 1 c.textureColorSpace).2
      let t ← putImages (toolWith E L) c.imageType 0 (first :: rest) t
      let t ← toolMips (toolWith E L) c custom t
      let r ← t.convert E.world.feat E.world.hw E.world.enc c.format c.type c.quality c.alpha c.colorMask c.jobs
      if r.1 then saveAll (toolWith E L) c r.2 s else .ok (false, s)) = (do
      let t := (Tex.initialize none c.dimension (L'.widthO first) (L'.heightO first)
        (toolDepth c.imageType (first :: rest).length) 1 c.textureColorSpace).2
      let t ← putImages (toolWith E L') c.imageType 0 (first :: rest) t
      let t ← toolMips (toolWith E L') c custom t
      let r ← t.convert E.world.feat E.world.hw E.world.enc c.format c.type c.quality c.alpha c.colorMask c.jobs
      if r.1 then saveAll (toolWith E L') c r.2 s else .ok (false, s))
    rw [e1.1, e1.2.1]
    refine (agr_bind (P := fun t => ∀ i, t = some i → Tame (TexImage Lm) (fun w h => Counts (w, h)) (fun _ => True) i)
      (Q := fun _ => True) (putImages_agrees F M hL hL' _ (fun g hg => (hi g hg).1)
      (initialize_tame trivial e1.2.2 (fun _ => hd))) (fun t ht => ?_)).1
    refine agr_bind (P := fun _ => True) ?_ (fun t _ => ⟨rfl, fun _ _ => trivial⟩)
    unfold toolMips
    split
    · exact agr_bind (P := fun _ => True)
        ⟨(generateMipmaps_agrees (images_agree F M hL hL') ht trivial _ hc).1, fun _ _ => trivial⟩ (fun _ _ => agr_ok trivial)
    · exact agr_ok trivial

end Cuttlefish
