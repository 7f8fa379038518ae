import Verif.Model.TextureConvert
import Verif.Proofs.Store
import Verif.Proofs.Basic
/-
Two image libraries that agree on the images a texture can have give the same runs.
-/
namespace Cuttlefish
variable {Img : Type}

/-- Equal results with a property. -/
def Agr {α : Type} (P : α → Prop) (x y : Res α) : Prop := x = y ∧ ∀ a, x = .ok a → P a

theorem agr_ok {α : Type} {P : α → Prop} {a : α} (h : P a) : Agr P (.ok a) (.ok a) :=
  ⟨rfl, fun _ e => by cases e; exact h⟩

theorem agr_ub {α : Type} {P : α → Prop} : Agr P (.ub : Res α) .ub := ⟨rfl, fun _ e => by cases e⟩

theorem agr_self {α : Type} {P : α → Prop} {x : Res α} (h : ∀ a, x = .ok a → P a) : Agr P x x := ⟨rfl, h⟩

theorem agr_bind {α β : Type} {P : α → Prop} {Q : β → Prop} {x y : Res α} {f g : α → Res β} (h : Agr P x y)
    (hf : ∀ a, P a → Agr Q (f a) (g a)) : Agr Q (x >>= f) (y >>= g) := by
  obtain ⟨rfl, h⟩ := h
  cases x with
  | ub => exact agr_ub
  | ok a => exact hf a (h a rfl)

theorem agr_forRes {α σ : Type} {P : σ → Prop} {f g : α → σ → Res σ} {xs : List α}
    (h : ∀ x ∈ xs, ∀ s, P s → Agr P (f x s) (g x s)) {s : σ} (hs : P s) : Agr P (forRes xs f s) (forRes xs g s) := by
  induction xs generalizing s with
  | nil => exact agr_ok hs
  | cons x xs ih =>
    exact agr_bind (h x (by simp) s hs) (fun a ha => ih (fun y hy => h y (List.mem_cons_of_mem _ hy)) ha)

theorem agr_mapRes {α β : Type} {P : β → Prop} {f g : α → Res β} {xs : List α} (h : ∀ x ∈ xs, Agr P (f x) (g x)) :
    Agr (fun ys => (∀ y ∈ ys, P y) ∧ ys.length = xs.length) (mapRes f xs) (mapRes g xs) := by
  induction xs with
  | nil => exact agr_ok ⟨by simp, rfl⟩
  | cons x xs ih =>
    refine agr_bind (h x (by simp)) (fun y hy => agr_bind (ih (fun z hz => h z (List.mem_cons_of_mem _ hz)))
      (fun ys hys => agr_ok ⟨?_, by simp [hys.2]⟩))
    intro z hz
    rcases List.mem_cons.1 hz with rfl | hz
    exacts [hy, hys.1 z hz]

/-- The image, if there is one. -/
def OptAll (P : Img → Prop) (o : Option Img) : Prop := ∀ g, o = some g → P g

/-- All images of a store. -/
def AllImgs (P : Img → Prop) (s : Store (Option Img)) : Prop := ∀ ds ∈ s, ∀ fs ∈ ds, ∀ o ∈ fs, OptAll P o

/-- The number of slices of every level. -/
def Slim (n : ℕ) (s : Store (Option Img)) : Prop := ∀ ds ∈ s, ds.length ≤ n

theorem get_all {P : Img → Prop} {s : Store (Option Img)} {m d f : ℕ} {o : Option Img} (h : AllImgs P s)
    (e : s.get m d f = .ok o) : OptAll P o := by
  obtain ⟨ds, fs, h1, h2, h3, -⟩ := Store.mem_of_at? (Store.get_ok.1 e)
  exact h ds h1 fs h2 o h3

theorem set_all {P : Img → Prop} {s s' : Store (Option Img)} {m d f : ℕ} {o : Option Img} (h : AllImgs P s)
    (ho : OptAll P o) (e : s.set m d f o = .ok s') : AllImgs P s' := by
  unfold Store.set at e
  split at e
  · cases e
  · rename_i ds hds
    split at e
    · cases e
    · rename_i fs hfs
      split at e
      · cases e
        intro ds' h1 fs' h2 o' h3
        rcases List.mem_or_eq_of_mem_set h1 with h1 | rfl
        · exact h ds' h1 fs' h2 o' h3
        · rcases List.mem_or_eq_of_mem_set h2 with h2 | rfl
          · exact h ds (List.mem_of_getElem? hds) fs' h2 o' h3
          · rcases List.mem_or_eq_of_mem_set h3 with h3 | rfl
            · exact h ds (List.mem_of_getElem? hds) fs (List.mem_of_getElem? hfs) o' h3
            · exact ho
      · cases e

theorem set_slim {n : ℕ} {s s' : Store (Option Img)} {m d f : ℕ} {o : Option Img} (h : Slim n s)
    (e : s.set m d f o = .ok s') : Slim n s' := by
  unfold Store.set at e
  split at e
  · cases e
  · rename_i ds hds
    split at e
    · cases e
    · split at e
      · cases e
        intro ds' h1
        rcases List.mem_or_eq_of_mem_set h1 with h1 | rfl
        · exact h ds' h1
        · rw [List.length_set]
          exact h ds (List.mem_of_getElem? hds)
      · cases e

theorem vresize_mem {α : Type} {l : List α} {n : ℕ} {dflt a : α} (h : a ∈ vresize l n dflt) : a ∈ l ∨ a = dflt := by
  unfold vresize at h
  rcases List.mem_append.1 h with h | h
  · exact Or.inl (List.mem_of_mem_take h)
  · exact Or.inr (List.eq_of_mem_replicate h)

/-- What two libraries have in common: on real images `R`, those of a texture `G`, custom ones `K`, sizes `C`, filters
`Fl` and colour spaces `S`. -/
structure LibsAgree (L L' : ImageLib Img) (R G K : Img → Prop) (C : ℕ → ℕ → Prop) (Fl : ResizeFilter → Prop)
    (S : ColorSpace → Prop) : Prop where
  width : ∀ g, L.width g = L'.width g
  height : ∀ g, L.height g = L'.height g
  store : ∀ g (mv : Bool) cs, S cs → R g → C (L.width g) (L.height g) →
    ((if mv ∧ L.isRGBAF g then some g else L.toRGBAF g).map (fun g => L.changeColorSpace g cs) =
      (if mv ∧ L'.isRGBAF g then some g else L'.toRGBAF g).map (fun g => L'.changeColorSpace g cs)) ∧
    OptAll G ((if mv ∧ L.isRGBAF g then some g else L.toRGBAF g).map (fun g => L.changeColorSpace g cs))
  resize : ∀ g w h filter, Fl filter → G g → C w h → L.resize g w h filter = L'.resize g w h filter ∧
    OptAll (fun g => G g ∧ L.width g = w ∧ L.height g = h) (L.resize g w h filter)
  custom : ∀ g r w h filter, Fl filter → K g → C w h →
    customResult L ⟨some (some g), r⟩ w h filter = customResult L' ⟨some (some g), r⟩ w h filter ∧
    OptAll G (customResult L ⟨some (some g), r⟩ w h filter)
  mip3d : ∀ prev w h depth d cs filter, S cs → Fl filter → prev ≠ [] → prev.length < 2 ^ 31 → d < depth → depth < 2 ^ 32 → C w h →
    (∀ g ∈ prev, G g ∧ L.width g = w ∧ L.height g = h) →
    L.mip3d prev w h depth d cs filter = L'.mip3d prev w h depth d cs filter ∧ G (L.mip3d prev w h depth d cs filter)

/-- The state of a texture. -/
structure Tame (G : Img → Prop) (C : ℕ → ℕ → Prop) (S : ColorSpace → Prop) (t : TexImpl Img) : Prop where
  space : S t.colorSpace
  size : ∀ w h, w ≤ max t.width 1 → h ≤ max t.height 1 → C w h
  all : AllImgs G t.images
  depth : t.dimension = .Dim3D → max t.depth 1 < 2 ^ 31 ∧ Slim (max t.depth 1) t.images

theorem mipExtent_le {e m w : ℕ} (h : mipExtent e m = .ok w) : w ≤ max e 1 := by
  unfold mipExtent shr32 at h
  split at h
  · simp only [Res.ok_bind, Res.pure_eq, Res.ok.injEq] at h
    subst h
    have : e >>> m ≤ e := by rw [Nat.shiftRight_eq_div_pow]; exact Nat.div_le_self _ _
    omega
  · cases h

theorem widthAt_le {t : TexImpl Img} {m w : ℕ} (h : Tex.widthAt (some t) m = .ok w) : w ≤ max t.width 1 := by
  simp only [Tex.widthAt] at h
  split at h
  · cases h; omega
  · exact mipExtent_le h

theorem heightAt_le {t : TexImpl Img} {m w : ℕ} (h : Tex.heightAt (some t) m = .ok w) : w ≤ max t.height 1 := by
  simp only [Tex.heightAt] at h
  split at h
  · cases h; omega
  · exact mipExtent_le h

theorem depthAt_le {t : TexImpl Img} {m w : ℕ} (h : Tex.depthAt (some t) m = .ok w) : w ≤ max t.depth 1 := by
  simp only [Tex.depthAt] at h
  split at h
  · cases h; omega
  · split at h
    · exact mipExtent_le h
    · cases h; omega

section
variable {L L' : ImageLib Img} {R G K : Img → Prop} {C : ℕ → ℕ → Prop} {Fl : ResizeFilter → Prop} {S : ColorSpace → Prop}
  (H : LibsAgree L L' R G K C Fl S)
include H

theorem widthO_agrees : L.widthO = L'.widthO := by
  funext o; cases o <;> simp [ImageLib.widthO, H.width]

theorem heightO_agrees : L.heightO = L'.heightO := by
  funext o; cases o <;> simp [ImageLib.heightO, H.height]

theorem setImage_agrees {t : Tex Img} (ht : ∀ i, t = some i → Tame G C S i) {img : Option Img} (himg : OptAll R img)
    (mv : Bool) (face : Option CubeFace) (mip depth : ℕ) :
    Agr (fun r => ∀ i, r.2 = some i → Tame G C S i) (t.setImage L img mv face mip depth)
      (t.setImage L' img mv face mip depth) := by
  unfold Tex.setImage
  refine agr_bind (P := fun _ => True) (agr_self fun _ _ => trivial) (fun d _ => ?_)
  split
  · exact agr_ok ht
  · refine agr_bind (P := fun w => t.widthAt mip = .ok w) (agr_self fun _ e => e) (fun w hw =>
      agr_bind (P := fun h => t.heightAt mip = .ok h) (agr_self fun _ e => e) (fun h hh => ?_))
    rw [← widthO_agrees H, ← heightO_agrees H]
    split
    · exact agr_ok ht
    · rename_i hs
      push Not at hs
      cases t with
      | none => exact agr_ub
      | some i =>
        have hi := ht i rfl
        dsimp only
        cases hf : faceIndex i.faces face with
        | none => exact agr_ok ht
        | some f =>
          dsimp only
          have fin {o : Option Img} (ho : OptAll G o) : Agr (fun r : Bool × Tex Img => ∀ i, r.2 = some i → Tame G C S i)
              (do let images ← i.images.set mip depth f o; pure (o.isSome, some { i with images }))
              (do let images ← i.images.set mip depth f o; pure (o.isSome, some { i with images })) := by
            refine agr_bind (P := fun s => AllImgs G s ∧ (i.dimension = .Dim3D → Slim (max i.depth 1) s))
              (agr_self fun s e => ⟨set_all hi.all ho e, fun h3 => set_slim (hi.depth h3).2 e⟩) (fun s hs => agr_ok ?_)
            intro j ej
            cases ej
            exact ⟨hi.space, hi.size, hs.1, fun h3 => ⟨(hi.depth h3).1, hs.2 h3⟩⟩
          cases img with
          | none => exact fin (o := none) (fun g e => by cases e)
          | some g =>
            obtain ⟨e, k⟩ := H.store g mv i.colorSpace hi.space (himg g rfl) (by
              have h1 : L.width g = w := hs.1
              have h2 : L.height g = h := hs.2
              rw [h1, h2]
              exact hi.size w h (widthAt_le hw) (heightAt_le hh))
            dsimp only
            rw [← e]
            exact fin k

theorem resizeO_agrees {o : Option Img} (ho : OptAll G o) {w h : ℕ} (hc : C w h) {filter : ResizeFilter} (hf : Fl filter) :
    L.resizeO o w h filter = L'.resizeO o w h filter ∧
    OptAll (fun g => G g ∧ L.width g = w ∧ L.height g = h) (L.resizeO o w h filter) := by
  cases o with
  | none => exact ⟨rfl, fun g e => by cases e⟩
  | some g => exact H.resize g w h filter hf (ho g rfl) hc

theorem customResult_agrees {custom : CustomMips Img} (hk : ∀ e ∈ custom, ∀ g, e.2.image = some (some g) → K g)
    {ix : ImageIndex} {c : CustomMip Img} (hc : CustomMips.find custom ix = some c) {w h : ℕ} (hC : C w h)
    {filter : ResizeFilter} (hf : Fl filter) :
    customResult L c w h filter = customResult L' c w h filter ∧ OptAll G (customResult L c w h filter) := by
  unfold CustomMips.find at hc
  obtain ⟨e, he, rfl⟩ := Option.map_eq_some_iff.1 hc
  have hm := hk e (List.mem_of_find?_eq_some he)
  obtain ⟨ix', img, r⟩ := e
  match img, hm with
  | none, _ => exact ⟨rfl, fun g e => by cases e⟩
  | some none, _ => exact ⟨rfl, fun g e => by cases e⟩
  | some (some g), hm => exact H.custom g r w h filter hf (hm g rfl) hC

theorem genMipImage_agrees {s : Store (Option Img)} (hs : AllImgs G s) {p : Option Img} (hp : OptAll G p) {d f mip w h : ℕ}
    (hc : C w h) {filter : ResizeFilter} (hf : Fl filter) :
    Agr (OptAll G) (genMipImage L s p d f mip w h filter) (genMipImage L' s p d f mip w h filter) := by
  unfold genMipImage
  cases p with
  | some g =>
    obtain ⟨e, k⟩ := H.resize g w h filter hf (hp g rfl) hc
    dsimp only
    rw [← e]
    exact agr_ok (fun g e => (k g e).1)
  | none =>
    refine agr_bind (P := OptAll G) (agr_self fun o e => get_all hs e) (fun o ho => ?_)
    obtain ⟨e, k⟩ := resizeO_agrees H ho hc hf
    rw [← e]
    exact agr_ok (fun g e => (k g e).1)

theorem genMipStep_agrees {t : TexImpl Img} (hC : ∀ w h, w ≤ max t.width 1 → h ≤ max t.height 1 → C w h)
    {filter : ResizeFilter} (hf : Fl filter) {custom : CustomMips Img} (hk : ∀ e ∈ custom, ∀ g, e.2.image = some (some g) → K g)
    {d f mip : ℕ} {face : CubeFace} {st : Store (Option Img) × Option Img} (h1 : AllImgs G st.1) (h2 : OptAll G st.2) :
    Agr (fun st => AllImgs G st.1 ∧ OptAll G st.2) (genMipStep L t filter custom d f mip face st)
      (genMipStep L' t filter custom d f mip face st) := by
  unfold genMipStep
  refine agr_bind (P := fun w => w ≤ max t.width 1) (agr_self fun _ e => widthAt_le e) (fun w hw =>
    agr_bind (P := fun h => h ≤ max t.height 1) (agr_self fun _ e => heightAt_le e) (fun h hh => ?_))
  have hc := hC w h hw hh
  have nn : OptAll G none := fun g e => by cases e
  cases hfind : CustomMips.find custom ⟨face, mip, d⟩ with
  | none =>
    exact agr_bind (genMipImage_agrees H h1 h2 hc hf) (fun o ho =>
      agr_bind (P := AllImgs G) (agr_self fun s e => set_all h1 ho e) (fun s hs => agr_ok ⟨hs, nn⟩))
  | some c =>
    obtain ⟨e, k⟩ := customResult_agrees H hk hfind hc hf
    dsimp only
    rw [← e]
    split
    · exact agr_bind (genMipImage_agrees H h1 h2 hc hf) (fun o ho =>
        agr_bind (P := AllImgs G) (agr_self fun s e => set_all h1 k e) (fun s hs => agr_ok ⟨hs, ho⟩))
    · exact agr_bind (P := AllImgs G) (agr_self fun s e => set_all h1 k e) (fun s hs => agr_ok ⟨hs, nn⟩)

theorem genMipsFlat_agrees {t : TexImpl Img} (hC : ∀ w h, w ≤ max t.width 1 → h ≤ max t.height 1 → C w h)
    (hall : AllImgs G t.images) {filter : ResizeFilter} (hf : Fl filter) {custom : CustomMips Img}
    (hk : ∀ e ∈ custom, ∀ g, e.2.image = some (some g) → K g) :
    Agr (AllImgs G) (genMipsFlat L t filter custom) (genMipsFlat L' t filter custom) := by
  unfold genMipsFlat
  have nn : OptAll G none := fun g e => by cases e
  refine agr_bind (P := fun st : Store (Option Img) × Option Img => AllImgs G st.1 ∧ OptAll G st.2)
    (agr_forRes (fun d _ st hst => agr_forRes (fun f _ st hst => agr_forRes (fun mip _ st hst =>
      genMipStep_agrees H hC hf hk hst.1 hst.2) hst) hst) ⟨?_, nn⟩) (fun r hr => agr_ok hr.1)
  intro ds h1 fs h2 o h3
  obtain ⟨m, hm, e⟩ := List.mem_mapIdx.1 h1
  split at e
  · subst e
    exact hall _ (List.getElem_mem hm) fs h2 o h3
  · subst e
    obtain ⟨fs', h4, rfl⟩ := List.mem_map.1 h2
    rcases vresize_mem h3 with h3 | rfl
    · rcases vresize_mem h4 with h4 | rfl
      · exact hall _ (List.getElem_mem hm) fs' h4 o h3
      · cases h3
    · exact nn

theorem inputs3d_agrees {s : Store (Option Img)} (hs : AllImgs G s) {n : ℕ} (hn : Slim n s) {inp : List (Option Img)}
    (hi : ∀ o ∈ inp, OptAll G o) (hl : inp.length ≤ n) {mip w h : ℕ} (hc : C w h) {filter : ResizeFilter} (hf : Fl filter) :
    Agr (fun os => (∀ o ∈ os, OptAll (fun g => G g ∧ L.width g = w ∧ L.height g = h) o) ∧ os.length ≤ n)
      (inputs3d L s inp mip w h filter) (inputs3d L' s inp mip w h filter) := by
  unfold inputs3d
  split
  · cases hds : s[mip - 1]? with
    | none => exact agr_ub
    | some ds =>
      have hm := List.mem_of_getElem? hds
      obtain ⟨e, k⟩ := agr_mapRes (P := OptAll (fun g => G g ∧ L.width g = w ∧ L.height g = h)) (xs := ds)
        (f := fun fs => match fs with
          | [] => Res.ub
          | i :: _ => .ok (L.resizeO i w h filter))
        (g := fun fs => match fs with
          | [] => Res.ub
          | i :: _ => .ok (L'.resizeO i w h filter)) (by
          intro fs hfs
          cases fs with
          | nil => exact agr_ub
          | cons o fs =>
            obtain ⟨e, k⟩ := resizeO_agrees H (hs ds hm _ hfs o (by simp)) hc hf
            dsimp only
            rw [← e]
            exact agr_ok k)
      exact ⟨e, fun os eo => ⟨(k os eo).1, (k os eo).2.trans_le (hn ds hm)⟩⟩
  · have e : inp.map (fun i => L.resizeO i w h filter) = inp.map (fun i => L'.resizeO i w h filter) :=
      List.map_congr_left (fun o ho => (resizeO_agrees H (hi o ho) hc hf).1)
    rw [← e]
    refine agr_ok ⟨?_, by simpa using hl⟩
    intro o ho
    obtain ⟨o', h1, rfl⟩ := List.mem_map.1 ho
    exact (resizeO_agrees H (hi o' h1) hc hf).2

theorem genSlices3d_agrees {t : TexImpl Img} (hS : S t.colorSpace) {s : Store (Option Img)} (hs : AllImgs G s) {n : ℕ} (hn31 : n < 2 ^ 31)
    (hn : Slim n s) {inp : List (Option Img)} (hi : ∀ o ∈ inp, OptAll G o) (hl : inp.length ≤ n) {mip w h d : ℕ}
    (hd : d ≤ n) (hc : C w h) {filter : ResizeFilter} (hf : Fl filter) :
    Agr (fun os => (∀ o ∈ os, OptAll G o) ∧ os.length ≤ n) (genSlices3d L t s inp mip w h d filter)
      (genSlices3d L' t s inp mip w h d filter) := by
  unfold genSlices3d
  refine agr_bind (inputs3d_agrees H hs hn hi hl hc hf) (fun os ⟨h1, h2⟩ => ?_)
  unfold generateMips3d
  split
  · rename_i hos
    have hne : os.filterMap id ≠ [] := by
      obtain ⟨ha, hb⟩ := hos
      cases os with
      | nil => exact absurd rfl hb
      | cons o os =>
        simp only [List.all_cons, Bool.and_eq_true] at ha
        obtain ⟨g, rfl⟩ := Option.isSome_iff_exists.1 ha.1
        simp
    have hlen : (os.filterMap id).length < 2 ^ 31 :=
      ((List.length_filterMap_le _ _).trans h2).trans_lt hn31
    have hg : ∀ g ∈ os.filterMap id, G g ∧ L.width g = w ∧ L.height g = h := by
      intro g hg
      obtain ⟨o, ho, e⟩ := List.mem_filterMap.1 hg
      exact h1 o ho g e
    have m (k : ℕ) (hk : k < d) := H.mip3d (os.filterMap id) w h d k t.colorSpace filter hS hf hne hlen hk (by omega) hc hg
    have e : (List.range d).map (fun i => some (L.mip3d (os.filterMap id) w h d i t.colorSpace filter)) =
        (List.range d).map (fun i => some (L'.mip3d (os.filterMap id) w h d i t.colorSpace filter)) :=
      List.map_congr_left (fun k hk => by rw [(m k (List.mem_range.1 hk)).1])
    dsimp only
    rw [← e]
    refine agr_ok ⟨?_, by simpa using hd⟩
    intro o ho g eg
    obtain ⟨k, hk, rfl⟩ := List.mem_map.1 ho
    cases eg
    exact (m k (List.mem_range.1 hk)).2
  · exact agr_ub

theorem customSlices3d_agrees {custom : CustomMips Img} (hk : ∀ e ∈ custom, ∀ g, e.2.image = some (some g) → K g)
    {mip w h d : ℕ} (hc : C w h) {filter : ResizeFilter} (hf : Fl filter) :
    Agr (fun os => (∀ o ∈ os, OptAll G o) ∧ os.length = d) (customSlices3d L custom mip w h d filter)
      (customSlices3d L' custom mip w h d filter) := by
  unfold customSlices3d
  obtain ⟨e, k⟩ := agr_mapRes (P := OptAll G) (xs := List.range d)
    (f := fun d => match CustomMips.find custom ⟨.PosX, mip, d⟩ with
      | none => Res.ub
      | some c => .ok (customResult L c w h filter))
    (g := fun d => match CustomMips.find custom ⟨.PosX, mip, d⟩ with
      | none => Res.ub
      | some c => .ok (customResult L' c w h filter)) (by
      intro i _
      cases hfd : CustomMips.find custom ⟨.PosX, mip, i⟩ with
      | none => exact agr_ub
      | some c =>
        obtain ⟨e, k⟩ := customResult_agrees H hk hfd hc hf
        dsimp only
        rw [← e]
        exact agr_ok k)
  exact ⟨e, fun os eo => ⟨(k os eo).1, by simpa using (k os eo).2⟩⟩

theorem putSlices3d_keeps {s s' : Store (Option Img)} (hs : AllImgs G s) {n : ℕ} (hn : Slim n s) {mip : ℕ}
    {os : List (Option Img)} (ho : ∀ o ∈ os, OptAll G o) (hl : os.length ≤ n) (e : putSlices3d s mip os = .ok s') :
    AllImgs G s' ∧ Slim n s' := by
  unfold putSlices3d at e
  split at e
  · cases e
    constructor
    · intro ds h1 fs h2 o h3
      rcases List.mem_or_eq_of_mem_set h1 with h1 | rfl
      · exact hs ds h1 fs h2 o h3
      · obtain ⟨o', h4, rfl⟩ := List.mem_map.1 h2
        rw [List.mem_singleton] at h3
        subst h3
        exact ho _ h4
    · intro ds h1
      rcases List.mem_or_eq_of_mem_set h1 with h1 | rfl
      · exact hn ds h1
      · simpa using hl
  · cases e

theorem genMip3dStep_agrees {t : TexImpl Img} (hS : S t.colorSpace) (hC : ∀ w h, w ≤ max t.width 1 → h ≤ max t.height 1 → C w h)
    (ht : max t.depth 1 < 2 ^ 31) {filter : ResizeFilter} (hf : Fl filter) {custom : CustomMips Img}
    (hk : ∀ e ∈ custom, ∀ g, e.2.image = some (some g) → K g) {mip : ℕ} {s : Store (Option Img)}
    {inp : List (Option Img)} (hs : AllImgs G s) (hn : Slim (max t.depth 1) s) (hi : ∀ o ∈ inp, OptAll G o)
    (hl : inp.length ≤ max t.depth 1) :
    Agr (fun r => ∀ s' inp', r = some (s', inp') → (AllImgs G s' ∧ Slim (max t.depth 1) s') ∧
      (∀ o ∈ inp', OptAll G o) ∧ inp'.length ≤ max t.depth 1)
      (genMip3dStep L t filter custom mip s inp) (genMip3dStep L' t filter custom mip s inp) := by
  unfold genMip3dStep
  refine agr_bind (P := fun w => w ≤ max t.width 1) (agr_self fun _ e => widthAt_le e) (fun w hw =>
    agr_bind (P := fun h => h ≤ max t.height 1) (agr_self fun _ e => heightAt_le e) (fun h hh =>
    agr_bind (P := fun d => d ≤ max t.depth 1) (agr_self fun _ e => depthAt_le e) (fun d hd => ?_)))
  have hc := hC w h hw hh
  have gen := genSlices3d_agrees H (t := t) hS hs ht hn hi hl (mip := mip) hd hc hf
  match customScan3d custom mip (List.range d) (false, .Once) with
  | none => exact agr_ok (fun _ _ e => by cases e)
  | some (false, _) =>
    refine agr_bind gen (fun os ⟨h1, h2⟩ =>
      agr_bind (P := fun s' => AllImgs G s' ∧ Slim (max t.depth 1) s')
        (agr_self fun s' e => putSlices3d_keeps H hs hn h1 h2 e) (fun s' hs' => agr_ok ?_))
    intro _ _ e
    cases e
    exact ⟨hs', by simp⟩
  | some (true, r) =>
    dsimp only
    have rest (inp' : List (Option Img)) (hinp : (∀ o ∈ inp', OptAll G o) ∧ inp'.length ≤ max t.depth 1) :
        Agr (fun r => ∀ s' inp', r = some (s', inp') → (AllImgs G s' ∧ Slim (max t.depth 1) s') ∧
          (∀ o ∈ inp', OptAll G o) ∧ inp'.length ≤ max t.depth 1)
        (do
          let slices ← customSlices3d L custom mip w h d filter
          let images' ← putSlices3d s mip slices
          pure (some (images', inp')))
        (do
          let slices ← customSlices3d L' custom mip w h d filter
          let images' ← putSlices3d s mip slices
          pure (some (images', inp'))) := by
      refine agr_bind (customSlices3d_agrees H hk hc hf) (fun os ⟨h1, h2⟩ =>
        agr_bind (P := fun s' => AllImgs G s' ∧ Slim (max t.depth 1) s')
          (agr_self fun s' e => putSlices3d_keeps H hs hn h1 (h2.trans_le hd) e) (fun s' hs' => agr_ok ?_))
      intro _ _ e
      cases e
      exact ⟨hs', hinp⟩
    split
    · exact agr_bind gen rest
    · exact agr_bind (agr_ok (a := []) ⟨by simp, by simp⟩) rest

theorem genMips3dLoop_agrees {t : TexImpl Img} (hS : S t.colorSpace) (hC : ∀ w h, w ≤ max t.width 1 → h ≤ max t.height 1 → C w h)
    (ht : max t.depth 1 < 2 ^ 31) {filter : ResizeFilter} (hf : Fl filter) {custom : CustomMips Img}
    (hk : ∀ e ∈ custom, ∀ g, e.2.image = some (some g) → K g) {mips : List ℕ} {s : Store (Option Img)}
    {inp : List (Option Img)} (hs : AllImgs G s) (hn : Slim (max t.depth 1) s) (hi : ∀ o ∈ inp, OptAll G o)
    (hl : inp.length ≤ max t.depth 1) :
    Agr (fun r => AllImgs G r.2 ∧ Slim (max t.depth 1) r.2)
      (genMips3dLoop L t filter custom mips s inp) (genMips3dLoop L' t filter custom mips s inp) := by
  induction mips generalizing s inp with
  | nil => exact agr_ok ⟨hs, hn⟩
  | cons mip mips ih =>
    unfold genMips3dLoop
    refine agr_bind (genMip3dStep_agrees H hS hC ht hf hk hs hn hi hl) (fun r hr => ?_)
    match r, hr with
    | none, _ => exact agr_ok ⟨hs, hn⟩
    | some (s', inp'), hr =>
      obtain ⟨⟨h1, h2⟩, h3, h4⟩ := hr s' inp' rfl
      exact ih h1 h2 h3 h4

theorem generateMipmaps_agrees {t : Tex Img} (ht : ∀ i, t = some i → Tame G C S i) {filter : ResizeFilter} (hf : Fl filter) (levels : ℕ)
    {custom : CustomMips Img} (hk : ∀ e ∈ custom, ∀ g, e.2.image = some (some g) → K g) :
    Agr (fun r => ∀ i, r.2 = some i → Tame G C S i) (t.generateMipmaps L filter levels custom)
      (t.generateMipmaps L' filter levels custom) := by
  unfold Tex.generateMipmaps
  cases t with
  | none => exact agr_ok ht
  | some i =>
    obtain ⟨hS, hC, hall, hdep⟩ := ht i rfl
    dsimp only
    cases h0 : i.images[0]? with
    | none => exact agr_ub
    | some level0 =>
      dsimp only
      split
      · exact agr_ok ht
      · split
        · exact agr_ok ht
        · refine agr_bind (P := fun _ => True) (agr_self fun _ _ => trivial) (fun w _ =>
            agr_bind (P := fun _ => True) (agr_self fun _ _ => trivial) (fun h _ =>
            agr_bind (P := fun _ => True) (agr_self fun _ _ => trivial) (fun d _ => ?_)))
          have hall' (n : ℕ) : AllImgs G (vresize i.images n []) := by
            intro ds h1 fs h2 o h3
            rcases vresize_mem h1 with h1 | rfl
            · exact hall ds h1 fs h2 o h3
            · cases h2
          split
          · rename_i h3
            refine agr_bind (genMips3dLoop_agrees H (t := { i with
                mipLevels := min (max levels 1) (maxMipmapLevels i.dimension w h d)
                images := vresize i.images (min (max levels 1) (maxMipmapLevels i.dimension w h d)) [] }) hS hC (hdep h3).1
              hf hk (hall' _) ?_ (by simp) (by simp)) (fun r hr => agr_ok ?_)
            · intro ds h1
              rcases vresize_mem h1 with h1 | rfl
              · exact (hdep h3).2 ds h1
              · simp
            · intro j ej
              cases ej
              exact ⟨hS, hC, hr.1, fun _ => ⟨(hdep h3).1, hr.2⟩⟩
          · rename_i h3
            refine agr_bind (genMipsFlat_agrees H (t := { i with
                mipLevels := min (max levels 1) (maxMipmapLevels i.dimension w h d)
                images := vresize i.images (min (max levels 1) (maxMipmapLevels i.dimension w h d)) [] }) hC (hall' _) hf hk)
              (fun s hs => agr_ok ?_)
            intro j ej
            cases ej
            exact ⟨hS, hC, hs, fun h => absurd h h3⟩

end

theorem convFaces_keeps {P : Img → Prop} {c : Features} {enc : Encoder Img} {a : ConvArgs} {gs : List (Option Img)}
    (h : ∀ o ∈ gs, OptAll P o) {r : Bool × List (Option Img) × List (List UInt8)} (e : convFaces c enc a gs = .ok r) :
    ∀ o ∈ r.2.1, OptAll P o := by
  induction gs generalizing r with
  | nil => cases e; exact h
  | cons g gs ih =>
    unfold convFaces at e
    split at e
    · cases e; exact h
    · split at e
      · cases e
      · obtain ⟨b, -, e⟩ := Res.bind_eq_ok.1 e
        obtain ⟨⟨ok, gs', bs⟩, e1, e2⟩ := Res.bind_eq_ok.1 e
        cases e2
        intro o ho
        rcases List.mem_cons.1 ho with rfl | ho
        · exact fun g e => by cases e
        · exact ih (fun o ho => h o (List.mem_cons_of_mem _ ho)) e1 o ho

theorem convDepths_keeps {P : Img → Prop} {c : Features} {enc : Encoder Img} {a : ConvArgs}
    {ds : List (List (Option Img))} (h : ∀ fs ∈ ds, ∀ o ∈ fs, OptAll P o)
    {r : Bool × List (List (Option Img)) × List (List (List UInt8))} (e : convDepths c enc a ds = .ok r) :
    (∀ fs ∈ r.2.1, ∀ o ∈ fs, OptAll P o) ∧ r.2.1.length = ds.length := by
  induction ds generalizing r with
  | nil => cases e; exact ⟨h, rfl⟩
  | cons fs ds ih =>
    unfold convDepths at e
    obtain ⟨⟨ok, fs', bs⟩, e1, e⟩ := Res.bind_eq_ok.1 e
    have k1 := convFaces_keeps (h fs (by simp)) e1
    dsimp only at e k1
    split at e
    · obtain ⟨⟨ok', ds', bss⟩, e2, e⟩ := Res.bind_eq_ok.1 e
      cases e
      obtain ⟨k2, k3⟩ := ih (fun fs hf => h fs (List.mem_cons_of_mem _ hf)) e2
      dsimp only at k2 k3 ⊢
      refine ⟨?_, by simp [k3]⟩
      intro f hf
      rcases List.mem_cons.1 hf with rfl | hf
      exacts [k1, k2 f hf]
    · cases e
      refine ⟨?_, rfl⟩
      intro f hf
      rcases List.mem_cons.1 hf with rfl | hf
      exacts [k1, h f (List.mem_cons_of_mem _ hf)]

theorem convMips_keeps {P : Img → Prop} {c : Features} {enc : Encoder Img} {a : ConvArgs} {s : Store (Option Img)}
    (h : AllImgs P s) {n : ℕ} {r : Bool × Store (Option Img) × Store (List UInt8)} (e : convMips c enc a s = .ok r) :
    AllImgs P r.2.1 ∧ (Slim n s → Slim n r.2.1) := by
  induction s generalizing r with
  | nil => cases e; exact ⟨h, id⟩
  | cons ds s ih =>
    unfold convMips at e
    obtain ⟨⟨ok, ds', bs⟩, e1, e⟩ := Res.bind_eq_ok.1 e
    obtain ⟨k1, k2⟩ := convDepths_keeps (h ds (by simp)) e1
    dsimp only at e k1 k2
    have hs : AllImgs P s := fun d hd => h d (List.mem_cons_of_mem _ hd)
    split at e
    · obtain ⟨⟨ok', s', bss⟩, e2, e⟩ := Res.bind_eq_ok.1 e
      cases e
      obtain ⟨k3, k4⟩ := ih hs e2
      constructor
      · intro d hd
        rcases List.mem_cons.1 hd with rfl | hd
        exacts [k1, k3 d hd]
      · intro sl d hd
        rcases List.mem_cons.1 hd with rfl | hd
        · rw [k2]; exact sl ds (by simp)
        · exact k4 (fun d hd => sl d (List.mem_cons_of_mem _ hd)) d hd
    · cases e
      constructor
      · intro d hd
        rcases List.mem_cons.1 hd with rfl | hd
        exacts [k1, hs d hd]
      · intro sl d hd
        rcases List.mem_cons.1 hd with rfl | hd
        · rw [k2]; exact sl ds (by simp)
        · exact sl d (List.mem_cons_of_mem _ hd)

theorem convert_keeps {G : Img → Prop} {C : ℕ → ℕ → Prop} {S : ColorSpace → Prop} {t : Tex Img} (ht : ∀ i, t = some i → Tame G C S i)
    {c : Features} {hw : ℕ} {enc : Encoder Img} {f : Format} {ty : TType} {q : Quality} {al : Alpha} {m : ColorMask}
    {th : ℕ} {r : Bool × Tex Img} (e : t.convert c hw enc f ty q al m th = .ok r) : ∀ i, r.2 = some i → Tame G C S i := by
  unfold Tex.convert at e
  split at e
  · cases e; exact ht
  · split at e
    · cases e
    · rename_i i _
      have hi := ht i rfl
      split at e
      · cases e; exact ht
      · obtain ⟨⟨ok, s, bs⟩, e1, e⟩ := Res.bind_eq_ok.1 e
        have k := fun n => convMips_keeps (n := n) hi.all e1
        dsimp only at e k
        split at e <;> cases e <;> intro j ej <;> cases ej <;>
          exact ⟨hi.space, hi.size, (k 0).1, fun h3 => ⟨(hi.depth h3).1, (k _).2 (hi.depth h3).2⟩⟩

end Cuttlefish
