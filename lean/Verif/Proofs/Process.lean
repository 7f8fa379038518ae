import Verif.Model.Process
import Verif.Proofs.ImageKeep
import Verif.Props.C48
import Verif.Spec.Process
/-
The processing of input images by the tool.
-/
namespace Cuttlefish
open Spec
variable {N : Type} {A : Arith N} {FI : FreeImage N}

/-- If there is an image, it satisfies `P`. -/
def Holds (P : Image N → Prop) (o : Img? N) : Prop := ∀ i, o = some i → P i

theorem onValid_holds {P Q : Image N → Prop} {f : Image N → Res (Img? N)} {o o' : Img? N}
    (h : ∀ i j, P i → f i = .ok (some j) → Q j) (ho : Holds P o) (e : onValid f o = .ok o') : Holds Q o' := by
  rintro j rfl
  cases o with
  | none => cases e
  | some i => exact h i j (ho i rfl) e

theorem onPixels_holds {P Q : Image N → Prop} {f : Image N → Res (Image N)} {o o' : Img? N}
    (h : ∀ i j, P i → f i = .ok j → Q j) (ho : Holds P o) (e : onPixels f o = .ok o') : Holds Q o' := by
  refine onValid_holds (fun i j hp e => ?_) ho e
  obtain ⟨k, e1, e2⟩ := Res.bind_eq_ok.1 e
  cases e2
  exact h i j hp e1

theorem whenAsked_holds {P Q : Image N → Prop} {asked : Bool} {f : Img? N → Res (Img? N)} {o o' : Img? N}
    (h : asked = true → ∀ r, f o = .ok r → Holds Q r) (h' : asked = false → ∀ i, P i → Q i) (ho : Holds P o)
    (e : whenAsked asked f o = .ok o') : Holds Q o' := by
  unfold whenAsked at e
  split at e
  · rename_i ha
    exact h ha _ e
  · rename_i ha
    cases e
    exact fun i hi => h' (by simpa using ha) i (ho i hi)

/-- The pixels are pixels of the format; the colour space and the size. -/
structure Looks (A : Arith N) (f : IFormat) (cs : ColorSpace) (s : ℕ × ℕ) (i : Image N) : Prop where
  ok : ImgOk A i
  format : i.format = f
  space : i.colorSpace = cs
  size : (i.bmp.width, i.bmp.height) = s

theorem Like.looks {i j : Image N} {f : IFormat} {cs : ColorSpace} {s : ℕ × ℕ} (h : Like A i j)
    (hi : Looks A f cs s i) : Looks A f cs s j :=
  ⟨h.ok, h.format.trans hi.format, h.space.trans hi.space, by rw [h.width, h.height]; exact hi.size⟩

/-- The size after the rotation. -/
def turnedSize {H : Type} (c : Cmd H) (s : ℕ × ℕ) : ℕ × ℕ :=
  if c.rotate then ((Move.turn c.rotateAngle).place (s, (0, 0))).1 else s

theorem imageSize_eq {H : Type} (c : Cmd H) (s : ℕ × ℕ) (l : ℕ) : imageSize c s l = turnedSize c (levelSize s l) := by
  have h (t : Place) : (place ((if c.flipX then [Move.mirrorX] else []) ++ if c.flipY then [Move.mirrorY] else []) t).1 =
      t.1 := by
    cases c.flipX <;> cases c.flipY <;> rfl
  unfold imageSize jobMoves jobTurn jobFlips turnedSize
  rw [place, List.foldl_append]
  refine (h _).trans ?_
  cases c.rotate <;> rfl

theorem rotate_keep (L : LawfulArith A) (F : LawfulFI A FI) {i j : Image N} {a : RotateAngle} {f : IFormat}
    {cs : ColorSpace} {s : ℕ × ℕ} (hi : Looks A f cs s i) (e : i.rotate A FI a = .ok (some j)) :
    Looks A f cs ((Move.turn a).place (s, (0, 0))).1 j := by
  obtain ⟨r, e', h⟩ := move_spec L F hi.ok (.turn a)
  have e' : i.rotate A FI a = .ok r := e'
  rw [e] at e'
  cases e'
  obtain ⟨h1, h2, h3, h4, -⟩ := h j rfl
  exact ⟨h1, h2.trans hi.format, h3.trans hi.space, by rw [← h4 (0, 0), hi.size]⟩

/-- The size of the image a normal map is made of. -/
def firstSize {H : Type} (c : Cmd H) (s : ℕ × ℕ) (l : ℕ) : ℕ × ℕ := if c.normalMap then s else levelSize s l

/-- The format at the end. -/
def lastFormat {H : Type} (c : Cmd H) : IFormat := if c.normalMap then .RGBF else .RGBAF

/-- The size at the end. -/
def lastSize {H : Type} (c : Cmd H) (s : ℕ × ℕ) (l : ℕ) : ℕ × ℕ :=
  if firstSize c s l = levelSize s l then turnedSize c (levelSize s l) else levelSize s l

theorem convertF_keep (L : LawfulArith A) (F : LawfulFI A FI) {i : Image N} (hi : ImgOk A i) {o : Img? N}
    (e : whenAsked (decide (i.format ≠ .RGBAF)) (onValid (fun i => i.convert A FI .RGBAF true)) (some i) = .ok o) :
    Holds (Looks A .RGBAF i.colorSpace (i.bmp.width, i.bmp.height)) o := by
  rintro j rfl
  unfold whenAsked at e
  split at e
  · obtain ⟨h1, h2, h3, h4, h5⟩ := C48_result L F hi e
    exact ⟨h5, h1, h2, by rw [h3, h4]⟩
  · rename_i hf
    cases e
    exact ⟨hi, by simpa using hf, rfl, rfl⟩

theorem changeF_keep (L : LawfulArith A) {c : Cmd N} {o o' : Img? N} {s : ℕ × ℕ}
    (ho : Holds (Looks A .RGBAF c.imageColorSpace s) o)
    (e : whenAsked (decide (c.textureColorSpace ≠ c.imageColorSpace))
      (onPixels (fun i => i.changeColorSpace A c.textureColorSpace)) o = .ok o') :
    Holds (Looks A .RGBAF c.textureColorSpace s) o' := by
  refine whenAsked_holds (fun _ r er => ?_) (fun hd i hi => ?_) ho e
  · refine onPixels_holds (fun i j hi e => ?_) ho er
    obtain ⟨h1, h2, h3, h4, h5⟩ := changeColorSpace_keep L hi.ok e
    exact ⟨h1, h2.trans hi.format, h3, by rw [h4, h5]; exact hi.size⟩
  · have : c.textureColorSpace = c.imageColorSpace := by simpa using hd
    rw [this]
    exact hi

theorem resizeTo_keep (L : LawfulArith A) (F : LawfulFI A FI) {o o' : Img? N} {w h : ℕ} {filter : ResizeFilter}
    {f : IFormat} {cs : ColorSpace} {s : ℕ × ℕ} (hs : 0 < s.1 ∧ 0 < s.2) (ho : Holds (Looks A f cs s) o)
    (e : resizeTo A FI w h filter o = .ok o') : Holds (fun i => Looks A f cs (w, h) i ∧ 0 < w ∧ 0 < h) o' := by
  unfold resizeTo at e
  split at e
  · refine onValid_holds (fun i j hi e => ?_) ho e
    obtain ⟨h1, h2, h3, h4, h5, h6⟩ := resize_keep L F hi.ok e
    exact ⟨⟨h1, h2.trans hi.format, h3.trans hi.space, by rw [h4, h5]⟩, h6⟩
  · rename_i hn
    cases e
    rintro i rfl
    have hn : w = i.bmp.width ∧ h = i.bmp.height := by
      by_contra hc
      exact hn (by simp only [widthOf, heightOf]; tauto)
    have hi := ho i rfl
    obtain ⟨hw, hh⟩ := hn
    have hsz := hi.size
    rw [← hw, ← hh] at hsz
    rw [← hsz] at hs
    exact ⟨⟨hi.ok, hi.format, hi.space, by rw [hw, hh]⟩, hs⟩

theorem normal_keep (L : LawfulArith A) (F : LawfulFI A FI) {c : Cmd N} {size this : ℕ × ℕ} {orig : IFormat}
    {o : Img? N} {r : Img? N × IFormat} {cs : ColorSpace} {t : ℕ × ℕ}
    (ho : Holds (Looks A .RGBAF cs t) o) (e : toolNormalMap A FI c size this orig o = .ok r) :
    Holds (Looks A (lastFormat c) cs (if c.normalMap = true ∧ size ≠ this then this else t)) r.1 := by
  unfold toolNormalMap at e
  unfold lastFormat
  by_cases hn : c.normalMap = true
  · rw [if_pos hn] at e ⊢
    obtain ⟨o1, e1, e⟩ := Res.bind_eq_ok.1 e
    obtain ⟨o2, e2, e⟩ := Res.bind_eq_ok.1 e
    cases e
    have h1 : Holds (Looks A .RGBF cs t) o1 := by
      refine onValid_holds (fun i j hi e => ?_) ho e1
      obtain ⟨h1, h2, h3, h4, h5⟩ := createNormalMap_keep F L e
      exact ⟨h1, h2, h3.trans hi.space, by rw [h4, h5]; exact hi.size⟩
    by_cases hs : size = this
    · subst hs
      simp only [whenAsked, ne_eq, not_true_eq_false, or_self, decide_false, Bool.false_eq_true, if_false] at e2
      cases e2
      rw [if_neg (by simp)]
      exact h1
    · have : size.1 ≠ this.1 ∨ size.2 ≠ this.2 := by
        by_contra hc
        exact hs (Prod.ext (by tauto) (by tauto))
      rw [whenAsked, if_pos (by simpa using this)] at e2
      rw [if_pos ⟨hn, hs⟩]
      refine onValid_holds (fun i j hi e => ?_) h1 e2
      obtain ⟨a1, a2, a3, a4, a5, -⟩ := resize_keep L F hi.ok e
      exact ⟨a1, a2.trans hi.format, a3.trans hi.space, by rw [a4, a5]⟩
  · rw [if_neg hn] at e ⊢
    cases e
    rw [if_neg (by tauto)]
    exact ho

theorem thisSize_eq {s l k : ℕ} (e : thisSize s l = .ok k) : l < 32 ∧ k = max (s / 2 ^ l) 1 := by
  unfold thisSize at e
  split at e
  · cases e
    exact ⟨by assumption, rfl⟩
  · cases e

/-- What is known about every processed image before its range is adjusted. -/
theorem processLoaded_before (L : LawfulArith A) (F : LawfulFI A FI) {c : Cmd N} {i j : Image N} {w h l : ℕ}
    (hi : ImgOk A i) (hcs : i.colorSpace = c.imageColorSpace) (hpos : 0 < i.bmp.width ∧ 0 < i.bmp.height)
    (e : processLoaded A FI c i w h l = .ok (some j)) :
    ∃ k orig, Looks A (lastFormat c) c.textureColorSpace (lastSize c (w, h) l) k ∧
      adjustImageValueRange A FI k c.type orig = .ok (some j) ∧ l < 32 := by
  unfold processLoaded at e
  obtain ⟨o1, e1, e⟩ := Res.bind_eq_ok.1 e
  obtain ⟨o2, e2, e⟩ := Res.bind_eq_ok.1 e
  obtain ⟨tw, ew, e⟩ := Res.bind_eq_ok.1 e
  obtain ⟨th, eh, e⟩ := Res.bind_eq_ok.1 e
  obtain ⟨hl, rfl⟩ := thisSize_eq ew
  obtain ⟨-, rfl⟩ := thisSize_eq eh
  obtain ⟨o3, e3, e⟩ := Res.bind_eq_ok.1 e
  obtain ⟨o4, e4, e⟩ := Res.bind_eq_ok.1 e
  obtain ⟨o5, e5, e⟩ := Res.bind_eq_ok.1 e
  obtain ⟨n, e6, e⟩ := Res.bind_eq_ok.1 e
  obtain ⟨o7, e7, e⟩ := Res.bind_eq_ok.1 e
  obtain ⟨o8, e8, e⟩ := Res.bind_eq_ok.1 e
  obtain ⟨o9, e9, e⟩ := Res.bind_eq_ok.1 e
  obtain ⟨o10, e10, e⟩ := Res.bind_eq_ok.1 e
  have h1 := convertF_keep L F hi e1
  rw [hcs] at h1
  have h2 := changeF_keep L h1 e2
  have h3 := resizeTo_keep L F hpos h2 e3
  have hsize : (if c.normalMap = true then (w, h) else (max (w / 2 ^ l) 1, max (h / 2 ^ l) 1)) =
      firstSize c (w, h) l := rfl
  rw [Prod.mk.eta, hsize] at h3
  rw [hsize] at e6
  have h3' : Holds (Looks A .RGBAF c.textureColorSpace (firstSize c (w, h) l)) o3 := fun i hi => (h3 i hi).1
  have h4 : Holds (Looks A .RGBAF c.textureColorSpace (turnedSize c (firstSize c (w, h) l))) o4 := by
    unfold turnedSize
    refine whenAsked_holds (fun hr r er => ?_) (fun hr i hi => ?_) h3' e4
    · rw [if_pos hr]
      exact onValid_holds (fun i j hi e => rotate_keep L F hi e) h3' er
    · rw [if_neg (by simp [hr])]
      exact hi
  have h5 : Holds (Looks A .RGBAF c.textureColorSpace (turnedSize c (firstSize c (w, h) l))) o5 :=
    whenAsked_holds (fun hr r er => onPixels_holds (fun i j hi e => (mapPixels_keep L hi.ok e).looks hi) h4 er)
      (fun _ _ hi => hi) h4 e5
  have h6 := normal_keep L F h5 e6
  have hsz : (if c.normalMap = true ∧ firstSize c (w, h) l ≠ (max (w / 2 ^ l) 1, max (h / 2 ^ l) 1) then
      (max (w / 2 ^ l) 1, max (h / 2 ^ l) 1) else turnedSize c (firstSize c (w, h) l)) = lastSize c (w, h) l := by
    unfold lastSize
    by_cases hs : firstSize c (w, h) l = levelSize (w, h) l
    · rw [if_pos hs, if_neg (fun hh => hh.2 hs), hs]
    · have hn : c.normalMap = true := by
        by_contra hn
        exact hs (by unfold firstSize; rw [if_neg hn])
      rw [if_neg hs, if_pos ⟨hn, hs⟩]
      rfl
  rw [hsz] at h6
  have h7 : Holds (Looks A (lastFormat c) c.textureColorSpace (lastSize c (w, h) l)) o7 :=
    whenAsked_holds (fun _ r er => onPixels_holds (fun i j hi e => by
      cases e; exact (flipHorizontal_keep F hi.ok).looks hi) h6 er) (fun _ _ hi => hi) h6 e7
  have h8 : Holds (Looks A (lastFormat c) c.textureColorSpace (lastSize c (w, h) l)) o8 :=
    whenAsked_holds (fun _ r er => onPixels_holds (fun i j hi e => by
      cases e; exact (flipVertical_keep F hi.ok).looks hi) h7 er) (fun _ _ hi => hi) h7 e8
  have h9 : Holds (Looks A (lastFormat c) c.textureColorSpace (lastSize c (w, h) l)) o9 :=
    whenAsked_holds (fun _ r er => onPixels_holds (fun i j hi e => (mapPixels_keep L hi.ok e).looks hi) h8 er)
      (fun _ _ hi => hi) h8 e9
  have h10 : Holds (Looks A (lastFormat c) c.textureColorSpace (lastSize c (w, h) l)) o10 :=
    whenAsked_holds (fun _ r er => onPixels_holds (fun i j hi e => (preMultiplyAlpha_keep L hi.ok e).looks hi) h9 er)
      (fun _ _ hi => hi) h9 e10
  cases o10 with
  | none => cases e
  | some k => exact ⟨k, _, h10 k rfl, e, hl⟩

/-- What is known about every processed image, in every lawful arithmetic. -/
theorem processLoaded_shape (L : LawfulArith A) (F : LawfulFI A FI) {c : Cmd N} {i j : Image N} {w h l : ℕ}
    (hi : ImgOk A i) (hcs : i.colorSpace = c.imageColorSpace) (hpos : 0 < i.bmp.width ∧ 0 < i.bmp.height)
    (e : processLoaded A FI c i w h l = .ok (some j)) :
    j.format = lastFormat c ∧ j.colorSpace = c.textureColorSpace ∧
      (j.bmp.width, j.bmp.height) = lastSize c (w, h) l ∧ l < 32 := by
  obtain ⟨k, orig, hk, e, hl⟩ := processLoaded_before L F hi hcs hpos e
  have hf : k.format ∈ floats := by
    rw [hk.format]
    unfold lastFormat
    split <;> simp [floats]
  obtain ⟨b1, b2, b3, b4⟩ := adjust_keep hf e
  exact ⟨b1.trans hk.format, b2.trans hk.space, by rw [b3, b4]; exact hk.size, hl⟩

end Cuttlefish
