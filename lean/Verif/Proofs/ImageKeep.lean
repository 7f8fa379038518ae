import Verif.Proofs.ImageMap
import Verif.Proofs.ImageConvert
import Verif.Model.Adjust
import Verif.Spec.Adjust
/-
What every method of an image keeps, if it is defined: format, colour space, size, and that the pixels are pixels of
the format.
-/
namespace Cuttlefish
open Spec
variable {N : Type} {A : Arith N} {FI : FreeImage N}

/-- An image like `i`: the pixels are pixels of the same format; colour space and size are the same. -/
structure Like (A : Arith N) (i j : Image N) : Prop where
  ok : ImgOk A j
  format : j.format = i.format
  space : j.colorSpace = i.colorSpace
  width : j.bmp.width = i.bmp.width
  height : j.bmp.height = i.bmp.height

theorem Like.refl {i : Image N} (h : ImgOk A i) : Like A i i := ⟨h, rfl, rfl, rfl, rfl⟩

theorem Like.trans {i j k : Image N} (h : Like A i j) (h' : Like A j k) : Like A i k :=
  ⟨h'.ok, h'.format.trans h.format, h'.space.trans h.space, h'.width.trans h.width, h'.height.trans h.height⟩

theorem Like.put {i j k : Image N} (h : Like A i j) {y x : Nat} {p : Px N} (hp : PxOk A i.format p)
    (e : j.put y x p = .ok k) : Like A i k := by
  obtain ⟨b, eb, e⟩ := Res.bind_eq_ok.1 e
  cases e
  unfold Bitmap.write at eb
  split at eb
  · cases eb
    refine ⟨?_, h.format, h.space, h.width, h.height⟩
    intro y' x' hy' hx'
    dsimp only at hy' hx' ⊢
    split
    · rw [h.format]; exact hp
    · exact h.ok _ _ hy' hx'
  · cases eb

theorem Like.set (L : LawfulArith A) {i j k : Image N} (h : Like A i j) {y x : Nat} {c : Color N}
    (e : j.set A y x c = .ok k) : Like A i k := by
  obtain ⟨p, ep, e⟩ := Res.bind_eq_ok.1 e
  rw [h.format] at ep
  exact h.put (set_px L ep) e

/-- Loops over all pixels. -/
theorem Like.loops {i j : Image N} {hs ws : List Nat} {body : Nat → Nat → Image N → Res (Image N)}
    (hb : ∀ y x s s', Like A i s → body y x s = .ok s' → Like A i s') (hi : ImgOk A i)
    (h : loop hs (fun y d => loop ws (body y) d) i = .ok j) : Like A i j := by
  refine loop_keeps (P := Like A i) ?_ (.refl hi) h
  intro y s s' _ h e
  exact loop_keeps (P := Like A i) (fun x s s' _ h e => hb y x s s' h e) h e

theorem mapPixels_keep (L : LawfulArith A) {i j : Image N} {f : Color N → Color N} (hi : ImgOk A i)
    (h : i.mapPixels A f = .ok j) : Like A i j := by
  refine Like.loops ?_ hi h
  intro y x s s' hs e
  obtain ⟨c, -, e⟩ := Res.bind_eq_ok.1 e
  exact hs.set L e

theorem fillPixels_keep (L : LawfulArith A) {i j : Image N} {w h : Nat} {f : Nat → Nat → Res (Color N)}
    (hi : ImgOk A i) (e : fillPixels A i w h f = .ok j) : Like A i j := by
  refine Like.loops ?_ hi e
  intro y x s s' hs e
  obtain ⟨c, -, e⟩ := Res.bind_eq_ok.1 e
  exact hs.set L e

theorem changeColorSpace_keep (L : LawfulArith A) {i j : Image N} {cs : ColorSpace} (hi : ImgOk A i)
    (h : i.changeColorSpace A cs = .ok j) :
    ImgOk A j ∧ j.format = i.format ∧ j.colorSpace = cs ∧ j.bmp.width = i.bmp.width ∧
      j.bmp.height = i.bmp.height := by
  unfold Image.changeColorSpace at h
  split at h
  · rename_i hcs
    cases h
    exact ⟨hi, rfl, hcs.symm, rfl, rfl⟩
  · obtain ⟨k, e, h⟩ := Res.bind_eq_ok.1 h
    cases h
    have := mapPixels_keep L hi e
    exact ⟨this.ok, this.format, rfl, this.width, this.height⟩

theorem preMultiplyAlpha_keep (L : LawfulArith A) {i j : Image N} (hi : ImgOk A i)
    (h : i.preMultiplyAlpha A = .ok j) : Like A i j := by
  unfold Image.preMultiplyAlpha at h
  split at h
  · exact mapPixels_keep L hi h
  · cases h
    exact .refl hi

theorem flipHorizontal_keep (F : LawfulFI A FI) {i : Image N} (hi : ImgOk A i) : Like A i (i.flipHorizontal FI).2 := by
  obtain ⟨h1, h2, h3⟩ := F.flipHorizontal i.bmp
  refine ⟨?_, rfl, rfl, h1, h2⟩
  intro y x hy hx
  have hy' : y < i.bmp.height := by rw [← h2]; exact hy
  have hx' : x < i.bmp.width := by rw [← h1]; exact hx
  have := h3 y x hy' hx'
  simp only [Image.flipHorizontal]
  rw [this]
  split
  · exact hi _ _ hy' (by omega)
  · exact hi _ _ hy' hx'

theorem flipVertical_keep (F : LawfulFI A FI) {i : Image N} (hi : ImgOk A i) : Like A i (i.flipVertical FI).2 := by
  obtain ⟨h1, h2, h3⟩ := F.flipVertical i.bmp
  refine ⟨?_, rfl, rfl, h1, h2⟩
  intro y x hy hx
  have hy' : y < i.bmp.height := by rw [← h2]; exact hy
  have hx' : x < i.bmp.width := by rw [← h1]; exact hx
  have := h3 y x hy' hx'
  simp only [Image.flipVertical]
  rw [this]
  split
  · exact hi _ _ (by omega) hx'
  · exact hi _ _ hy' hx'

theorem copy_keep (F : LawfulFI A FI) {i j : Image N} (h : i.copy FI = some j) : j = i := by
  unfold Image.copy at h
  obtain ⟨b, hb, rfl⟩ := Option.map_eq_some_iff.1 h
  rw [F.clone _ _ hb]

theorem resizeLinear_keep (L : LawfulArith A) (F : LawfulFI A FI) {i j : Image N} {w h : Nat} {filter : ResizeFilter}
    (hi : ImgOk A i) (e : resizeLinear A FI i w h filter = .ok (some j)) :
    ImgOk A j ∧ j.format = i.format ∧ j.colorSpace = i.colorSpace ∧ j.bmp.width = w ∧ j.bmp.height = h := by
  unfold resizeLinear at e
  split at e
  · rename_i b hb
    cases e
    split at hb
    · obtain ⟨h1, h2, h3⟩ := F.rescale _ _ _ _ _ hb
      exact ⟨h3 _ hi, rfl, rfl, h1, h2⟩
    · cases hb
  · have own : (match Image.new FI i.format w h i.colorSpace with
        | none => (.ok none : Res (Img? N))
        | some dst => do
          let dst ← fillPixels A dst w h
            (fun y x => if filter = ResizeFilter.Box then boxPixel A i w h y x else linearPixel A i w h y x)
          .ok (some dst)) = .ok (some j) → ImgOk A j ∧ j.format = i.format ∧ j.colorSpace = i.colorSpace ∧
            j.bmp.width = w ∧ j.bmp.height = h := by
      intro e
      split at e
      · cases e
      · rename_i dst hn
        obtain ⟨a1, a2, a3, a4, a5⟩ := new_ok F hn
        obtain ⟨k, ek, e⟩ := Res.bind_eq_ok.1 e
        cases e
        have := fillPixels_keep L a5 ek
        exact ⟨this.ok, this.format.trans a1, this.space.trans a2, this.width.trans a3, this.height.trans a4⟩
    split at e
    · exact own e
    · exact own e
    · cases e

theorem resize_keep (L : LawfulArith A) (F : LawfulFI A FI) {i j : Image N} {w h : Nat} {filter : ResizeFilter}
    (hi : ImgOk A i) (e : i.resize A FI w h filter = .ok (some j)) :
    ImgOk A j ∧ j.format = i.format ∧ j.colorSpace = i.colorSpace ∧ j.bmp.width = w ∧ j.bmp.height = h ∧
      0 < w ∧ 0 < h := by
  unfold Image.resize at e
  split at e
  · cases e
  · rename_i hz
    have hz : 0 < w ∧ 0 < h := by omega
    split at e
    · rename_i hs
      cases copy_keep F (Res.ok.inj e)
      exact ⟨hi, rfl, rfl, hs.1.symm, hs.2.symm, hz⟩
    · split at e
      · split at e
        · cases e
        · rename_i k hk
          cases copy_keep F hk
          obtain ⟨l, el, e⟩ := Res.bind_eq_ok.1 e
          obtain ⟨a1, a2, a3, a4, a5⟩ := changeColorSpace_keep L hi el
          obtain ⟨m, em, e⟩ := Res.bind_eq_ok.1 e
          split at e
          · cases e
          · rename_i m'
            obtain ⟨b1, b2, b3, b4, b5⟩ := resizeLinear_keep L F a1 em
            obtain ⟨n, en, e⟩ := Res.bind_eq_ok.1 e
            cases e
            obtain ⟨c1, c2, c3, c4, c5⟩ := changeColorSpace_keep L b1 en
            exact ⟨c1, by rw [c2, b2, a2], c3, by rw [c4, b4], by rw [c5, b5], hz⟩
      · obtain ⟨b1, b2, b3, b4, b5⟩ := resizeLinear_keep L F hi e
        exact ⟨b1, b2, b3, b4, b5, hz⟩

/-- Normal maps of the format the tool uses. -/
theorem createNormalMap_keep (F : LawfulFI A FI) (L : LawfulArith A) {i j : Image N} {o : NormalOptions} {height : N}
    (e : i.createNormalMap A FI o height .RGBF = .ok (some j)) :
    ImgOk A j ∧ j.format = .RGBF ∧ j.colorSpace = i.colorSpace ∧ j.bmp.width = i.bmp.width ∧
      j.bmp.height = i.bmp.height := by
  unfold Image.createNormalMap at e
  split at e
  · cases e
  · rename_i new hn
    obtain ⟨a1, a2, a3, a4, a5⟩ := new_ok F hn
    obtain ⟨k, ek, e⟩ := Res.bind_eq_ok.1 e
    cases e
    have : Like A new j := by
      refine Like.loops ?_ a5 ek
      intro y x s s' hs e
      obtain ⟨c, -, e⟩ := Res.bind_eq_ok.1 e
      obtain ⟨p, ep, e⟩ := Res.bind_eq_ok.1 e
      refine hs.put ?_ e
      rw [a1]
      exact set_px L (f := .RGBF) ep
    exact ⟨this.ok, this.format.trans a1, this.space.trans a2, this.width.trans a3, this.height.trans a4⟩

/-- An image with the same format, colour space and size. -/
def SameShape (i j : Image N) : Prop :=
  j.format = i.format ∧ j.colorSpace = i.colorSpace ∧ j.bmp.width = i.bmp.width ∧ j.bmp.height = i.bmp.height

theorem adjust_keep {i j : Image N} (hf : i.format ∈ floats) {type : TType} {orig : IFormat}
    (e : adjustImageValueRange A FI i type orig = .ok (some j)) : SameShape i j := by
  unfold adjustImageValueRange at e
  dsimp only at e
  generalize (if orig = IFormat.Invalid then i.format else orig) = orig' at e
  split at e
  · have : ∃ f, adjustedFormat i.format = some f ∧ adjustConverts i.format = false := by
      simp only [floats, List.mem_cons, List.not_mem_nil, or_false] at hf
      rcases hf with h | h | h <;> rw [h] <;> exact ⟨_, rfl, rfl⟩
    obtain ⟨f, ef, ec⟩ := this
    rw [ef] at e
    dsimp only [adjustSource] at e
    rw [ec] at e
    simp only [Bool.false_eq_true, if_false, Res.ok_bind, adjustAll] at e
    obtain ⟨k, ek, e⟩ := Res.bind_eq_ok.1 e
    cases e
    refine loop_keeps (P := SameShape i) ?_ ⟨rfl, rfl, rfl, rfl⟩ ek
    intro y s s' _ hs e
    refine loop_keeps (P := SameShape i) ?_ hs e
    intro x s s' _ hs e
    obtain ⟨p, -, e⟩ := Res.bind_eq_ok.1 e
    obtain ⟨q, -, e⟩ := Res.bind_eq_ok.1 e
    obtain ⟨b, eb, e⟩ := Res.bind_eq_ok.1 e
    cases e
    unfold Bitmap.write at eb
    split at eb
    · cases eb
      exact hs
    · cases eb
  · cases e
    exact ⟨rfl, rfl, rfl, rfl⟩

end Cuttlefish
