import Verif.Spec.Convert
import Verif.Proofs.ImageMap
/-
Conversion between image formats.
-/
namespace Cuttlefish
open Spec
variable {N : Type} {A : Arith N} {FI : FreeImage N}

theorem brightness_iff (f : IFormat) : isGrayscaleFormat f = true ↔ Brightness f := by
  cases f <;> simp [isGrayscaleFormat, Brightness]

/-- The pixel that is stored for a colour. -/
def convertPx (A : Arith N) (src dst : IFormat) (cs : ColorSpace) (gray : Bool) (c : Color N) : Res (Px N) :=
  if gray = true ∧ src ≠ .Complex then
    if cs = .Linear then setPixelImpl A dst c
    else
      let v := A.linearToSRGB (A.toGrayscale (A.sRGBToLinear c.r) (A.sRGBToLinear c.g) (A.sRGBToLinear c.b))
      setPixelNoGrayscaleImpl A dst ⟨v, v, v, c.a⟩
  else setPixelNoGrayscaleImpl A dst c

theorem convertPx_px (L : LawfulArith A) {src dst : IFormat} {cs : ColorSpace} {weighted : Bool} {c : Color N}
    {p : Px N} (h : convertPx A src dst cs (weighted && isGrayscaleFormat dst) c = .ok p) : PxOk A dst p := by
  unfold convertPx at h
  split at h
  · rename_i hg
    split at h
    · cases dst <;> simp [isGrayscaleFormat] at hg
      case Gray8 =>
        obtain ⟨v, e, e'⟩ := Res.bind_eq_ok.1 h
        cases e'
        exact L.normRange _ _ _ _ (by simp) le_rfl e
      case Gray16 =>
        obtain ⟨v, e, e'⟩ := Res.bind_eq_ok.1 h
        cases e'
        exact L.normRange _ _ _ _ (by simp) le_rfl e
      case Float => cases h; exact L.single _
      case Double => cases h; trivial
    · exact set_px L h
  · exact set_px L h

theorem convertLoop_eq (src : Image N) (gray : Bool) (new : Image N) :
    convertLoop A src gray new = loop (steps 0 src.bmp.height) (fun y dst => loop (steps 0 src.bmp.width)
      (fun x dst => do
        let c ← src.get A y x
        let p ← convertPx A src.format dst.format src.colorSpace gray c
        dst.put y x p) dst) new := by
  unfold convertLoop
  congr 1
  funext y dst
  congr 1
  funext x dst
  congr 1
  funext c
  unfold convertPx
  split
  · split <;> rfl
  · rfl

theorem convertLoop_spec {src new : Image N} {gray : Bool} (hs : ImgOk A src)
    (hw : new.bmp.width = src.bmp.width) (hh : new.bmp.height = src.bmp.height)
    (hp : ∀ y x, y < src.bmp.height → x < src.bmp.width → ∀ c, getPixelImpl A src.format (src.bmp.px y x) = .ok c →
      ∃ p, convertPx A src.format new.format src.colorSpace gray c = .ok p) :
    ∃ j, convertLoop A src gray new = .ok j ∧ j.format = new.format ∧ j.colorSpace = new.colorSpace ∧
      j.bmp.width = new.bmp.width ∧ j.bmp.height = new.bmp.height ∧
      ∀ y x, y < src.bmp.height → x < src.bmp.width → ∃ c, getPixelImpl A src.format (src.bmp.px y x) = .ok c ∧
        convertPx A src.format new.format src.colorSpace gray c = .ok (j.bmp.px y x) := by
  obtain ⟨j, e, b1, b2, b3, b4, b5⟩ := write_grid (dst := new) (h := src.bmp.height) (w := src.bmp.width)
    (q := fun y x => (y, x))
    (P := fun y x p => ∃ c, getPixelImpl A src.format (src.bmp.px y x) = .ok c ∧
      convertPx A src.format new.format src.colorSpace gray c = .ok p)
    (body := fun y x dst => do
      let c ← src.get A y x
      let p ← convertPx A src.format dst.format src.colorSpace gray c
      dst.put y x p) (by
      intro y hy x hx d df dw dh dp
      obtain ⟨c, ec, eg⟩ := Image.get_ok hs hy hx
      obtain ⟨p, ep⟩ := hp y x hy hx c eg
      refine ⟨p, ⟨c, eg, ep⟩, ?_⟩
      rw [ec, Res.ok_bind, df, ep, Res.ok_bind]
      refine (Image.put_ok (i := d) (by omega) (by omega) p).trans ?_
      rw [df])
    (by intro y _ x _ y' _ x' _ h; simpa using h)
  exact ⟨j, (convertLoop_eq _ _ _).trans e, b1, b2, b3, b4, fun y x hy hx => b5 y hy x hx⟩

/-- If the loop is defined, every pixel it stored is defined. -/
theorem convertLoop_px (L : LawfulArith A) {src new j : Image N} {weighted : Bool} (hn : ImgOk A new)
    (h : convertLoop A src (weighted && isGrayscaleFormat new.format) new = .ok j) :
    ImgOk A j ∧ j.format = new.format ∧ j.colorSpace = new.colorSpace ∧ j.bmp.width = new.bmp.width ∧
      j.bmp.height = new.bmp.height := by
  rw [convertLoop_eq] at h
  refine loop_keeps (P := fun j => ImgOk A j ∧ j.format = new.format ∧ j.colorSpace = new.colorSpace ∧
    j.bmp.width = new.bmp.width ∧ j.bmp.height = new.bmp.height) ?_ ⟨hn, rfl, rfl, rfl, rfl⟩ h
  intro y s s' _ hs e
  refine loop_keeps (P := fun j => ImgOk A j ∧ j.format = new.format ∧ j.colorSpace = new.colorSpace ∧
    j.bmp.width = new.bmp.width ∧ j.bmp.height = new.bmp.height) ?_ hs e
  intro x s s' _ hs e
  obtain ⟨h1, h2, h3, h4, h5⟩ := hs
  obtain ⟨c, -, e⟩ := Res.bind_eq_ok.1 e
  have e : (convertPx A src.format s.format src.colorSpace (weighted && isGrayscaleFormat new.format) c >>=
    fun p => s.put y x p) = .ok s' := e
  obtain ⟨p, ep, e⟩ := Res.bind_eq_ok.1 e
  rw [← h2] at ep
  have hp := convertPx_px (weighted := weighted) L ep
  obtain ⟨b, eb, e⟩ := Res.bind_eq_ok.1 e
  cases e
  unfold Bitmap.write at eb
  split at eb
  · cases eb
    refine ⟨?_, h2, h3, h4, h5⟩
    intro y' x' hy' hx'
    dsimp only at hy' hx' ⊢
    split
    · exact hp
    · exact h1 _ _ hy' hx'
  · cases eb

theorem own_direct {i : Image N} {dst : IFormat} {weighted : Bool} (h : Own FI i dst weighted) :
    (if usesFreeImage i.format dst (weighted && isGrayscaleFormat dst && decide (i.colorSpace = .Linear)) = true then
      FI.convert i.format i.bmp dst else none) = none := by
  split
  · rename_i hu
    rcases h with h | h | h | h | ⟨h, h'⟩ | ⟨h, h', h''⟩
    · exact h
    · rw [h] at hu; simp [usesFreeImage] at hu
    · rw [h] at hu; simp [usesFreeImage] at hu
    · rw [h] at hu; simp [usesFreeImage] at hu
    · exfalso
      rcases h with h | h | h <;> rcases h' with h' | h' | h' | h' <;> rw [h, h'] at hu <;>
        simp [usesFreeImage, needFloatConvertFallback, isGrayscaleFormat] at hu
    · exfalso
      have hs : isGrayscaleFormat i.format = false := by
        rw [← Bool.not_eq_true, brightness_iff]; exact h
      have hl : (weighted && isGrayscaleFormat dst && decide (i.colorSpace = .Linear)) = false := by
        rcases h'' with h'' | h'' <;> rw [h''] <;> simp
      rw [hl] at hu
      rcases h' with h' | h' | h' | h' <;> rw [h'] at hu <;> simp [usesFreeImage, hs] at hu
  · rfl

/-- The conversions of the library itself. -/
theorem convert_own {i : Image N} {dst : IFormat} {weighted : Bool} (F : LawfulFI A FI) (hi : ImgOk A i)
    (hd : i.format ≠ dst) (hd' : dst ≠ .Invalid)
    (ho : (if usesFreeImage i.format dst (weighted && isGrayscaleFormat dst && decide (i.colorSpace = .Linear)) = true
      then FI.convert i.format i.bmp dst else none) = none)
    (hp : ∀ y x, y < i.bmp.height → x < i.bmp.width → ∀ c, getPixelImpl A i.format (i.bmp.px y x) = .ok c →
      ∃ p, convertPx A i.format dst i.colorSpace (weighted && isGrayscaleFormat dst) c = .ok p) :
    ∃ r, i.convert A FI dst weighted = .ok r ∧ (r = none → FI.alloc dst i.bmp.width i.bmp.height = none) ∧
      ∀ j, r = some j → j.format = dst ∧ j.colorSpace = i.colorSpace ∧ j.bmp.width = i.bmp.width ∧
        j.bmp.height = i.bmp.height ∧
        ∀ y x, y < i.bmp.height → x < i.bmp.width → ∃ c, getPixelImpl A i.format (i.bmp.px y x) = .ok c ∧
          convertPx A i.format dst i.colorSpace (weighted && isGrayscaleFormat dst) c = .ok (j.bmp.px y x) := by
  unfold Image.convert
  rw [if_neg hd, if_neg hd']
  dsimp only
  rw [ho]
  cases hn : Image.new FI dst i.bmp.width i.bmp.height i.colorSpace with
  | none =>
    refine ⟨none, rfl, fun _ => ?_, by simp⟩
    unfold Image.new at hn
    rw [if_neg hd'] at hn
    exact Option.map_eq_none_iff.1 hn
  | some new =>
    obtain ⟨a1, a2, a3, a4, a5⟩ := new_ok F hn
    obtain ⟨j, e, h1, h2, h3, h4, h5⟩ := convertLoop_spec (new := new) (gray := weighted && isGrayscaleFormat dst) hi a3 a4
      (by rw [a1]; exact hp)
    refine ⟨some j, by simp only [e, Res.ok_bind], by simp, ?_⟩
    rintro _ ⟨rfl⟩
    rw [a1] at h5
    exact ⟨by rw [h1, a1], by rw [h2, a2], by rw [h3, a3], by rw [h4, a4], h5⟩

end Cuttlefish
