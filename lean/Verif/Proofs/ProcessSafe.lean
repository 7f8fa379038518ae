import Verif.Proofs.Process
import Verif.Proofs.ResizeSafe
import Verif.Props.C31
import Verif.Props.C32
/-
The processing of input images by the tool is defined.
-/
namespace Cuttlefish
open Spec
variable {N : Type} {A : Arith N} {FI : FreeImage N}

theorem onValid_defined {P : Image N → Prop} {f : Image N → Res (Img? N)} {o : Img? N} (ho : Holds P o)
    (h : ∀ i, P i → ∃ r, f i = .ok r) : ∃ r, onValid f o = .ok r := by
  cases o with
  | none => exact ⟨none, rfl⟩
  | some i => exact h i (ho i rfl)

theorem onPixels_defined {P : Image N → Prop} {f : Image N → Res (Image N)} {o : Img? N} (ho : Holds P o)
    (h : ∀ i, P i → ∃ r, f i = .ok r) : ∃ r, onPixels f o = .ok r := by
  refine onValid_defined ho (fun i hi => ?_)
  obtain ⟨r, e⟩ := h i hi
  exact ⟨some r, by rw [e]; rfl⟩

theorem whenAsked_defined {asked : Bool} {f : Img? N → Res (Img? N)} {o : Img? N} (h : ∃ r, f o = .ok r) :
    ∃ r, whenAsked asked f o = .ok r := by
  unfold whenAsked
  split
  · exact h
  · exact ⟨o, rfl⟩

theorem mapPixels_float (L : LawfulArith A) {i : Image N} (hi : ImgOk A i) (hf : IsFloat i.format)
    (f : Color N → Color N) : ∃ j, i.mapPixels A f = .ok j := by
  obtain ⟨j, e, -⟩ := mapPixels_spec L hi (f := f) (fun y x _ _ c _ => set_float hf _)
  exact ⟨j, e⟩

theorem preMultiplyAlpha_float (L : LawfulArith A) {i : Image N} (hi : ImgOk A i) (hf : IsFloat i.format) :
    ∃ j, i.preMultiplyAlpha A = .ok j := by
  unfold Image.preMultiplyAlpha
  split
  · exact mapPixels_float L hi hf _
  · exact ⟨i, rfl⟩

theorem convert_float {i : Image N} (F : LawfulFI A FI) (hi : ImgOk A i) : ∃ r, i.convert A FI .RGBAF true = .ok r := by
  by_cases hd : i.format = .RGBAF
  · exact ⟨i.copy FI, by unfold Image.convert; rw [if_pos hd]⟩
  · cases ho : (if usesFreeImage i.format .RGBAF
        (true && isGrayscaleFormat .RGBAF && decide (i.colorSpace = .Linear)) = true
        then FI.convert i.format i.bmp .RGBAF else none) with
    | none =>
      obtain ⟨r, e, -⟩ := convert_own (weighted := true) F hi hd (by simp) ho (fun y x _ _ c _ => by
        obtain ⟨p, e⟩ := set_float (A := A) (f := .RGBAF) (Or.inr (Or.inl rfl)) c
        exact ⟨p, by simpa [convertPx, isGrayscaleFormat] using e⟩)
      exact ⟨r, e⟩
    | some b =>
      refine ⟨some ⟨.RGBAF, i.colorSpace, b⟩, ?_⟩
      unfold Image.convert
      rw [if_neg hd, if_neg (by simp)]
      simp only [ho]

theorem createNormalMap_float (F : LawfulFI A FI) {i : Image N} (hi : ImgOk A i) (o : NormalOptions) (height : N) :
    ∃ r, i.createNormalMap A FI o height .RGBF = .ok r := by
  unfold Image.createNormalMap
  cases hn : Image.new FI .RGBF i.bmp.width i.bmp.height i.colorSpace with
  | none => exact ⟨none, rfl⟩
  | some new =>
    obtain ⟨a1, a2, a3, a4, a5⟩ := new_ok F hn
    obtain ⟨d, e, -⟩ := write_grid (dst := new) (h := i.bmp.height) (w := i.bmp.width) (q := fun y x => (y, x))
      (P := fun _ _ _ => True) (body := fun y x new => do
        let c ← normalAt A i o height y x
        let p ← setPixelImpl A .RGBF c
        new.put y x p) (by
        intro y hy x hx d _ dw dh _
        obtain ⟨c, ec⟩ := C31_reads hi o height hx hy
        obtain ⟨p, ep⟩ : ∃ p, setPixelImpl A .RGBF c = .ok p := ⟨_, rfl⟩
        refine ⟨p, trivial, ?_⟩
        rw [ec, Res.ok_bind, ep, Res.ok_bind]
        exact Image.put_ok (by omega) (by omega) _)
      (by intro y _ x _ y' _ x' _ h; simpa using h)
    exact ⟨some d, by dsimp only; rw [e]; rfl⟩

theorem Looks.countable {i : Image N} {f : IFormat} {cs : ColorSpace} {s : ℕ × ℕ} (h : Looks A f cs s i)
    (hs : Counts s) (hp : 0 < s.1 ∧ 0 < s.2) : Spec.Countable i := by
  obtain ⟨h1, h2, h3⟩ := hs
  have := h.size
  rw [← this] at h1 h2 h3 hp
  exact ⟨hp.1, hp.2, h1, h2, h3⟩

theorem counts_turned {H : Type} {c : Cmd H} {s : ℕ × ℕ} (h : Counts s) (hp : 0 < s.1 ∧ 0 < s.2) :
    Counts (turnedSize c s) ∧ 0 < (turnedSize c s).1 ∧ 0 < (turnedSize c s).2 := by
  obtain ⟨h1, h2, h3⟩ := h
  have key : turnedSize c s = s ∨ turnedSize c s = (s.2, s.1) := by
    unfold turnedSize
    split
    · cases c.rotateAngle <;> simp [Move.place, quarter]
    · exact Or.inl rfl
  rcases key with e | e <;> rw [e]
  · exact ⟨⟨h1, h2, h3⟩, hp⟩
  · exact ⟨⟨h2, h1, by rw [Nat.mul_comm]; exact h3⟩, hp.2, hp.1⟩

theorem adjust_defined {i : Image N} (hf : i.format ∈ floats) (hi : ImgOk A i) (type : TType) (orig : IFormat) :
    ∃ r, adjustImageValueRange A FI i type orig = .ok r := by
  by_cases h : type ∉ [TType.SNorm, .UInt, .Int] ∨ (if orig = .Invalid then i.format else orig) ∉ sources
  · exact ⟨_, C32_unchanged A FI i type orig h⟩
  · push Not at h
    have ho : orig ∈ sources := by
      by_cases e : orig = .Invalid
      · rw [if_pos e] at h
        have := h.2
        simp only [floats, List.mem_cons, List.not_mem_nil, or_false] at hf
        rcases hf with hf | hf | hf <;> rw [hf] at this <;> simp [sources] at this
      · rw [if_neg e] at h
        exact h.2
    obtain ⟨j, e, -⟩ := adjust_floats A FI hf hi ho h.1
    exact ⟨_, e⟩

/-- The processing of an image is defined. -/
theorem processLoaded_defined (L : LawfulArith A) (F : LawfulFI A FI) (D : FiltersDefined A) {c : Cmd N} {i : Image N}
    {w h l : ℕ} (hi : ImgOk A i) (hcs : i.colorSpace = c.imageColorSpace) (hc : Spec.Countable i) (hw : w < 2 ^ 32)
    (hh : h < 2 ^ 32) (hl : l < 32) (hn : c.normalMap = true → Counts (w, h)) :
    ∃ r, processLoaded A FI c i w h l = .ok r := by
  have hpos : 0 < i.bmp.width ∧ 0 < i.bmp.height := ⟨hc.1, hc.2.1⟩
  have hcount : Counts (i.bmp.width, i.bmp.height) := hc.2.2
  have small (n : ℕ) (hn : n < 2 ^ 32) : max (n / 2 ^ l) 1 < 2 ^ 32 := by
    have := Nat.div_le_self n (2 ^ l)
    omega
  have rf : IsFloat .RGBAF := Or.inr (Or.inl rfl)
  have lf : IsFloat (lastFormat c) := by
    unfold lastFormat
    split
    · exact Or.inl rfl
    · exact rf
  unfold processLoaded
  obtain ⟨o1, e1⟩ := whenAsked_defined (asked := decide (i.format ≠ .RGBAF))
    (f := onValid (fun i => i.convert A FI .RGBAF true)) (o := some i)
    (onValid_defined (P := ImgOk A) (by rintro j ⟨⟩; exact hi) (fun j hj => convert_float F hj))
  rw [e1, Res.ok_bind]
  have h1 := convertF_keep L F hi e1
  rw [hcs] at h1
  obtain ⟨o2, e2⟩ := whenAsked_defined (asked := decide (c.textureColorSpace ≠ c.imageColorSpace))
    (onPixels_defined h1 (fun i hi => changeColorSpace_float L hi.ok (hi.format ▸ rf) c.textureColorSpace))
  rw [e2, Res.ok_bind]
  have h2 := changeF_keep L h1 e2
  have ew (n : ℕ) : thisSize n l = .ok (max (n / 2 ^ l) 1) := by
    unfold thisSize
    rw [if_pos hl]
  rw [ew w, ew h, Res.ok_bind, Res.ok_bind]
  have hsize : (if c.normalMap = true then (w, h) else (max (w / 2 ^ l) 1, max (h / 2 ^ l) 1)) =
      firstSize c (w, h) l := rfl
  dsimp only
  rw [hsize]
  have fsmall : (firstSize c (w, h) l).1 < 2 ^ 32 ∧ (firstSize c (w, h) l).2 < 2 ^ 32 := by
    unfold firstSize levelSize
    split
    · exact ⟨hw, hh⟩
    · exact ⟨small _ hw, small _ hh⟩
  obtain ⟨o3, e3⟩ : ∃ r, resizeTo A FI (firstSize c (w, h) l).1 (firstSize c (w, h) l).2 c.resizeFilter o2 = .ok r := by
    unfold resizeTo
    split
    · exact onValid_defined h2 (fun i hi =>
        resize_float L F D hi.ok (hi.countable hcount hpos) (hi.format ▸ rf) fsmall.1 fsmall.2 _)
    · exact ⟨_, rfl⟩
  rw [e3, Res.ok_bind]
  have h3 := resizeTo_keep L F hpos h2 e3
  rw [Prod.mk.eta] at h3
  have h3' : Holds (Looks A .RGBAF c.textureColorSpace (firstSize c (w, h) l)) o3 := fun i hi => (h3 i hi).1
  obtain ⟨o4, e4⟩ := whenAsked_defined (asked := c.rotate) (onValid_defined h3'
    (f := fun i => i.rotate A FI c.rotateAngle)
    (fun i hi => by
      obtain ⟨r, e, -⟩ := move_spec L F hi.ok (.turn c.rotateAngle)
      exact ⟨r, e⟩))
  rw [e4, Res.ok_bind]
  have h4 : Holds (fun i => Looks A .RGBAF c.textureColorSpace (turnedSize c (firstSize c (w, h) l)) i ∧
      0 < (firstSize c (w, h) l).1 ∧ 0 < (firstSize c (w, h) l).2) o4 := by
    unfold turnedSize
    refine whenAsked_holds (fun hr r er => ?_) (fun hr i hi => ?_) h3 e4
    · rw [if_pos hr]
      exact onValid_holds (fun i j hi e => ⟨rotate_keep L F hi.1 e, hi.2⟩) h3 er
    · rw [if_neg (by simp [hr])]
      exact hi
  obtain ⟨o5, e5⟩ := whenAsked_defined (asked := c.grayscale) (onPixels_defined h4
    (f := fun i => i.grayscale A) (fun i hi => mapPixels_float L hi.1.ok (hi.1.format ▸ rf) _))
  rw [e5, Res.ok_bind]
  have h5 : Holds (fun i => Looks A .RGBAF c.textureColorSpace (turnedSize c (firstSize c (w, h) l)) i ∧
      0 < (firstSize c (w, h) l).1 ∧ 0 < (firstSize c (w, h) l).2) o5 :=
    whenAsked_holds (fun hr r er => onPixels_holds (fun i j hi e => ⟨(mapPixels_keep L hi.1.ok e).looks hi.1, hi.2⟩)
      h4 er) (fun _ _ hi => hi) h4 e5
  obtain ⟨n, e6⟩ : ∃ n, toolNormalMap A FI c (firstSize c (w, h) l) (max (w / 2 ^ l) 1, max (h / 2 ^ l) 1) i.format o5 =
      .ok n := by
    unfold toolNormalMap
    by_cases hm : c.normalMap = true
    · rw [if_pos hm]
      dsimp only
      generalize (if isSigned c.type = true then { c.normalOptions with keepSign := true } else c.normalOptions) = op
      obtain ⟨o6, e6⟩ := onValid_defined h5 (f := fun i => i.createNormalMap A FI op c.normalHeight .RGBF)
        (fun i hi => createNormalMap_float F hi.1.ok op _)
      rw [e6, Res.ok_bind]
      have h6 : Holds (fun i => Looks A .RGBF c.textureColorSpace (turnedSize c (firstSize c (w, h) l)) i ∧
          0 < (firstSize c (w, h) l).1 ∧ 0 < (firstSize c (w, h) l).2) o6 := by
        refine onValid_holds (fun i j hi e => ?_) h5 e6
        obtain ⟨h1, h2, h3, h4, h5⟩ := createNormalMap_keep F L e
        exact ⟨⟨h1, h2, h3.trans hi.1.space, by rw [h4, h5]; exact hi.1.size⟩, hi.2⟩
      have fs : firstSize c (w, h) l = (w, h) := by unfold firstSize; rw [if_pos hm]
      obtain ⟨o7, e7⟩ := whenAsked_defined
        (asked := decide ((firstSize c (w, h) l).1 ≠ max (w / 2 ^ l) 1 ∨ (firstSize c (w, h) l).2 ≠ max (h / 2 ^ l) 1))
        (onValid_defined h6 (f := fun i => i.resize A FI (max (w / 2 ^ l) 1) (max (h / 2 ^ l) 1) c.resizeFilter)
        (fun i hi => by
          obtain ⟨b1, b2⟩ := counts_turned (c := c) (by rw [fs]; exact hn hm) hi.2
          exact resize_float L F D hi.1.ok (hi.1.countable b1 b2) (hi.1.format ▸ Or.inl rfl) (small _ hw) (small _ hh) _))
      rw [e7]
      exact ⟨_, rfl⟩
    · rw [if_neg hm]
      exact ⟨_, rfl⟩
  rw [e6, Res.ok_bind]
  have h6 := normal_keep L F (fun i hi => (h5 i hi).1) e6
  generalize (if c.normalMap = true ∧ firstSize c (w, h) l ≠ (max (w / 2 ^ l) 1, max (h / 2 ^ l) 1) then
      (max (w / 2 ^ l) 1, max (h / 2 ^ l) 1) else turnedSize c (firstSize c (w, h) l)) = t at h6
  obtain ⟨o7, e7⟩ := whenAsked_defined (asked := c.flipX) (onPixels_defined h6
    (f := fun i => .ok (i.flipHorizontal FI).2) (fun i hi => ⟨_, rfl⟩))
  rw [e7, Res.ok_bind]
  have h7 : Holds (Looks A (lastFormat c) c.textureColorSpace t) o7 :=
    whenAsked_holds (fun _ r er => onPixels_holds (fun i j hi e => by
      cases e; exact (flipHorizontal_keep F hi.ok).looks hi) h6 er) (fun _ _ hi => hi) h6 e7
  obtain ⟨o8, e8⟩ := whenAsked_defined (asked := c.flipY) (onPixels_defined h7
    (f := fun i => .ok (i.flipVertical FI).2) (fun i hi => ⟨_, rfl⟩))
  rw [e8, Res.ok_bind]
  have h8 : Holds (Looks A (lastFormat c) c.textureColorSpace t) o8 :=
    whenAsked_holds (fun _ r er => onPixels_holds (fun i j hi e => by
      cases e; exact (flipVertical_keep F hi.ok).looks hi) h7 er) (fun _ _ hi => hi) h7 e8
  obtain ⟨o9, e9⟩ := whenAsked_defined (asked := c.swizzle) (onPixels_defined h8
    (f := fun i => i.swizzle A c.redSwzl c.greenSwzl c.blueSwzl c.alphaSwzl)
    (fun i hi => mapPixels_float L hi.ok (hi.format ▸ lf) _))
  rw [e9, Res.ok_bind]
  have h9 : Holds (Looks A (lastFormat c) c.textureColorSpace t) o9 :=
    whenAsked_holds (fun _ r er => onPixels_holds (fun i j hi e => (mapPixels_keep L hi.ok e).looks hi) h8 er)
      (fun _ _ hi => hi) h8 e9
  obtain ⟨o10, e10⟩ := whenAsked_defined (asked := c.preMultiply) (onPixels_defined h9
    (f := fun i => i.preMultiplyAlpha A) (fun i hi => preMultiplyAlpha_float L hi.ok (hi.format ▸ lf)))
  rw [e10, Res.ok_bind]
  have h10 : Holds (Looks A (lastFormat c) c.textureColorSpace t) o10 :=
    whenAsked_holds (fun _ r er => onPixels_holds (fun i j hi e => (preMultiplyAlpha_keep L hi.ok e).looks hi) h9 er)
      (fun _ _ hi => hi) h9 e10
  exact onValid_defined h10 (fun i hi => adjust_defined (by
    rw [hi.format]
    unfold lastFormat
    split <;> simp [floats]) hi.ok _ _)

end Cuttlefish
