import Verif.Proofs.ProcessSafe
import Verif.Props.C29
import Verif.Props.C30
import Verif.Props.C31
import Verif.Props.C47
/-
The colours of the images the tool has processed, in exact arithmetic.
-/
namespace Cuttlefish
open Spec
variable {FI : FreeImage ℝ}

/-- The image `j` is `k` with its pixels moved and its colours replaced, in a format. -/
structure Recoloured (k : Image ℝ) (f : IFormat) (cs : ColorSpace) (ms : List Move) (g : Color ℝ → Color ℝ)
    (j : Image ℝ) : Prop where
  ok : ImgOk Arith.exact j
  format : j.format = f
  space : j.colorSpace = cs
  size : ∀ p, (place ms ((k.bmp.width, k.bmp.height), p)).1 = (j.bmp.width, j.bmp.height)
  px : ∀ x y c, k.getPixel Arith.exact x y = .ok (some c) →
    j.getPixel Arith.exact (place ms ((k.bmp.width, k.bmp.height), (x, y))).2.1
      (place ms ((k.bmp.width, k.bmp.height), (x, y))).2.2 = .ok (some (g c))

variable {f : IFormat}

theorem Recoloured.refl {k : Image ℝ} (hk : ImgOk Arith.exact k) (hf : k.format = f) :
    Recoloured k f k.colorSpace [] id k := ⟨hk, hf, rfl, fun _ => rfl, fun _ _ _ hc => hc⟩

theorem place_snoc (ms : List Move) (m : Move) (s : Place) : place (ms ++ [m]) s = m.place (place ms s) := by
  simp [place, List.foldl_append]

theorem Recoloured.move (F : LawfulFI Arith.exact FI) {k i j : Image ℝ} {cs : ColorSpace} {ms : List Move}
    {g : Color ℝ → Color ℝ} (h : Recoloured k f cs ms g i) {m : Move}
    (e : runMove Arith.exact FI i m = .ok (some j)) : Recoloured k f cs (ms ++ [m]) g j := by
  obtain ⟨r, e', hr⟩ := move_spec lawful_exact F h.ok m
  rw [e] at e'
  cases e'
  obtain ⟨h1, h2, h3, h4, h5⟩ := hr j rfl
  refine ⟨h1, h2.trans h.format, h3.trans h.space, ?_, ?_⟩
  · intro p
    rw [place_snoc, ← h4 (place ms ((k.bmp.width, k.bmp.height), p)).2, ← h.size p]
  · intro x y c hc
    have hp := h.px x y c hc
    obtain ⟨hx, hy, -⟩ := getPixel_some hp
    have := h5 _ _ hx hy
    rw [place_snoc]
    rw [← h.size (x, y)] at this
    rw [← hp, ← this]

theorem Recoloured.map {k i j : Image ℝ} {cs : ColorSpace} {ms : List Move} {g : Color ℝ → Color ℝ}
    (h : Recoloured k f cs ms g i) (hf : f = .RGBAF ∨ f = .RGBF) {r : Color ℝ → Color ℝ}
    (e : i.mapPixels Arith.exact r = .ok j) : Recoloured k f cs ms (fun c => stored f (r (g c))) j := by
  have fit (c : Color ℝ) : Fitting i.format (r c) := by
    rw [h.format]
    rcases hf with rfl | rfl <;> exact ⟨by simp, fun lo hi hr => by simp [intRange] at hr⟩
  obtain ⟨j', e', h1, h2, h3, h4, h5, h6⟩ := exact_map h.ok (f := r) (fun _ _ c _ => fit c)
  rw [e] at e'
  cases e'
  refine ⟨h1, h2.trans h.format, h3.trans h.space, ?_, ?_⟩
  · intro p
    rw [h4, h5]
    exact h.size p
  · intro x y c hc
    have := h6 _ _ _ (h.px x y c hc)
    rw [h.format] at this
    exact this

/-- Every value, in exact arithmetic. -/
theorem adjustValue_exact {type : TType} {orig : IFormat} (ht : type ∈ [TType.SNorm, .UInt, .Int])
    (ho : orig ∈ sources) (k : ℕ) (v : ℝ) : adjustValue Arith.exact orig type k v = inRange type orig k v := by
  unfold adjustValue inRange
  rw [if_neg (show ¬ orig ∉ sources by simpa using ho)]
  simp only [List.mem_cons, List.not_mem_nil, or_false] at ht
  have big (hs : type ∈ [TType.UInt, .Int]) : Arith.exact.round (Arith.exact.addS (Arith.exact.mulS v
      (Arith.exact.lit (adjustMultiply orig k))) (Arith.exact.lit (adjustOffset orig type k))) =
      match largest orig k with
      | some m => away (v * m + lowest type m)
      | none => 0 := by
    cases hm : largest orig k with
    | some m =>
      obtain ⟨h1, h2, -⟩ := adjust_tables hs hm
      rw [h1, h2]
      simp only [Arith.exact, away, Rat.cast_natCast, Rat.cast_intCast]
    | none =>
      have h0 : adjustMultiply orig k = 0 ∧ adjustOffset orig type k = 0 := by
        rcases k with _ | _ | _ | k <;> cases orig <;> simp [largest, sources, adjustMultiply, adjustOffset] at hm ho ⊢
      rw [h0.1, h0.2]
      simp only [Arith.exact, Rat.cast_zero, mul_zero, add_zero, le_refl, if_true, zero_add]
      norm_num
  rcases ht with rfl | rfl | rfl
  · simp only [if_true, Arith.exact]
    push_cast
    ring
  · rw [if_neg (by simp)]
    exact big (by simp)
  · rw [if_neg (by simp)]
    exact big (by simp)

/-- The range of a type for every channel. -/
noncomputable def ranged (type : TType) (orig : IFormat) (v : Color ℝ) : Color ℝ :=
  ⟨inRange type orig 0 v.r, inRange type orig 1 v.g, inRange type orig 2 v.b, inRange type orig 3 v.a⟩

theorem inRange_same {type : TType} {orig : IFormat} (h : ¬ (type ∈ [TType.SNorm, .UInt, .Int] ∧ orig ∈ sources))
    (k : ℕ) (v : ℝ) : inRange type orig k v = v := by
  unfold inRange
  by_cases ho : orig ∈ sources
  · rw [if_neg (by simpa using ho)]
    cases type <;> simp_all
  · rw [if_pos ho]

theorem Recoloured.adjust {k i j : Image ℝ} {cs : ColorSpace} {ms : List Move} {g : Color ℝ → Color ℝ}
    (h : Recoloured k .RGBAF cs ms g i) {type : TType} {orig : IFormat}
    (e : adjustImageValueRange Arith.exact FI i type orig = .ok (some j)) :
    Recoloured k .RGBAF cs ms (fun c => ranged type orig (g c)) j := by
  by_cases ha : type ∈ [TType.SNorm, .UInt, .Int] ∧ orig ∈ sources
  · have hf : i.format ∈ floats := by rw [h.format]; simp [floats]
    obtain ⟨j', e', h1, h2, h3, h4, h5⟩ := adjust_floats Arith.exact FI hf h.ok ha.2 ha.1
    rw [e] at e'
    cases e'
    refine ⟨?_, h1.trans h.format, h2.trans h.space, ?_, ?_⟩
    · intro y x hy hx
      obtain ⟨l, e1, e2⟩ := h5 y (by omega) x (by omega)
      have := h.ok y x (by omega) (by omega)
      rw [e1, h.format] at this
      rw [e2, h1, h.format]
      match l, this with
      | [r, g, b, a], _ => exact ⟨rfl, rfl, rfl, rfl⟩
    · intro p
      rw [h3, h4]
      exact h.size p
    · intro x y c hc
      obtain ⟨hx, hy, hp⟩ := getPixel_some (h.px x y c hc)
      generalize (place ms ((k.bmp.width, k.bmp.height), (x, y))).2.1 = x' at *
      generalize (place ms ((k.bmp.width, k.bmp.height), (x, y))).2.2 = y' at *
      obtain ⟨l, e1, e2⟩ := h5 (i.bmp.height - y' - 1) (by omega) x' hx
      rw [getPixel_in (by omega) (by omega), h4, e2, h1, h.format]
      rw [e1, h.format] at hp
      have hok := h.ok _ x' (show i.bmp.height - y' - 1 < i.bmp.height by omega) hx
      rw [e1, h.format] at hok
      match l, hok with
      | [r, g', b, a], _ =>
        have hp : g c = ⟨r, g', b, a⟩ := (Res.ok.inj hp).symm
        rw [hp]
        simp only [adjustValues, adjustValue_exact ha.1 ha.2, getPixelImpl, Res.ok_bind, ranged]
  · have hu := C32_unchanged Arith.exact FI i type orig (by
      by_cases ht : type ∈ [TType.SNorm, .UInt, .Int]
      · right
        have : orig ∉ sources := fun ho => ha ⟨ht, ho⟩
        by_cases hi : orig = .Invalid
        · rw [if_pos hi, h.format]
          simp [sources]
        · rw [if_neg hi]
          exact this
      · exact Or.inl ht)
    rw [e] at hu
    cases hu
    have : (fun c => ranged type orig (g c)) = g := by
      funext c
      simp only [ranged, inRange_same ha]
    rw [this]
    exact h

/-- The colours after the conversion to floating point numbers. -/
theorem convertF_colors (F : LawfulFI Arith.exact FI) (K : KeepsColors FI) {i j : Image ℝ} (hi : ImgOk Arith.exact i)
    (e : i.convert Arith.exact FI .RGBAF true = .ok (some j)) {x y : ℕ} {c : Color ℝ}
    (hc : i.getPixel Arith.exact x y = .ok (some c)) : j.getPixel Arith.exact x y = .ok (some c) := by
  obtain ⟨k1, k2, k3, k4, k5⟩ := C48_result lawful_exact F hi e
  obtain ⟨hx, hy, hp⟩ := getPixel_some hc
  by_cases hd : i.format = .RGBAF
  · unfold Image.convert at e
    rw [if_pos hd] at e
    rw [show j = i from copy_same F (Res.ok.inj e)]
    exact hc
  · cases ho : (if usesFreeImage i.format .RGBAF
        (true && isGrayscaleFormat .RGBAF && decide (i.colorSpace = .Linear)) = true
        then FI.convert i.format i.bmp .RGBAF else none) with
    | none =>
      obtain ⟨r, e', -, hr⟩ := convert_own (weighted := true) F hi hd (by simp) ho (fun y x _ _ c _ => by
        obtain ⟨p, e⟩ := set_float (A := Arith.exact) (f := .RGBAF) (Or.inr (Or.inl rfl)) c
        exact ⟨p, by simpa [convertPx, isGrayscaleFormat] using e⟩)
      rw [e] at e'
      cases e'
      obtain ⟨-, -, -, -, h⟩ := hr j rfl
      obtain ⟨c', e1, e2⟩ := h (i.bmp.height - y - 1) x (by omega) hx
      rw [hp] at e1
      cases e1
      rw [getPixel_in (by omega) (by omega), k4, k1]
      have e2 : setPixelNoGrayscaleImpl Arith.exact .RGBAF c = .ok (j.bmp.px (i.bmp.height - y - 1) x) := by
        simpa [convertPx, isGrayscaleFormat] using e2
      obtain ⟨p, e3, -, e4⟩ := exact_store (f := .RGBAF) (c := c)
        ⟨by simp, fun lo hi hr => by simp [intRange] at hr⟩
      rw [e3] at e2
      rw [← Res.ok.inj e2, e4]
      rfl
    | some b =>
      have hj : j = ⟨.RGBAF, i.colorSpace, b⟩ := by
        unfold Image.convert at e
        rw [if_neg hd, if_neg (by simp)] at e
        simp only [ho] at e
        exact ((Option.some.inj (Res.ok.inj e)).symm)
      have hb : FI.convert i.format i.bmp .RGBAF = some b := by
        split at ho
        · exact ho
        · cases ho
      subst hj
      dsimp only at k3 k4
      rw [getPixel_in (by dsimp only; omega) (by dsimp only; omega)]
      dsimp only
      rw [k4, K _ _ _ hi hb _ _ (by omega) (by omega), hp]
      rfl

/-- The input in the colour space of the texture. -/
def InSpace (c : Cmd ℝ) (i m : Image ℝ) : Prop :=
  Looks Arith.exact .RGBAF c.textureColorSpace (i.bmp.width, i.bmp.height) m ∧
    ∀ x y v, i.getPixel Arith.exact x y = .ok (some v) → m.getPixel Arith.exact x y = .ok (some (inTexture c v))

/-- The steps of the processing of an image that is valid in the end; nothing is invalid in between. -/
theorem processLoaded_steps {N : Type} {A : Arith N} {FI : FreeImage N} {c : Cmd N} {i j : Image N} {w h l : ℕ}
    (e : processLoaded A FI c i w h l = .ok (some j)) : ∃ i1 i2 i3 i4 i5 i6 orig i7 i8 i9 i10,
      whenAsked (decide (i.format ≠ .RGBAF)) (onValid (fun i => i.convert A FI .RGBAF true)) (some i) = .ok (some i1) ∧
      whenAsked (decide (c.textureColorSpace ≠ c.imageColorSpace))
        (onPixels (fun i => i.changeColorSpace A c.textureColorSpace)) (some i1) = .ok (some i2) ∧
      resizeTo A FI (if c.normalMap then (w, h) else levelSize (w, h) l).1
        (if c.normalMap then (w, h) else levelSize (w, h) l).2 c.resizeFilter (some i2) = .ok (some i3) ∧
      whenAsked c.rotate (onValid (fun i => i.rotate A FI c.rotateAngle)) (some i3) = .ok (some i4) ∧
      whenAsked c.grayscale (onPixels (fun i => i.grayscale A)) (some i4) = .ok (some i5) ∧
      toolNormalMap A FI c (if c.normalMap then (w, h) else levelSize (w, h) l) (levelSize (w, h) l) i.format
        (some i5) = .ok (some i6, orig) ∧
      whenAsked c.flipX (onPixels (fun i => .ok (i.flipHorizontal FI).2)) (some i6) = .ok (some i7) ∧
      whenAsked c.flipY (onPixels (fun i => .ok (i.flipVertical FI).2)) (some i7) = .ok (some i8) ∧
      whenAsked c.swizzle (onPixels (fun i => i.swizzle A c.redSwzl c.greenSwzl c.blueSwzl c.alphaSwzl)) (some i8) =
        .ok (some i9) ∧
      whenAsked c.preMultiply (onPixels (fun i => i.preMultiplyAlpha A)) (some i9) = .ok (some i10) ∧
      adjustImageValueRange A FI i10 c.type orig = .ok (some j) := by
  unfold processLoaded at e
  obtain ⟨o1, e1, e⟩ := Res.bind_eq_ok.1 e
  obtain ⟨o2, e2, e⟩ := Res.bind_eq_ok.1 e
  obtain ⟨tw, ew, e⟩ := Res.bind_eq_ok.1 e
  obtain ⟨th, eh, e⟩ := Res.bind_eq_ok.1 e
  obtain ⟨hl, rfl⟩ := thisSize_eq ew
  obtain ⟨-, rfl⟩ := thisSize_eq eh
  obtain ⟨o3, e3, e⟩ := Res.bind_eq_ok.1 e
  obtain ⟨o4, e4, e⟩ := Res.bind_eq_ok.1 e
  obtain ⟨o5, e5, e⟩ := Res.bind_eq_ok.1 e
  obtain ⟨⟨o6, orig⟩, e6, e⟩ := Res.bind_eq_ok.1 e
  obtain ⟨o7, e7, e⟩ := Res.bind_eq_ok.1 e
  obtain ⟨o8, e8, e⟩ := Res.bind_eq_ok.1 e
  obtain ⟨o9, e9, e⟩ := Res.bind_eq_ok.1 e
  obtain ⟨o10, e10, e⟩ := Res.bind_eq_ok.1 e
  dsimp only at e7 e
  have live {f : Img? N → Res (Img? N)} {asked : Bool} {o o' : Img? N} {a : Image N}
      (e : whenAsked asked f o = .ok o') (ho : o' = some a) (hf : f none = .ok none) : ∃ b, o = some b := by
    cases o with
    | some b => exact ⟨b, rfl⟩
    | none =>
      unfold whenAsked at e
      rw [hf] at e
      subst ho
      split at e <;> cases e
  obtain ⟨i10, h10⟩ : ∃ b, o10 = some b := by
    cases o10 with
    | some b => exact ⟨b, rfl⟩
    | none => cases e
  obtain ⟨i9, h9⟩ := live e10 h10 rfl
  obtain ⟨i8, h8⟩ := live e9 h9 rfl
  obtain ⟨i7, h7⟩ := live e8 h8 rfl
  obtain ⟨i6, h6⟩ := live e7 h7 rfl
  obtain ⟨i5, h5⟩ : ∃ b, o5 = some b := by
    cases o5 with
    | some b => exact ⟨b, rfl⟩
    | none =>
      exfalso
      unfold toolNormalMap at e6
      subst h6
      split at e6
      · simp only [onValid, Res.ok_bind, whenAsked] at e6
        split at e6 <;> cases e6
      · cases e6
  obtain ⟨i4, h4⟩ := live e5 h5 rfl
  obtain ⟨i3, h3⟩ := live e4 h4 rfl
  obtain ⟨i2, h2⟩ : ∃ b, o2 = some b := by
    cases o2 with
    | some b => exact ⟨b, rfl⟩
    | none =>
      have : ∀ a b, resizeTo A FI a b c.resizeFilter none = .ok none := by
        intro a b
        unfold resizeTo
        split <;> rfl
      rw [this, h3] at e3
      cases e3
  obtain ⟨i1, h1⟩ := live e2 h2 rfl
  subst h1 h2 h3 h4 h5 h6 h7 h8 h9 h10
  exact ⟨i1, i2, i3, i4, i5, i6, orig, i7, i8, i9, i10, e1, e2, e3, e4, e5, e6, e7, e8, e9, e10, e⟩

/-- The first steps: up to grayscale. -/
theorem first_colors (F : LawfulFI Arith.exact FI) (K : KeepsColors FI) {c : Cmd ℝ} {i i1 m k i4 i5 : Image ℝ}
    {s : ℕ × ℕ} (hi : ImgOk Arith.exact i) (hcs : i.colorSpace = c.imageColorSpace)
    (hpos : 0 < i.bmp.width ∧ 0 < i.bmp.height)
    (e1 : whenAsked (decide (i.format ≠ .RGBAF)) (onValid (fun i => i.convert Arith.exact FI .RGBAF true)) (some i) =
      .ok (some i1))
    (e2 : whenAsked (decide (c.textureColorSpace ≠ c.imageColorSpace))
      (onPixels (fun i => i.changeColorSpace Arith.exact c.textureColorSpace)) (some i1) = .ok (some m))
    (e3 : resizeTo Arith.exact FI s.1 s.2 c.resizeFilter (some m) = .ok (some k))
    (e4 : whenAsked c.rotate (onValid (fun i => i.rotate Arith.exact FI c.rotateAngle)) (some k) = .ok (some i4))
    (e5 : whenAsked c.grayscale (onPixels (fun i => i.grayscale Arith.exact)) (some i4) = .ok (some i5)) :
    InSpace c i m ∧
      (if s = (i.bmp.width, i.bmp.height) then k = m
        else m.resize Arith.exact FI s.1 s.2 c.resizeFilter = .ok (some k)) ∧
      (k.bmp.width, k.bmp.height) = s ∧
      Recoloured k .RGBAF c.textureColorSpace (jobTurn c)
        (fun v => if c.grayscale then greyed c.textureColorSpace v else v) i5 := by
  have L1 := convertF_keep lawful_exact F hi e1
  rw [hcs] at L1
  have L2 := changeF_keep lawful_exact L1 e2
  have L3 := (resizeTo_keep lawful_exact F hpos L2 e3) k rfl
  rw [Prod.mk.eta] at L3
  -- the colours before resizing
  have p1 (x y : ℕ) (v : Color ℝ) (hv : i.getPixel Arith.exact x y = .ok (some v)) :
      i1.getPixel Arith.exact x y = .ok (some v) := by
    unfold whenAsked at e1
    split at e1
    · exact convertF_colors F K hi e1 hv
    · cases e1
      exact hv
  have p2 (x y : ℕ) (v : Color ℝ) (hv : i.getPixel Arith.exact x y = .ok (some v)) :
      m.getPixel Arith.exact x y = .ok (some (inTexture c v)) := by
    have hv := p1 x y v hv
    have l1 := L1 i1 rfl
    unfold whenAsked at e2
    split at e2
    · obtain ⟨m', em, e2⟩ := Res.bind_eq_ok.1 e2
      cases e2
      obtain ⟨m', em', -, -, -, -, -, hm⟩ := C29_image l1.ok c.textureColorSpace (fun x y v _ => by
        rw [l1.format]
        exact ⟨by simp, fun lo hi hr => by simp [intRange] at hr⟩)
      have em : i1.changeColorSpace Arith.exact c.textureColorSpace = .ok m := em
      rw [em] at em'
      cases em'
      have := hm x y v hv
      rw [l1.format, l1.space] at this
      exact this
    · rename_i hd
      cases e2
      have : c.textureColorSpace = c.imageColorSpace := by simpa using hd
      rw [hv]
      unfold inTexture
      rw [this]
      cases c.imageColorSpace <;> rfl
  refine ⟨⟨L2 m rfl, p2⟩, ?_, L3.1.size, ?_⟩
  · have ls := (L2 m rfl).size
    have ls1 : m.bmp.width = i.bmp.width := congrArg Prod.fst ls
    have ls2 : m.bmp.height = i.bmp.height := congrArg Prod.snd ls
    unfold resizeTo at e3
    have ls1 : widthOf (some m) = i.bmp.width := ls1
    have ls2 : heightOf (some m) = i.bmp.height := ls2
    rw [ls1, ls2] at e3
    by_cases hs : s = (i.bmp.width, i.bmp.height)
    · rw [if_pos hs]
      rw [if_neg (by rw [hs]; simp)] at e3
      cases e3
      rfl
    · rw [if_neg hs]
      rw [if_pos (by
        by_contra hc
        exact hs (Prod.ext (by dsimp only; tauto) (by dsimp only; tauto)))] at e3
      exact e3
  · have m3 := Recoloured.refl L3.1.ok L3.1.format
    rw [L3.1.space] at m3
    have m4 : Recoloured k .RGBAF c.textureColorSpace (jobTurn c) id i4 := by
      unfold jobTurn
      unfold whenAsked at e4
      split at e4
      · rename_i hr
        rw [if_pos hr]
        exact m3.move F (m := .turn c.rotateAngle) e4
      · rename_i hr
        rw [if_neg hr]
        cases e4
        exact m3
    unfold whenAsked at e5
    split at e5
    · rename_i hr
      obtain ⟨m', em, e5⟩ := Res.bind_eq_ok.1 e5
      cases e5
      have em : i4.mapPixels Arith.exact (grayscaleColor Arith.exact i4.colorSpace) = .ok i5 := em
      have := m4.map (Or.inl rfl) em
      rw [m4.space] at this
      simp only [hr, if_true]
      simp only [grayscaleColor_eq] at this
      exact this
    · rename_i hr
      simp only [hr]
      cases e5
      exact m4

/-- The last steps, without the range: flips, the choice of channels and pre-multiplied alpha. -/
theorem last_colors (F : LawfulFI Arith.exact FI) (W : FlipsWork FI) {c : Cmd ℝ} {k i6 i7 i8 i9 i10 : Image ℝ}
    {ms : List Move} {g : Color ℝ → Color ℝ} (hf : f = .RGBAF ∨ f = .RGBF)
    (m6 : Recoloured k f c.textureColorSpace ms g i6)
    (e7 : whenAsked c.flipX (onPixels (fun i => .ok (i.flipHorizontal FI).2)) (some i6) = .ok (some i7))
    (e8 : whenAsked c.flipY (onPixels (fun i => .ok (i.flipVertical FI).2)) (some i7) = .ok (some i8))
    (e9 : whenAsked c.swizzle (onPixels (fun i => i.swizzle Arith.exact c.redSwzl c.greenSwzl c.blueSwzl c.alphaSwzl))
      (some i8) = .ok (some i9))
    (e10 : whenAsked c.preMultiply (onPixels (fun i => i.preMultiplyAlpha Arith.exact)) (some i9) = .ok (some i10)) :
    Recoloured k f c.textureColorSpace (ms ++ jobFlips c) (fun v =>
      let v := if c.swizzle then
          stored f (Selection.apply 0 1 ⟨c.redSwzl, c.greenSwzl, c.blueSwzl, c.alphaSwzl⟩ (g v))
        else g v
      if c.preMultiply = true ∧ f = .RGBAF then multiplied c.textureColorSpace v else v) i10 := by
  have m7 : Recoloured k f c.textureColorSpace (ms ++ if c.flipX then [.mirrorX] else []) g i7 := by
    unfold whenAsked at e7
    split at e7
    · rename_i hr
      obtain ⟨m', em, e7⟩ := Res.bind_eq_ok.1 e7
      cases e7
      cases em
      rw [if_pos hr]
      refine m6.move F (FI := FI) (m := .mirrorX) ?_
      unfold runMove
      rw [if_pos (show (i6.flipHorizontal FI).1 = true from (W _).1)]
    · rename_i hr
      cases e7
      rw [if_neg hr, List.append_nil]
      exact m6
  have m8 : Recoloured k f c.textureColorSpace (ms ++ jobFlips c) g i8 := by
    unfold jobFlips
    rw [← List.append_assoc]
    unfold whenAsked at e8
    split at e8
    · rename_i hr
      obtain ⟨m', em, e8⟩ := Res.bind_eq_ok.1 e8
      cases e8
      cases em
      rw [if_pos hr]
      refine m7.move F (FI := FI) (m := .mirrorY) ?_
      unfold runMove
      rw [if_pos (show (i7.flipVertical FI).1 = true from (W _).2)]
    · rename_i hr
      cases e8
      rw [if_neg hr, List.append_nil]
      exact m7
  have m9 : Recoloured k f c.textureColorSpace (ms ++ jobFlips c) (fun v =>
      if c.swizzle then stored f (Selection.apply 0 1 ⟨c.redSwzl, c.greenSwzl, c.blueSwzl, c.alphaSwzl⟩ (g v))
      else g v) i9 := by
    unfold whenAsked at e9
    split at e9
    · rename_i hr
      obtain ⟨m', em, e9⟩ := Res.bind_eq_ok.1 e9
      cases e9
      simp only [hr, if_true]
      have em : i8.mapPixels Arith.exact (Selection.apply 0 1 ⟨c.redSwzl, c.greenSwzl, c.blueSwzl, c.alphaSwzl⟩) =
          .ok i9 := by
        rw [← em]
        unfold Image.swizzle
        congr 1
        funext v
        unfold Selection.apply
        have s (a b : ℝ) (hab : a = b) (ch : Channel) : choose v a ch = selectChannel v b ch := by
          subst hab
          cases ch <;> rfl
        have z : (0 : ℝ) = Arith.exact.lit 0 := by simp [Arith.exact]
        have o : (1 : ℝ) = Arith.exact.lit 1 := by simp [Arith.exact]
        rw [s _ _ z, s _ _ z, s _ _ z, s _ _ o]
      exact m8.map hf em
    · rename_i hr
      simp only [hr]
      cases e9
      exact m8
  unfold whenAsked at e10
  split at e10
  · rename_i hr
    obtain ⟨m', em, e10⟩ := Res.bind_eq_ok.1 e10
    cases e10
    simp only [hr, true_and]
    have em : i9.preMultiplyAlpha Arith.exact = .ok i10 := em
    unfold Image.preMultiplyAlpha at em
    rw [show preMultiply Arith.exact i9.colorSpace = multiplied i9.colorSpace from funext (preMultiply_eq _), m9.space,
      m9.format] at em
    rcases hf with rfl | rfl
    · rw [if_pos (by simp)] at em
      simp only [if_true]
      exact m9.map (Or.inl rfl) em
    · rw [if_neg (by simp)] at em
      cases em
      simpa using m9
  · rename_i hr
    simp only [hr, false_and, if_false]
    cases e10
    simpa [hr] using m9

/-- What every processed image is made of, without a normal map. -/
theorem processLoaded_colors (F : LawfulFI Arith.exact FI) (K : KeepsColors FI) (W : FlipsWork FI) {c : Cmd ℝ}
    {i j : Image ℝ} {w h l : ℕ} (hi : ImgOk Arith.exact i) (hcs : i.colorSpace = c.imageColorSpace)
    (hpos : 0 < i.bmp.width ∧ 0 < i.bmp.height) (hn : c.normalMap = false)
    (e : processLoaded Arith.exact FI c i w h l = .ok (some j)) :
    ∃ m k, InSpace c i m ∧
      (if levelSize (w, h) l = (i.bmp.width, i.bmp.height) then k = m
        else m.resize Arith.exact FI (levelSize (w, h) l).1 (levelSize (w, h) l).2 c.resizeFilter = .ok (some k)) ∧
      (k.bmp.width, k.bmp.height) = levelSize (w, h) l ∧
      Recoloured k .RGBAF c.textureColorSpace (jobMoves c) (finishedColor c i.format) j := by
  obtain ⟨i1, m, k, i4, i5, i6, orig, i7, i8, i9, i10, e1, e2, e3, e4, e5, e6, e7, e8, e9, e10, e⟩ :=
    processLoaded_steps e
  rw [if_neg (by simp [hn])] at e3
  obtain ⟨h1, h2, h3, h4⟩ := first_colors F K hi hcs hpos e1 e2 e3 e4 e5
  rw [toolNormalMap, if_neg (by simp [hn])] at e6
  cases e6
  have m10 := last_colors F W (Or.inl rfl) h4 e7 e8 e9 e10
  simp only [and_true] at m10
  exact ⟨m, k, h1, h2, h3, m10.adjust e⟩

/-- What every processed normal map is made of, if the image has the right size. -/
theorem processLoaded_normals (F : LawfulFI Arith.exact FI) (K : KeepsColors FI) (W : FlipsWork FI) {c : Cmd ℝ}
    {i j : Image ℝ} {w h l : ℕ} (hi : ImgOk Arith.exact i) (hcs : i.colorSpace = c.imageColorSpace)
    (hpos : 0 < i.bmp.width ∧ 0 < i.bmp.height) (hn : c.normalMap = true) (hl : levelSize (w, h) l = (w, h))
    (e : processLoaded Arith.exact FI c i w h l = .ok (some j)) :
    ∃ m k t n, InSpace c i m ∧
      (if (w, h) = (i.bmp.width, i.bmp.height) then k = m
        else m.resize Arith.exact FI w h c.resizeFilter = .ok (some k)) ∧
      (k.bmp.width, k.bmp.height) = (w, h) ∧
      Recoloured k .RGBAF c.textureColorSpace (jobTurn c)
        (fun v => if c.grayscale then greyed c.textureColorSpace v else v) t ∧
      t.createNormalMap Arith.exact FI
        (if isSigned c.type then { c.normalOptions with keepSign := true } else c.normalOptions) c.normalHeight .RGBF =
          .ok (some n) ∧
      Recoloured n .RGBF c.textureColorSpace (jobFlips c) (fun v => if c.swizzle then
          stored .RGBF (Selection.apply 0 1 ⟨c.redSwzl, c.greenSwzl, c.blueSwzl, c.alphaSwzl⟩ v)
        else v) j := by
  obtain ⟨i1, m, k, i4, t, n, orig, i7, i8, i9, i10, e1, e2, e3, e4, e5, e6, e7, e8, e9, e10, e⟩ :=
    processLoaded_steps e
  rw [if_pos hn] at e3
  rw [if_pos hn, hl] at e6
  obtain ⟨h1, h2, h3, h4⟩ := first_colors F K hi hcs hpos e1 e2 e3 e4 e5
  unfold toolNormalMap at e6
  rw [if_pos hn] at e6
  obtain ⟨o, eo, e6⟩ := Res.bind_eq_ok.1 e6
  simp only [whenAsked, ne_eq, not_true_eq_false, or_self, decide_false] at e6
  obtain ⟨o', eo', e6⟩ := Res.bind_eq_ok.1 e6
  cases eo'
  have e61 : o = some n := congrArg Prod.fst (Res.ok.inj e6)
  have e62 : formatOf o = orig := congrArg Prod.snd (Res.ok.inj e6)
  subst e61
  have eo : t.createNormalMap Arith.exact FI
        (if isSigned c.type then { c.normalOptions with keepSign := true } else c.normalOptions) c.normalHeight .RGBF =
          .ok (some n) := eo
  obtain ⟨r, er, hr⟩ := C31_normals F h4.ok (if isSigned c.type then { c.normalOptions with keepSign := true } else
    c.normalOptions) c.normalHeight (dst := .RGBF) (by simp)
  rw [eo] at er
  cases er
  obtain ⟨n1, n2, n3, -⟩ := hr n rfl
  have m6 := Recoloured.refl n1 n2
  rw [n3, h4.space] at m6
  have m10 := last_colors F W (Or.inr rfl) m6 e7 e8 e9 e10
  simp only [reduceCtorEq, and_false, if_false, List.nil_append, id] at m10
  have hu := C32_unchanged Arith.exact FI i10 c.type orig (Or.inr (by
    rw [← e62]
    simp [formatOf, n2, sources]))
  rw [e] at hu
  cases hu
  exact ⟨m, k, t, n, h1, h2, h3, h4, eo, m10⟩

end Cuttlefish
