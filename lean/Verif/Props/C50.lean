import Verif.Proofs.ProcessAlive
import Verif.Proofs.ProcessColors
import Verif.Proofs.ProcessJob
import Verif.Spec.ToyImage
/-
C50: the tool turns every input image into the image that the options ask for.

`imageSize`, `jobMoves`, `inTexture`, `finishedColor`, `AsAsked`, `TurnedMip`, `LoadsWell`, `Counts` and the assumptions about
FreeImage are in `Verif/Spec/Process.lean`, `SizeFor` is in `Verif/Props/C36.lean`.  `processLoaded` is
`loadAndProcessImage` of an image that could be loaded, `loadImages` the loops over all images.
-/
namespace Cuttlefish
open Spec
variable {N σ : Type} {A : Arith N}

/-- All images of a job get the size that is asked for with the first image, in the colour space of the texture and in a
floating point format; the size is that of the mip level, turned if the image is turned.  In every lawful arithmetic (IEEE
and exact ones are), for all options.  Missing: smaller mip levels of normal maps that are turned by a quarter, see
`C50_fails_turned`. -/
theorem C50_job_partial {FI : FreeImage N} (L : LawfulArith A) (F : LawfulFI A FI) {read : Str → ColorSpace → Img? N}
    (R : LoadsWell A read) {E : ToolEnv (Image N) N σ} (hE : E.load = loadAndProcess A FI read) {c : Cmd N}
    (hg : GivenSizes c) {p : Str} {ps : List Str} (hp : c.images = p :: ps) {images : List (Img? N)}
    {custom : CustomMips (Image N)} (h : loadImages E c = .ok (some (images, custom))) :
    ∃ first s, read p c.imageColorSpace = some first ∧
      SizeFor first.bmp.width first.bmp.width first.bmp.height (sizeOfInt c.width) s.1 ∧
      SizeFor first.bmp.height first.bmp.width first.bmp.height (sizeOfInt c.height) s.2 ∧
      (∀ j, some j ∈ images → AsAsked c s 0 j) ∧
      ∀ m ∈ custom, ∀ j, m.2.image = some (some j) → ¬ TurnedMip c s m.1.mipLevel → AsAsked c s m.1.mipLevel j := by
  obtain ⟨o, eo, h⟩ := Res.bind_eq_ok.1 h
  cases o with
  | none => cases h
  | some o =>
    obtain ⟨q, eq, h⟩ := Res.bind_eq_ok.1 h
    cases q with
    | none => cases h
    | some q =>
      cases h
      rw [hp] at eo
      simp only [loadMain, Res.bind_eq_ok] at eo
      obtain ⟨a, ea, eo⟩ := eo
      cases a with
      | none => cases eo
      | some a =>
        obtain ⟨b, eb, eo⟩ := Res.bind_eq_ok.1 eo
        cases b with
        | none => cases eo
        | some b =>
          cases eo
          rw [hE] at ea
          obtain ⟨i, h1, h2, h3⟩ := loadAndProcess_asked L F R ea
          have hc := (R _ _ _ h1).2.2
          obtain ⟨⟨t1, t2⟩, t3, t4⟩ := target_bounds hc hg
          obtain ⟨s1, s2⟩ := target_asked hc hg
          generalize targetSize c i unset unset = T at *
          have e1 : a.2.1 = T.1 := congrArg Prod.fst h2
          have e2 : a.2.2 = T.2 := congrArg Prod.snd h2
          rw [e1, e2] at eb
          obtain ⟨b1, b2⟩ := loadMain_asked L F R hE ⟨t1, t3⟩ t2 eb
          refine ⟨i, T, h1, s1, s2, ?_, ?_⟩
          · intro j hj
            rcases List.mem_cons.1 hj with hj | hj
            · exact h3 j hj.symm (fun ht => ht.2.2 (level_zero ⟨t1, t3⟩))
            · exact b2 j hj
          · dsimp only at eq
            have e3 : b.2.1 = T.1 := congrArg Prod.fst b1
            have e4 : b.2.2 = T.2 := congrArg Prod.snd b1
            rw [e3, e4] at eq
            exact loadCustom_asked L F R hE t2 eq

/-- One image: with IEEE arithmetic, processing it is defined, for every image, size, level and all options, unless its
pixels cannot be counted (for a normal map also those of the target); with enough memory there is a result. -/
theorem C50_defined (Lm : Libm) {FI : FreeImage Dbl} (F : LawfulFI (Arith.ieee Lm) FI) {c : Cmd Dbl} {i : Image Dbl}
    {w h l : ℕ} (hi : ImgOk (Arith.ieee Lm) i) (hcs : i.colorSpace = c.imageColorSpace) (hc : Spec.Countable i)
    (hw : 0 < w ∧ w < 2 ^ 32) (hh : 0 < h ∧ h < 2 ^ 32) (hl : l < 32) (hn : c.normalMap = true → Counts (w, h)) :
    ∃ r, processLoaded (Arith.ieee Lm) FI c i w h l = .ok r ∧
      (EnoughMemory FI → CanResize FI c.resizeFilter → r ≠ none) := by
  obtain ⟨r, e⟩ := processLoaded_defined (lawful_ieee Lm) F filters_ieee hi hcs hc hw.2 hh.2 hl hn
  exact ⟨r, e, fun M C => processLoaded_alive (lawful_ieee Lm) F M C hi hcs ⟨hc.1, hc.2.1⟩ (fun _ => ⟨hw.1, hh.1⟩) e⟩

/-- Loading and processing all images of a job is defined, with IEEE arithmetic: no mip level is shifted too far, no pixel
is read or written outside an image and no number is converted that does not fit. -/
theorem C50_loads (Lm : Libm) {FI : FreeImage Dbl} (F : LawfulFI (Arith.ieee Lm) FI)
    {read : Str → ColorSpace → Img? Dbl} (R : LoadsWell (Arith.ieee Lm) read) {E : ToolEnv (Image Dbl) Dbl σ}
    (hE : E.load = loadAndProcess (Arith.ieee Lm) FI read) {c : Cmd Dbl} (hg : IntSizes c) {p : Str} {ps : List Str}
    (hp : c.images = p :: ps)
    (hn : c.normalMap = true → GivenSizes c ∧ ∀ first, read p c.imageColorSpace = some first → ∀ w h,
      SizeFor first.bmp.width first.bmp.width first.bmp.height (sizeOfInt c.width) w →
      SizeFor first.bmp.height first.bmp.width first.bmp.height (sizeOfInt c.height) h → Counts (w, h)) :
    ∃ r, loadImages E c = .ok r := by
  have L := lawful_ieee Lm
  have D := filters_ieee (Lm := Lm)
  have key : ∃ r, loadMain E c (p :: ps) unset unset = .ok r ∧ ∀ q, r = some q → q.2.1 + 1 < 2 ^ 32 ∧ q.2.2 < 2 ^ 32 ∧
      (c.normalMap = true → Counts (q.2.1, q.2.2)) := by
    have tb (i : Image Dbl) (hr : read p c.imageColorSpace = some i) : (targetSize c i unset unset).1 + 1 < 2 ^ 32 ∧
        (targetSize c i unset unset).2 < 2 ^ 32 ∧ (c.normalMap = true → Counts (targetSize c i unset unset)) := by
      obtain ⟨t2, t4⟩ := target_small (R _ _ _ hr).2.2 hg
      refine ⟨t2, by omega, fun hm => ?_⟩
      obtain ⟨s1, s2⟩ := target_asked (R _ _ _ hr).2.2 (hn hm).1
      exact (hn hm).2 i hr _ _ s1 s2
    obtain ⟨o, eo⟩ := loadAndProcess_defined (c := c) (p := p) (w := unset) (h := unset) (l := 0) L F D R
      (by norm_num) tb
    unfold loadMain
    rw [hE, eo, Res.ok_bind]
    cases o with
    | none => exact ⟨_, rfl, by simp⟩
    | some o =>
      obtain ⟨i, h1, h2, -⟩ := loadAndProcess_asked L F R eo
      obtain ⟨t2, t4, tn⟩ := tb i h1
      generalize targetSize c i unset unset = T at *
      have e1 : o.2.1 = T.1 := congrArg Prod.fst h2
      have e2 : o.2.2 = T.2 := congrArg Prod.snd h2
      dsimp only
      rw [e1, e2]
      obtain ⟨q, eq, hq⟩ := loadMain_defined L F D R hE t2 t4 tn ps
      rw [eq, Res.ok_bind]
      cases q with
      | none => exact ⟨_, rfl, by simp⟩
      | some q =>
        refine ⟨_, rfl, ?_⟩
        rintro r ⟨⟩
        have e3 := hq q rfl
        have e4 : q.2.1 = T.1 := congrArg Prod.fst e3
        have e5 : q.2.2 = T.2 := congrArg Prod.snd e3
        dsimp only
        rw [e4, e5]
        exact ⟨t2, t4, tn⟩
  obtain ⟨r, e, hr⟩ := key
  unfold loadImages
  rw [hp, e, Res.ok_bind]
  cases r with
  | none => exact ⟨_, rfl⟩
  | some r =>
    obtain ⟨t2, t4, tn⟩ := hr r rfl
    dsimp only
    obtain ⟨q, eq⟩ := loadCustom_defined (T := (r.2.1, r.2.2)) (n := min c.mipLevels
      (maxMipmapLevels c.dimension r.2.1 r.2.2 (u32 r.1.length))) L F D R hE t2 t4 tn
      ((Nat.min_le_right _ _).trans (maxMip_le _ _ _ _)) c.customMips
    dsimp only at eq
    rw [eq, Res.ok_bind]
    cases q with
    | none => exact ⟨_, rfl⟩
    | some q => exact ⟨_, rfl⟩

/-- The pixels, in exact arithmetic, if the image has the size already and there is no normal map: every pixel of the
input is found where the rotation and the flips move it, in the colour space of the texture and with grayscale, chosen
channels, pre-multiplied alpha and the range of the type applied in this order; and there are no other pixels. -/
theorem C50_pixels {FI : FreeImage ℝ} (F : LawfulFI Arith.exact FI) (K : KeepsColors FI) (W : FlipsWork FI) {c : Cmd ℝ}
    {i j : Image ℝ} {w h l : ℕ} (hi : ImgOk Arith.exact i) (hcs : i.colorSpace = c.imageColorSpace)
    (hpos : 0 < i.bmp.width ∧ 0 < i.bmp.height) (hn : c.normalMap = false)
    (hs : levelSize (w, h) l = (i.bmp.width, i.bmp.height))
    (e : processLoaded Arith.exact FI c i w h l = .ok (some j)) :
    (j.bmp.width, j.bmp.height) = imageSize c (w, h) l ∧
    ∀ x y v, i.getPixel Arith.exact x y = .ok (some v) →
      j.getPixel Arith.exact (place (jobMoves c) ((i.bmp.width, i.bmp.height), (x, y))).2.1
        (place (jobMoves c) ((i.bmp.width, i.bmp.height), (x, y))).2.2 =
          .ok (some (finishedColor c i.format (inTexture c v))) := by
  obtain ⟨m, k, ⟨h1, h2⟩, h3, h4, h5⟩ := processLoaded_colors F K W hi hcs hpos hn e
  rw [if_pos hs] at h3
  subst h3
  have hk := h1.size
  refine ⟨?_, ?_⟩
  · unfold imageSize
    rw [← h5.size (0, 0), h4]
  · intro x y v hv
    have := h5.px x y _ (h2 x y v hv)
    rw [hk] at this
    exact this

/-- If the image is resized, by the library or by a FreeImage that gives averages: every pixel of the resized image has a colour between those of the input in
the colour space of the texture (up to 2e-7 if that is sRGB), and is moved and finished in the same way. -/
theorem C50_resized {FI : FreeImage ℝ} (F : LawfulFI Arith.exact FI) (K : KeepsColors FI) (W : FlipsWork FI) {c : Cmd ℝ}
    {i j : Image ℝ} {w h l : ℕ} (hi : ImgOk Arith.exact i) (hcs : i.colorSpace = c.imageColorSpace)
    (hc : Spec.Countable i) (hn : c.normalMap = false)
    (avg : AverageFilter FI .RGBAF (levelSize (w, h) l).1 (levelSize (w, h) l).2 c.resizeFilter)
    (e : processLoaded Arith.exact FI c i w h l = .ok (some j)) :
    (j.bmp.width, j.bmp.height) = imageSize c (w, h) l ∧
    ∀ x y, x < (levelSize (w, h) l).1 → y < (levelSize (w, h) l).2 → ∃ v,
      Between (if c.textureColorSpace = .Linear then 0 else 2 / 10 ^ 7)
        (fun u => ∃ d, Colors i d ∧ u = inTexture c d) v ∧
      j.getPixel Arith.exact (place (jobMoves c) (levelSize (w, h) l, (x, y))).2.1
        (place (jobMoves c) (levelSize (w, h) l, (x, y))).2.2 = .ok (some (finishedColor c i.format v)) := by
  obtain ⟨m, k, ⟨h1, h2⟩, h3, h4, h5⟩ := processLoaded_colors F K W hi hcs ⟨hc.1, hc.2.1⟩ hn e
  have ms1 : m.bmp.width = i.bmp.width := congrArg Prod.fst h1.size
  have ms2 : m.bmp.height = i.bmp.height := congrArg Prod.snd h1.size
  have hm : Spec.Countable m := by
    unfold Spec.Countable
    rw [ms1, ms2]
    exact hc
  -- the colours of the image before resizing are those of the input
  have from_i (d : Color ℝ) (hd : Colors m d) : ∃ v, Colors i v ∧ d = inTexture c v := by
    obtain ⟨x, y, hd⟩ := hd
    obtain ⟨hx, hy, -⟩ := getPixel_some hd
    obtain ⟨v, -, ev⟩ := Image.get_ok hi (show i.bmp.height - y - 1 < i.bmp.height by omega)
      (show x < i.bmp.width by omega)
    have hv : i.getPixel Arith.exact x y = .ok (some v) := by
      rw [getPixel_in (by omega) (by omega), ev]
      rfl
    refine ⟨v, ⟨x, y, hv⟩, ?_⟩
    have := h2 x y v hv
    rw [hd] at this
    exact Option.some.inj (Res.ok.inj this)
  have tol : (0 : ℝ) ≤ if c.textureColorSpace = .Linear then 0 else 2 / 10 ^ 7 := by split <;> norm_num
  have key : ∀ d, Colors k d → Between (if c.textureColorSpace = .Linear then 0 else 2 / 10 ^ 7) (Colors m) d := by
    by_cases hs : levelSize (w, h) l = (i.bmp.width, i.bmp.height)
    · rw [if_pos hs] at h3
      subst h3
      exact fun d hd ch _ => ⟨⟨d, hd, by linarith⟩, d, hd, by linarith⟩
    · rw [if_neg hs] at h3
      rw [← h1.format] at avg
      have p1 : 0 < (levelSize (w, h) l).1 := by simp only [levelSize]; omega
      have p2 : 0 < (levelSize (w, h) l).2 := by simp only [levelSize]; omega
      by_cases hl : c.textureColorSpace = .Linear
      · rw [if_pos hl]
        obtain ⟨r, er, hr⟩ := C30_linear F h1.ok hm (h1.space.trans hl) p1 p2 avg
        rw [h3] at er
        cases er
        exact (hr k rfl).2.2.2.2.2
      · rw [if_neg hl]
        have hs : c.textureColorSpace = .sRGB := by
          cases hcs : c.textureColorSpace
          · exact absurd hcs hl
          · rfl
        obtain ⟨r, er, hr⟩ := C30_srgb_partial F h1.ok hm (by rw [h1.format]; exact Or.inr (Or.inl rfl))
          (h1.space.trans hs) p1 p2 avg
        rw [h3] at er
        cases er
        exact (hr k rfl).2.2.2.2.2
  have kok : ImgOk Arith.exact k := by
    by_cases hs : levelSize (w, h) l = (i.bmp.width, i.bmp.height)
    · rw [if_pos hs] at h3
      rw [h3]
      exact h1.ok
    · rw [if_neg hs] at h3
      exact (resize_keep lawful_exact F h1.ok h3).1
  refine ⟨?_, ?_⟩
  · unfold imageSize
    rw [← h5.size (0, 0), h4]
  · intro x y hx hy
    rw [← h4] at hx hy
    dsimp only at hx hy
    obtain ⟨v, -, ev⟩ := Image.get_ok kok (show k.bmp.height - y - 1 < k.bmp.height by omega) hx
    have hv : k.getPixel Arith.exact x y = .ok (some v) := by
      rw [getPixel_in hx hy, ev]
      rfl
    refine ⟨v, ?_, ?_⟩
    · intro ch hch
      obtain ⟨⟨d1, hd1, b1⟩, d2, hd2, b2⟩ := key v ⟨x, y, hv⟩ ch hch
      exact ⟨⟨d1, from_i d1 hd1, b1⟩, d2, from_i d2 hd2, b2⟩
    · rw [← h4]
      exact h5.px x y v hv

/-- Normal maps of an image that has the size already: the heights are the red channels of the turned image (grey if asked
for), every pixel is the normal at its place, with a sign if the type of the texture has one, and the result is flipped. -/
theorem C50_normals {FI : FreeImage ℝ} (F : LawfulFI Arith.exact FI) (K : KeepsColors FI) (W : FlipsWork FI) {c : Cmd ℝ}
    {i j : Image ℝ} {w h l : ℕ} (hi : ImgOk Arith.exact i) (hcs : i.colorSpace = c.imageColorSpace)
    (hpos : 0 < i.bmp.width ∧ 0 < i.bmp.height) (hn : c.normalMap = true)
    (hs : (w, h) = (i.bmp.width, i.bmp.height)) (hl : levelSize (w, h) l = (w, h))
    (e : processLoaded Arith.exact FI c i w h l = .ok (some j)) :
    ∃ t : Image ℝ, (t.bmp.width, t.bmp.height) = imageSize c (w, h) l ∧
      (j.bmp.width, j.bmp.height) = imageSize c (w, h) l ∧
      (∀ x y v, i.getPixel Arith.exact x y = .ok (some v) →
        t.getPixel Arith.exact (place (jobTurn c) ((w, h), (x, y))).2.1 (place (jobTurn c) ((w, h), (x, y))).2.2 =
          .ok (some (heightColor c v))) ∧
      ∀ x y, x < t.bmp.width → y < t.bmp.height → ∃ left right up down,
        Around t c.normalOptions.wrapX c.normalOptions.wrapY x y left right up down ∧
        j.getPixel Arith.exact (place (jobFlips c) ((t.bmp.width, t.bmp.height), (x, y))).2.1
          (place (jobFlips c) ((t.bmp.width, t.bmp.height), (x, y))).2.2 = .ok (some (normalColor c
            (unit ((left - right) * c.normalHeight / apart c.normalOptions.wrapX t.bmp.width x)
              ((down - up) * c.normalHeight / apart c.normalOptions.wrapY t.bmp.height y)))) := by
  obtain ⟨m, k, t, n, ⟨h1, h2⟩, h3, h4, h5, h6, h7⟩ := processLoaded_normals F K W hi hcs hpos hn hl e
  rw [if_pos hs] at h3
  subst h3
  have flips (s : Place) : (place (jobFlips c) s).1 = s.1 := by
    unfold jobFlips
    cases c.flipX <;> cases c.flipY <;> rfl
  have ht : (t.bmp.width, t.bmp.height) = imageSize c (w, h) l := by
    unfold imageSize jobMoves
    rw [show place (jobTurn c ++ jobFlips c) = fun s => place (jobFlips c) (place (jobTurn c) s) from
      funext fun s => by simp [place, List.foldl_append]]
    dsimp only
    rw [flips, hl, ← h4]
    exact (h5.size (0, 0)).symm
  obtain ⟨r, er, hr⟩ := C31_normals F h5.ok (if isSigned c.type then { c.normalOptions with keepSign := true } else
    c.normalOptions) c.normalHeight (dst := .RGBF) (by simp)
  rw [h6] at er
  cases er
  obtain ⟨-, -, -, n4, n5, n6⟩ := hr n rfl
  have wx : (if isSigned c.type = true then { c.normalOptions with keepSign := true } else c.normalOptions).wrapX =
      c.normalOptions.wrapX := by split <;> rfl
  have wy : (if isSigned c.type = true then { c.normalOptions with keepSign := true } else c.normalOptions).wrapY =
      c.normalOptions.wrapY := by split <;> rfl
  have sg : ((if isSigned c.type = true then { c.normalOptions with keepSign := true } else
      c.normalOptions).keepSign = true) = (c.normalOptions.keepSign = true ∨ c.type ∈ [.SNorm, .Int, .Float]) := by
    cases c.type <;> simp [isSigned]
  refine ⟨t, ht, ?_, ?_, ?_⟩
  · rw [← ht, ← n4, ← n5, ← h7.size (0, 0), flips]
  · intro x y v hv
    have := h5.px x y _ (h2 x y v hv)
    rw [h4] at this
    exact this
  · intro x y hx hy
    obtain ⟨left, right, up, down, u, ha, hu, -, -, hp⟩ := n6 x y hx hy
    rw [wx, wy] at hu
    rw [wx, wy] at ha
    refine ⟨left, right, up, down, ha, ?_⟩
    have := h7.px x y _ hp
    rw [n4, n5] at this
    rw [this, ← hu]
    have hv : stored .RGBF (toGrey .RGBF (if (if isSigned c.type = true then { c.normalOptions with keepSign := true } else
        c.normalOptions).keepSign = true then u else onColor toUnsigned u)) =
        if c.normalOptions.keepSign = true ∨ c.type ∈ [.SNorm, .Int, .Float] then u else onColor toUnsigned u := by
      simp only [sg]
      rw [hu]
      split <;> rfl
    rw [hv]
    rfl

/-- What the range of a type does to an integer that is stored as a fraction: it is itself again for `UInt`, the lowest
integer is added for `Int`, and `SNorm` goes from -1 to 1. -/
theorem C50_range {orig : IFormat} {k m v : ℕ} (hm : largest orig k = some m) (hv : v ≤ m) :
    inRange .UInt orig k (v / m) = v ∧ inRange .Int orig k (v / m) = v - (((m + 1) / 2 : ℕ) : ℝ) ∧
      inRange .SNorm orig k (v / m) = (2 * v - m) / m := by
  have ho : orig ∈ sources := by
    cases orig <;> simp [largest, sources] at hm ⊢
  have pos : (0 : ℝ) < m := by
    have := (adjust_tables (type := .UInt) (by simp) hm).2.2.1
    exact_mod_cast this
  have e : (v : ℝ) / m * m = v := by field_simp
  have aw (z : ℤ) : away z = z := by
    unfold away
    have f (z : ℤ) : ⌊(z : ℝ) + 1 / 2⌋ = z := by
      rw [Int.floor_eq_iff]
      constructor <;> linarith
    split
    · rw [f]
    · have := f (-z)
      push_cast at this
      rw [this]
      push_cast
      ring
  unfold inRange
  rw [if_neg (by simpa using ho), if_neg (by simpa using ho), if_neg (by simpa using ho)]
  dsimp only
  rw [hm]
  dsimp only
  rw [e]
  refine ⟨?_, ?_, ?_⟩
  · simpa [lowest] using aw v
  · have := aw ((v : ℤ) - (((m + 1) / 2 : ℕ) : ℤ))
    push_cast at this
    rw [show ((v : ℝ) + ((lowest .Int m : ℤ) : ℝ)) = ((v : ℤ) - (((m + 1) / 2 : ℕ) : ℤ) : ℤ) by
      simp only [lowest, if_true]
      push_cast
      ring_nf, aw]
    push_cast
    rfl
  · field_simp

/-- A job that makes a normal map of an image that is turned by a quarter. -/
def turnedNormals : Cmd Dbl :=
  { normalHeight := .fin 1, normalMap := true, rotate := true, rotateAngle := .CW90, resizeFilter := .Box }

theorem toy_memory {A : Arith N} {r : Bool} : EnoughMemory (Toy.fi A r) :=
  ⟨fun f w h hf => by simp [Toy.fi, hf], fun b => by simp [Toy.fi]⟩

/-- The second mip level of a texture of 4 x 2 pixels, given as an image of its own: turned by a quarter it has 1 x 2
pixels, but as a normal map it gets 2 x 1. -/
theorem C50_fails_turned (Lm : Libm) : imageSize turnedNormals (4, 2) 1 = (1, 2) ∧
    ∃ j, processLoaded (Arith.ieee Lm) (Toy.fi (Arith.ieee Lm) true) turnedNormals Toy.rgba 4 2 1 = .ok (some j) ∧
      (j.bmp.width, j.bmp.height) = (2, 1) := by
  refine ⟨by decide, ?_⟩
  obtain ⟨r, e, hr⟩ := C50_defined Lm (Toy.fi_ieee Lm true) (c := turnedNormals) (i := Toy.rgba) (w := 4) (h := 2)
    (l := 1) (Toy.rgba_ok _) rfl (by simp [Spec.Countable, Toy.rgba]) (by norm_num) (by norm_num) (by norm_num)
    (fun _ => by simp [Counts])
  cases r with
  | none => exact absurd rfl (hr toy_memory (Or.inl rfl))
  | some j =>
    refine ⟨j, e, ?_⟩
    obtain ⟨-, -, h, -⟩ := processLoaded_shape (lawful_ieee Lm) (Toy.fi_ieee Lm true) (Toy.rgba_ok _) rfl
      (by simp [Toy.rgba]) e
    rw [h]
    decide

/-- A job for a texture of half the width, in a file system where every path is the image of the examples of C26. -/
def toyJob : Cmd Dbl :=
  { normalHeight := .fin 1, images := [cstr "a.png", cstr "b.png"], width := 6, height := 4, resizeFilter := .Box,
    rotate := true, rotateAngle := .CCW90, flipX := true, grayscale := true, preMultiply := true, type := .UInt,
    mipLevels := 2, customMips := [(⟨.PosX, 1, 0⟩, cstr "c.png", .Once)] }

/-- Every path is this image. -/
def toyRead (_ : Str) (cs : ColorSpace) : Img? Dbl := some { Toy.rgba with colorSpace := cs }

theorem toyRead_well (Lm : Libm) : LoadsWell (Arith.ieee Lm) toyRead := by
  intro path cs i e
  cases e
  exact ⟨Toy.rgba_ok (Arith.ieee Lm), rfl, by simp [Spec.Countable, Toy.rgba]⟩

/-- The job meets the hypotheses of `C50_job_partial` and `C50_loads`, and its images are turned: 4 x 6 pixels, and 2 x 3
for the smaller mip level. -/
example (Lm : Libm) (E : ToolEnv (Image Dbl) Dbl σ)
    (hE : E.load = loadAndProcess (Arith.ieee Lm) (Toy.fi (Arith.ieee Lm) true) toyRead) :
    GivenSizes toyJob ∧ (∃ r, loadImages E toyJob = .ok r) ∧ imageSize toyJob (6, 4) 0 = (4, 6) ∧
      imageSize toyJob (6, 4) 1 = (2, 3) ∧ ¬ TurnedMip toyJob (6, 4) 1 := by
  have g : GivenSizes toyJob := by
    intro o ho n e
    simp only [List.mem_cons, List.not_mem_nil, or_false, toyJob, sizeOfInt] at ho
    rcases ho with rfl | rfl
    · norm_num at e
      omega
    · norm_num at e
      omega
  refine ⟨g, C50_loads Lm (Toy.fi_ieee Lm true) (toyRead_well Lm) hE (by unfold IntSizes; decide) rfl (fun h => by cases h), by decide, by decide,
    fun h => by cases h.1⟩

/-- A job in exact arithmetic. -/
noncomputable def exactJob (w : ℕ) : Cmd ℝ :=
  { normalHeight := 1, resizeFilter := .Box, width := w, rotate := true, rotateAngle := .CW90, flipY := true,
    preMultiply := true, swizzle := true, redSwzl := .Blue, blueSwzl := .Red, type := .UInt }

theorem toy_keeps {r : Bool} : KeepsColors (Toy.fi Arith.exact r) := fun f b b' _ e => by simp [Toy.fi] at e

theorem toy_flips {A : Arith N} {r : Bool} : FlipsWork (Toy.fi A r) := fun b => ⟨rfl, rfl⟩

/-- The example image, without and with resizing, meets the hypotheses of `C50_pixels` and `C50_resized`. -/
example (w : ℕ) (hw : 0 < w ∧ w < 2 ^ 32) : ∃ j, processLoaded Arith.exact (Toy.fi Arith.exact true) (exactJob w)
    Toy.rgba w 2 0 = .ok (some j) := by
  obtain ⟨r, e⟩ := processLoaded_defined lawful_exact (Toy.fi_exact true) filters_exact (c := exactJob w) (i := Toy.rgba)
    (w := w) (h := 2) (l := 0) (Toy.rgba_ok _) rfl (by simp [Spec.Countable, Toy.rgba]) hw.2 (by norm_num) (by norm_num)
    (fun h => by cases h)
  cases r with
  | none => exact absurd rfl (processLoaded_alive lawful_exact (Toy.fi_exact true) toy_memory (Or.inl rfl) (Toy.rgba_ok _)
      rfl (by simp [Toy.rgba]) (fun _ => ⟨hw.1, by norm_num⟩) e)
  | some j => exact ⟨j, e⟩

/-- The pixel in the lower right corner of the example image is (2, 10, 40) with full alpha; turned clockwise and
flipped it is at the left of the first row, with red and blue exchanged, as integers. -/
example (j : Image ℝ) (e : processLoaded Arith.exact (Toy.fi Arith.exact true) (exactJob 3) Toy.rgba 3 2 0 =
    .ok (some j)) : (j.bmp.width, j.bmp.height) = (2, 3) ∧
    j.getPixel Arith.exact 0 0 = .ok (some ⟨40, 10, 2, 255⟩) := by
  obtain ⟨h1, h2⟩ := C50_pixels (Toy.fi_exact true) toy_keeps toy_flips (Toy.rgba_ok _) rfl (by simp [Toy.rgba]) rfl
    (by simp [levelSize, Toy.rgba]) e
  refine ⟨h1.trans (by decide), ?_⟩
  have := h2 2 1 ⟨2 / 255, 10 / 255, 40 / 255, 1⟩ (by
    rw [getPixel_in (by simp [Toy.rgba]) (by simp [Toy.rgba])]
    simp [getPixelImpl, fromNorm_exact, exact_lit, Toy.rgba])
  have fin : finishedColor (exactJob 3) .RGBA8 (inTexture (exactJob 3) ⟨2 / 255, 10 / 255, 40 / 255, 1⟩) =
      ⟨40, 10, 2, 255⟩ := by
    have r0 := (C50_range (orig := .RGBA8) (k := 0) (m := 255) (v := 40) rfl (by norm_num)).1
    have r1 := (C50_range (orig := .RGBA8) (k := 1) (m := 255) (v := 10) rfl (by norm_num)).1
    have r2 := (C50_range (orig := .RGBA8) (k := 2) (m := 255) (v := 2) rfl (by norm_num)).1
    have r3 := (C50_range (orig := .RGBA8) (k := 3) (m := 255) (v := 255) rfl (by norm_num)).1
    norm_num at r0 r1 r2 r3
    norm_num [finishedColor, inTexture, exactJob, transfer, onColor, Selection.apply, choose, multiplied, encoded, light, r0,
      r1, r2, r3]
  exact this.trans (congrArg (fun v => Res.ok (some v)) fin)

/-- The example image as a normal map, turned and flipped, meets the hypotheses of `C50_normals`. -/
example : ∃ j, processLoaded Arith.exact (Toy.fi Arith.exact true) { exactJob 3 with normalMap := true } Toy.rgba 3 2 0 =
    .ok (some j) ∧ levelSize (3, 2) 0 = (3, 2) := by
  obtain ⟨r, e⟩ := processLoaded_defined lawful_exact (Toy.fi_exact true) filters_exact
    (c := { exactJob 3 with normalMap := true }) (i := Toy.rgba) (w := 3) (h := 2) (l := 0) (Toy.rgba_ok _) rfl
    (by simp [Spec.Countable, Toy.rgba]) (by norm_num) (by norm_num) (by norm_num) (fun _ => by simp [Counts])
  cases r with
  | none => exact absurd rfl (processLoaded_alive lawful_exact (Toy.fi_exact true) toy_memory (Or.inl rfl) (Toy.rgba_ok _)
      rfl (by simp [Toy.rgba]) (by norm_num) e)
  | some j => exact ⟨j, e, rfl⟩

end Cuttlefish
