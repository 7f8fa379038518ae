import Verif.Proofs.ProcessColors
import Verif.Proofs.ProcessJob
import Verif.Proofs.ToBits
import Verif.Props.C18
import Verif.Spec.Lossless
/-
The integers of an image in the image that the tool makes of it, with IEEE arithmetic.
-/
namespace Cuttlefish
open Spec

/-- The number of a channel. -/
def Spec.Chan.number : Chan → ℕ
  | .R => 0
  | .G => 1
  | .B => 2
  | .A => 3

/-- Every channel has a sample, but for the alpha of 16-bit colours. -/
theorem sample_cases {N : Type} {A : Arith N} {f : IFormat} (hf : f ∈ sources) {p : Px N} (hp : PxOk A f p) (ch : Chan) :
    (∃ m v, sample f p ch = some (m, v) ∧ largest f ch.number = some m ∧ 0 ≤ v ∧ v ≤ m ∧
      m ∈ [31, 63, 255, 65535]) ∨
    (ch = .A ∧ sample f p ch = none ∧ f ∈ opaqueFormats ∧ largest f 3 = none) := by
  have small {a b : ℤ} (hb : 0 < b) : 0 ≤ a % b ∧ a % b < b :=
    ⟨Int.emod_nonneg _ (by omega), Int.emod_lt_of_pos _ hb⟩
  unfold PxOk at hp
  simp only [sources, List.mem_cons, List.not_mem_nil, or_false] at hf
  split at hp <;> try simp only [reduceCtorEq, or_false, or_self] at hf
  case h_3 w =>
    cases ch
    case A => exact Or.inr ⟨rfl, rfl, by simp [opaqueFormats], rfl⟩
    all_goals exact Or.inl ⟨31, _, rfl, rfl, (small (by norm_num)).1, by
      have := (small (a := w) (b := 32) (by norm_num)).2
      have := (small (a := w / 32) (b := 32) (by norm_num)).2
      have := (small (a := w / 1024) (b := 32) (by norm_num)).2
      push_cast; omega, by simp⟩
  case h_4 w =>
    cases ch
    case A => exact Or.inr ⟨rfl, rfl, by simp [opaqueFormats], rfl⟩
    case G => exact Or.inl ⟨63, _, rfl, rfl, (small (by norm_num)).1, by
      have := (small (a := w / 32) (b := 64) (by norm_num)).2
      push_cast; omega, by simp⟩
    all_goals exact Or.inl ⟨31, _, rfl, rfl, (small (by norm_num)).1, by
      have := (small (a := w) (b := 32) (by norm_num)).2
      have := (small (a := w / 2048) (b := 32) (by norm_num)).2
      push_cast; omega, by simp⟩
  all_goals first
    | exact hp.elim
    | left
  all_goals
    cases ch
    all_goals refine ⟨_, _, rfl, rfl, ?_⟩
    all_goals simp only [Upto] at hp
    all_goals refine ⟨by omega, by first | omega | (push_cast; omega), by simp⟩

theorem closeness_near {m : ℕ} (hm : m ∈ [31, 63, 255, 65535]) : closeness m * m ≤ 1 / 4 := by
  simp only [List.mem_cons, List.not_mem_nil, or_false] at hm
  rcases hm with rfl | rfl | rfl | rfl <;> norm_num [closeness]

theorem standsFor_near {x : Dbl} {mv : ℕ × ℤ} (h : StandsFor x mv) : Near x mv := by
  obtain ⟨q, e, h0, h1, h2⟩ := h
  refine ⟨q, e, h0, h1, h2.trans ?_⟩
  unfold closeness
  split <;> norm_num

/-- The pixel that the library's own conversion stores. -/
theorem own_reads (L : Libm) {f : IFormat} (hf : f ∈ sources) {p : Px Dbl} (hp : PxOk (Arith.ieee L) f p)
    {c : Color Dbl} (hc : getPixelImpl (Arith.ieee L) f p = .ok c) {p' : Px Dbl}
    (e : setPixelNoGrayscaleImpl (Arith.ieee L) .RGBAF c = .ok p') : FloatPixel f p p' := by
  have S (m : ℕ) (v : ℤ) (h0 : m ≠ 0) (hm : m ≤ 65535) (h : 0 ≤ v ∧ v ≤ m) :=
    standsFor_near (single_norm L h0 hm h.1 h.2)
  have one : Dbl.single ((Arith.ieee L).lit 1) = .fin 1 := by
    have := ieee_single_one L
    rw [ieee_one] at this
    rw [ieee_one]
    exact this
  have norm (m : ℕ) (hm : m = 31 ∨ m = 63 ∨ m = 255 ∨ m = 65535) (v : ℤ) (h : 0 ≤ v ∧ v ≤ m) :
      Near (Dbl.single ((Arith.ieee L).fromNorm m v)) (m, v) := S m v (by omega) (by omega) h
  have near1 (m : ℕ) (h : m ≠ 0) : Near (.fin 1) (m, (m : ℤ)) := by
    refine ⟨1, rfl, by norm_num, le_refl _, ?_⟩
    have : (m : ℚ) ≠ 0 := by exact_mod_cast h
    simp only [Int.cast_natCast, div_self this, sub_self, abs_zero, closeness]
    split <;> norm_num
  cases e
  refine ⟨_, _, _, _, rfl, ?_, ?_⟩
  · intro ch mv hs
    rcases sample_cases hf hp ch with ⟨m, v, e1, e2, h0, h1, h2⟩ | ⟨-, h1, -⟩
    · rw [e1] at hs
      cases hs
      unfold PxOk at hp
      simp only [sources, List.mem_cons, List.not_mem_nil, or_false] at hf
      split at hp <;> try simp only [reduceCtorEq, or_false, or_self] at hf
      case h_3 w =>
        cases hc
        have w1 : w / 1024 % 32 = getField w 10 5 := by unfold getField; norm_num
        have w2 : w / 32 % 32 = getField w 5 5 := by unfold getField; norm_num
        have w3 : w % 32 = getField w 0 5 := by unfold getField; norm_num
        cases ch
        case A => cases e2
        all_goals obtain ⟨rfl, rfl⟩ := Prod.mk.inj (Option.some.inj e1)
        · rw [w1] at h0 h1 ⊢; exact norm 31 (by simp) _ ⟨h0, h1⟩
        · rw [w2] at h0 h1 ⊢; exact norm 31 (by simp) _ ⟨h0, h1⟩
        · rw [w3] at h0 h1 ⊢; exact norm 31 (by simp) _ ⟨h0, h1⟩
      case h_4 w =>
        cases hc
        have w1 : w / 2048 % 32 = getField w 11 5 := by unfold getField; norm_num
        have w2 : w / 32 % 64 = getField w 5 6 := by unfold getField; norm_num
        have w3 : w % 32 = getField w 0 5 := by unfold getField; norm_num
        cases ch
        case A => cases e2
        all_goals obtain ⟨rfl, rfl⟩ := Prod.mk.inj (Option.some.inj e1)
        · rw [w1] at h0 h1 ⊢; exact norm 31 (by simp) _ ⟨h0, h1⟩
        · rw [w2] at h0 h1 ⊢; exact norm 63 (by simp) _ ⟨h0, h1⟩
        · rw [w3] at h0 h1 ⊢; exact norm 31 (by simp) _ ⟨h0, h1⟩
      all_goals first
        | exact hp.elim
        | cases hc
      all_goals
        cases ch <;> obtain ⟨rfl, rfl⟩ := Prod.mk.inj (Option.some.inj e1)
      all_goals first
        | exact norm _ (by simp) _ ⟨h0, h1⟩
        | (show Near (Dbl.single ((Arith.ieee L).lit 1)) _
           rw [one]
           exact near1 _ (by norm_num))
    · rw [h1] at hs
      cases hs
  · intro ho
    unfold PxOk at hp
    split at hp
    all_goals first
      | exact hp.elim
      | (cases hc; exact one)
      | (simp [opaqueFormats] at ho)

/-- The conversion of an input image of integers. -/
theorem convert_reads (L : Libm) {FI : FreeImage Dbl} (F : LawfulFI (Arith.ieee L) FI)
    (R : ReadsWell (Arith.ieee L) FI) {i j : Image Dbl} (hi : ImgOk (Arith.ieee L) i) (hf : i.format ∈ sources)
    (e : i.convert (Arith.ieee L) FI .RGBAF true = .ok (some j)) {x y : ℕ} (hy : y < i.bmp.height)
    (hx : x < i.bmp.width) : FloatPixel i.format (i.bmp.px y x) (j.bmp.px y x) := by
  have hd : i.format ≠ .RGBAF := by
    intro h
    rw [h] at hf
    simp [sources] at hf
  cases ho : (if usesFreeImage i.format .RGBAF
      (true && isGrayscaleFormat .RGBAF && decide (i.colorSpace = .Linear)) = true
      then FI.convert i.format i.bmp .RGBAF else none) with
  | none =>
    obtain ⟨r, e', -, hr⟩ := convert_own (weighted := true) F hi hd (by simp) ho (fun y x _ _ c _ => by
      obtain ⟨p, e⟩ := set_float (A := Arith.ieee L) (f := .RGBAF) (Or.inr (Or.inl rfl)) c
      exact ⟨p, by simpa [convertPx, isGrayscaleFormat] using e⟩)
    rw [e] at e'
    cases e'
    obtain ⟨-, -, -, -, h⟩ := hr j rfl
    obtain ⟨c, e1, e2⟩ := h y x hy hx
    have e2 : setPixelNoGrayscaleImpl (Arith.ieee L) .RGBAF c = .ok (j.bmp.px y x) := by
      simpa [convertPx, isGrayscaleFormat] using e2
    exact own_reads L hf (hi y x hy hx) e1 e2
  | some b =>
    have hj : j = ⟨.RGBAF, i.colorSpace, b⟩ := by
      unfold Image.convert at e
      rw [if_neg hd, if_neg (by simp)] at e
      simp only [ho] at e
      exact ((Option.some.inj (Res.ok.inj e)).symm)
    have hb : FI.convert i.format i.bmp .RGBAF = some b := by
      split at ho
      · exact ho
      · cases ho
    subst hj
    exact R _ _ _ hf hi hb y x hy hx

/-- The image `j` is `k` with its pixels moved. -/
structure MovedBy {N : Type} (A : Arith N) (k : Image N) (ms : List Move) (j : Image N) : Prop where
  ok : ImgOk A j
  format : j.format = k.format
  space : j.colorSpace = k.colorSpace
  size : ∀ p, (place ms ((k.bmp.width, k.bmp.height), p)).1 = (j.bmp.width, j.bmp.height)
  px : ∀ x y, x < k.bmp.width → y < k.bmp.height →
    j.getPixel A (place ms ((k.bmp.width, k.bmp.height), (x, y))).2.1
      (place ms ((k.bmp.width, k.bmp.height), (x, y))).2.2 = k.getPixel A x y

section
variable {N : Type} {A : Arith N} {FI : FreeImage N}

theorem MovedBy.refl {k : Image N} (hk : ImgOk A k) : MovedBy A k [] k :=
  ⟨hk, rfl, rfl, fun _ => rfl, fun _ _ _ _ => rfl⟩

theorem MovedBy.move (L : LawfulArith A) (F : LawfulFI A FI) {k i j : Image N} {ms : List Move} (h : MovedBy A k ms i)
    {m : Move} (hk : ImgOk A k) (e : runMove A FI i m = .ok (some j)) : MovedBy A k (ms ++ [m]) j := by
  obtain ⟨r, e', hr⟩ := move_spec L F h.ok m
  rw [e] at e'
  cases e'
  obtain ⟨h1, h2, h3, h4, h5⟩ := hr j rfl
  refine ⟨h1, h2.trans h.format, h3.trans h.space, ?_, ?_⟩
  · intro p
    rw [place_snoc, ← h4 (place ms ((k.bmp.width, k.bmp.height), p)).2, ← h.size p]
  · intro x y hx hy
    have hp := h.px x y hx hy
    obtain ⟨v, -, ev⟩ := Image.get_ok hk (show k.bmp.height - y - 1 < k.bmp.height by omega) hx
    rw [getPixel_in hx hy, ev] at hp
    obtain ⟨hx', hy', -⟩ := getPixel_some hp
    have := h5 _ _ hx' hy'
    rw [place_snoc]
    rw [← h.size (x, y)] at this
    rw [getPixel_in hx hy, ev, ← hp, ← this]

/-- A job that keeps the values of an image of the right size only moves its pixels, up to the range of the type. -/
theorem processLoaded_moves (L : LawfulArith A) (F : LawfulFI A FI) (W : FlipsWork FI) {c : Cmd N} (hc : KeepsValues c)
    {i j : Image N} (hi : ImgOk A i) (hcs : i.colorSpace = c.imageColorSpace) (hpos : 0 < i.bmp.width ∧ 0 < i.bmp.height)
    {w h : ℕ} (hs : (w, h) = (i.bmp.width, i.bmp.height)) (e : processLoaded A FI c i w h 0 = .ok (some j)) :
    ∃ i1 i10, whenAsked (decide (i.format ≠ .RGBAF)) (onValid (fun i => i.convert A FI .RGBAF true)) (some i) =
        .ok (some i1) ∧ Looks A .RGBAF c.textureColorSpace (w, h) i1 ∧ MovedBy A i1 (jobMoves c) i10 ∧
      adjustImageValueRange A FI i10 c.type i.format = .ok (some j) := by
  obtain ⟨i1, i2, i3, i4, i5, i6, orig, i7, i8, i9, i10, e1, e2, e3, e4, e5, e6, e7, e8, e9, e10, e⟩ :=
    processLoaded_steps e
  have L1 := convertF_keep L F hi e1 i1 rfl
  rw [hcs, hc.space, ← hs] at L1
  rw [whenAsked, if_neg (by simp [hc.space])] at e2
  cases e2
  have lz : levelSize (w, h) 0 = (w, h) := level_zero (by rw [hs]; exact hpos)
  rw [if_neg (by simp [hc.normal]), lz] at e3
  have s1 : i1.bmp.width = w := congrArg Prod.fst L1.size
  have s2 : i1.bmp.height = h := congrArg Prod.snd L1.size
  rw [resizeTo, if_neg (by simp [widthOf, heightOf, s1, s2])] at e3
  cases e3
  have m3 : MovedBy A i1 [] i1 := .refl L1.ok
  have m4 : MovedBy A i1 (jobTurn c) i4 := by
    unfold jobTurn
    unfold whenAsked at e4
    split at e4
    · rename_i hr
      rw [if_pos hr]
      exact m3.move L F (m := .turn c.rotateAngle) L1.ok e4
    · rename_i hr
      rw [if_neg hr]
      cases e4
      exact m3
  rw [whenAsked, if_neg (by simp [hc.gray])] at e5
  cases e5
  rw [toolNormalMap, if_neg (by simp [hc.normal])] at e6
  cases e6
  have m7 : MovedBy A i1 (jobTurn c ++ if c.flipX then [.mirrorX] else []) i7 := by
    unfold whenAsked at e7
    split at e7
    · rename_i hr
      obtain ⟨m', em, e7⟩ := Res.bind_eq_ok.1 e7
      cases e7
      cases em
      rw [if_pos hr]
      refine m4.move L F (FI := FI) (m := .mirrorX) L1.ok ?_
      unfold runMove
      rw [if_pos (show (i4.flipHorizontal FI).1 = true from (W _).1)]
    · rename_i hr
      cases e7
      rw [if_neg hr, List.append_nil]
      exact m4
  have m8 : MovedBy A i1 (jobMoves c) i8 := by
    unfold jobMoves jobFlips
    rw [← List.append_assoc]
    unfold whenAsked at e8
    split at e8
    · rename_i hr
      obtain ⟨m', em, e8⟩ := Res.bind_eq_ok.1 e8
      cases e8
      cases em
      rw [if_pos hr]
      refine m7.move L F (FI := FI) (m := .mirrorY) L1.ok ?_
      unfold runMove
      rw [if_pos (show (i7.flipVertical FI).1 = true from (W _).2)]
    · rename_i hr
      cases e8
      rw [if_neg hr, List.append_nil]
      exact m7
  rw [whenAsked, if_neg (by simp [hc.swizzle])] at e9
  cases e9
  rw [whenAsked, if_neg (by simp [hc.multiply])] at e10
  cases e10
  exact ⟨i1, i8, e1, L1, m8, e⟩

end

/-- A channel of the finished image, given the pixel of the input. -/
def Finished (type : TType) (f : IFormat) (p : Px Dbl) (ch : Chan) (x : Dbl) : Prop :=
  ∃ q : ℚ, x = .fin q ∧ Rep q ∧ |q| ≤ 65535 ∧
    (∀ m v, sample f p ch = some (m, v) →
      if type = .UNorm then 0 ≤ q ∧ q ≤ 1 ∧ |q - v / m| ≤ closeness m else q = ((v + lowest type m : ℤ) : ℚ)) ∧
    (type = .UNorm → ch = .A → f ∈ opaqueFormats → q = 1)

/-- `UInt` and `Int`: the nearest integer. -/
theorem adjust_near (L : Libm) {orig : IFormat} {type : TType} {k m : ℕ} {v : ℤ} {x : Dbl}
    (ht : type ∈ [TType.UInt, .Int]) (hm : largest orig k = some m) (hv0 : 0 ≤ v) (hv : v ≤ m)
    (hm' : m ∈ [31, 63, 255, 65535]) (hx : Near x (m, v)) :
    adjustValue (Arith.ieee L) orig type k x = .fin ((v + lowest type m : ℤ) : ℚ) := by
  obtain ⟨q, rfl, -, -, hq⟩ := hx
  obtain ⟨h1, h2, h3, h4, h5⟩ := adjust_tables ht hm
  have hs : type ≠ .SNorm := by rintro rfl; simp at ht
  unfold adjustValue
  rw [if_neg hs, h1, h2]
  have e1 : Dbl.ofQ (m : ℚ) = .fin m := ofQ_nat (by omega)
  have e2 : Dbl.ofQ ((lowest type m : ℤ) : ℚ) = .fin (lowest type m : ℤ) := ofQ_int (by omega)
  simp only [Arith.ieee, e1, e2]
  refine adjust_int' h3 h4 hv0 hv h5 ?_
  have hm0 : (0 : ℚ) < m := by exact_mod_cast h3
  have : q * m - v = (q - v / m) * m := by field_simp
  rw [this, abs_mul, abs_of_pos hm0]
  exact (mul_le_mul_of_nonneg_right hq hm0.le).trans (closeness_near hm')

/-- The pixel of an image of floats behind a colour. -/
theorem floats_px {A : Arith Dbl} {j : Image Dbl} (hj : ImgOk A j) (hf : j.format = .RGBAF) {x y : ℕ} {r g b a : Dbl}
    (h : j.getPixel A x y = .ok (some ⟨r, g, b, a⟩)) :
    x < j.bmp.width ∧ y < j.bmp.height ∧ j.bmp.px (j.bmp.height - y - 1) x = .nums [r, g, b, a] := by
  obtain ⟨hx, hy, hp⟩ := getPixel_some h
  refine ⟨hx, hy, ?_⟩
  have ok := hj (j.bmp.height - y - 1) x (by omega) hx
  rw [hf] at ok hp
  generalize j.bmp.px (j.bmp.height - y - 1) x = p at ok hp
  unfold PxOk at ok
  split at ok <;> simp_all [getPixelImpl]

theorem single_rep {x : Dbl} {q : ℚ} (h : Dbl.single x = x) (e : x = .fin q) (h0 : 0 ≤ q) (h1 : q ≤ 1) : Rep q := by
  subst e
  have : F32.round q = .fin (rne q) := round_fin (by
    rw [abs_of_nonneg h0]
    exact h1.trans (by norm_num))
  have h : F32.round q = .fin q := h
  rw [this] at h
  have h : rne q = q := F32.fin.inj h
  rw [← h]
  exact rne_rep _

/-- The values of the finished image. -/
theorem processLoaded_values (Lm : Libm) {FI : FreeImage Dbl} (F : LawfulFI (Arith.ieee Lm) FI)
    (R : ReadsWell (Arith.ieee Lm) FI) (W : FlipsWork FI) {c : Cmd Dbl} (hc : KeepsValues c)
    (ht : c.type ∈ [TType.UNorm, .UInt, .Int])
    {i j : Image Dbl} (hi : ImgOk (Arith.ieee Lm) i) (hcs : i.colorSpace = c.imageColorSpace)
    (hpos : 0 < i.bmp.width ∧ 0 < i.bmp.height) (hf : i.format ∈ sources)
    {w h : ℕ} (hs : (w, h) = (i.bmp.width, i.bmp.height))
    (e : processLoaded (Arith.ieee Lm) FI c i w h 0 = .ok (some j)) :
    j.format = .RGBAF ∧ j.colorSpace = c.textureColorSpace ∧
    ∀ x y, x < w → y < h → (place (jobMoves c) ((w, h), (x, y))).2.1 < j.bmp.width ∧
      (place (jobMoves c) ((w, h), (x, y))).2.2 < j.bmp.height ∧ ∃ r g b a,
      j.bmp.px (j.bmp.height - (place (jobMoves c) ((w, h), (x, y))).2.2 - 1) (place (jobMoves c) ((w, h), (x, y))).2.1 =
        .nums [r, g, b, a] ∧
      ∀ ch, Finished c.type i.format (i.bmp.px (i.bmp.height - y - 1) x) ch (Chan.pick r g b a ch) := by
  obtain ⟨i1, i10, e1, L1, M, e⟩ := processLoaded_moves (lawful_ieee Lm) F W hc hi hcs hpos hs e
  have hd : i.format ≠ .RGBAF := by
    intro h
    rw [h] at hf
    simp [sources] at hf
  rw [whenAsked, if_pos (by simpa using hd)] at e1
  have e1 : i.convert (Arith.ieee Lm) FI .RGBAF true = .ok (some i1) := e1
  have s1 : i1.bmp.width = w := congrArg Prod.fst L1.size
  have s2 : i1.bmp.height = h := congrArg Prod.snd L1.size
  have s3 : w = i.bmp.width := congrArg Prod.fst hs
  have s4 : h = i.bmp.height := congrArg Prod.snd hs
  have f10 : i10.format = .RGBAF := M.format.trans L1.format
  -- the values before the range of the type
  have key (x y : ℕ) (hx : x < w) (hy : y < h) : ∃ r g b a,
      i10.getPixel (Arith.ieee Lm) (place (jobMoves c) ((w, h), (x, y))).2.1
        (place (jobMoves c) ((w, h), (x, y))).2.2 = .ok (some ⟨r, g, b, a⟩) ∧
      (∀ ch mv, sample i.format (i.bmp.px (i.bmp.height - y - 1) x) ch = some mv → Near (Chan.pick r g b a ch) mv) ∧
      (i.format ∈ opaqueFormats → a = .fin 1) ∧
      ∀ ch, Dbl.single (Chan.pick r g b a ch) = Chan.pick r g b a ch := by
    obtain ⟨r, g, b, a, h1, h2, h3⟩ := convert_reads Lm F R hi hf e1 (y := i.bmp.height - y - 1) (x := x)
      (by omega) (by omega)
    have hp := M.px x y (by omega) (by omega)
    have hk : i1.getPixel (Arith.ieee Lm) x y = .ok (some ⟨r, g, b, a⟩) := by
      rw [getPixel_in (by omega) (by omega), s2, s4, h1, L1.format]
      rfl
    rw [hk, s1, s2] at hp
    have ok := L1.ok (i.bmp.height - y - 1) x (by omega) (by omega)
    rw [h1, L1.format] at ok
    exact ⟨r, g, b, a, hp, h2, h3, by
      obtain ⟨o1, o2, o3, o4⟩ := ok
      intro ch
      cases ch <;> assumption⟩
  -- every channel is a finite number between 0 and 1
  have unit (x y : ℕ) (hx : x < w) (hy : y < h) (ch : Chan) {r g b a : Dbl}
      (h2 : ∀ ch mv, sample i.format (i.bmp.px (i.bmp.height - y - 1) x) ch = some mv → Near (Chan.pick r g b a ch) mv)
      (h3 : i.format ∈ opaqueFormats → a = .fin 1) : ∃ q : ℚ, Chan.pick r g b a ch = .fin q ∧ 0 ≤ q ∧ q ≤ 1 := by
    rcases sample_cases hf (hi (i.bmp.height - y - 1) x (by omega) (by omega)) ch with
      ⟨m, v, k1, k2, k3, k4, k5⟩ | ⟨rfl, -, k2, -⟩
    · obtain ⟨q, n1, n2, n3, -⟩ := h2 ch _ k1
      exact ⟨q, n1, n2, n3⟩
    · exact ⟨1, h3 k2, by norm_num, le_refl _⟩
  by_cases hu : c.type = .UNorm
  · have hun := C32_unchanged (Arith.ieee Lm) FI i10 c.type i.format (Or.inl (by rw [hu]; simp))
    rw [e] at hun
    cases hun
    refine ⟨f10, M.space.trans L1.space, ?_⟩
    intro x y hx hy
    obtain ⟨r, g, b, a, h1, h2, h3, h4⟩ := key x y hx hy
    obtain ⟨k1, k2, k3⟩ := floats_px M.ok f10 h1
    refine ⟨k1, k2, r, g, b, a, k3, ?_⟩
    intro ch
    obtain ⟨q, q1, q2, q3⟩ := unit x y hx hy ch h2 h3
    refine ⟨q, q1, single_rep (h4 ch) q1 q2 q3, ?_, ?_, ?_⟩
    · rw [abs_of_nonneg q2]
      linarith
    · intro m v hmv
      rw [if_pos hu]
      obtain ⟨q', n1, n2, n3, n4⟩ := h2 ch _ hmv
      rw [q1] at n1
      cases n1
      exact ⟨q2, q3, n4⟩
    · rintro - rfl ho
      have := h3 ho
      rw [show Chan.pick r g b a .A = a from rfl, this] at q1
      cases q1
      rfl
  · have ht' : c.type ∈ [TType.UInt, .Int] := by simpa [hu] using ht
    obtain ⟨j', e', h1, h2, h3, h4, h5⟩ := adjust_floats (Arith.ieee Lm) FI (i := i10) (by rw [f10]; simp [floats]) M.ok hf
      (type := c.type) (by simp at ht' ⊢; tauto)
    rw [e] at e'
    cases e'
    refine ⟨h1.trans f10, h2.trans (M.space.trans L1.space), ?_⟩
    intro x y hx hy
    obtain ⟨r, g, b, a, g1, g2, g3, g4⟩ := key x y hx hy
    obtain ⟨k1, k2, k3⟩ := floats_px M.ok f10 g1
    refine ⟨by omega, by omega, ?_⟩
    obtain ⟨l, l1, l2⟩ := h5 (i10.bmp.height - (place (jobMoves c) ((w, h), (x, y))).2.2 - 1) (by omega) _ k1
    rw [k3] at l1
    cases l1
    rw [h4, l2]
    refine ⟨_, _, _, _, rfl, ?_⟩
    intro ch
    have pick : Chan.pick (adjustValue (Arith.ieee Lm) i.format c.type 0 r) (adjustValue (Arith.ieee Lm) i.format c.type 1 g)
        (adjustValue (Arith.ieee Lm) i.format c.type 2 b) (adjustValue (Arith.ieee Lm) i.format c.type 3 a) ch =
        adjustValue (Arith.ieee Lm) i.format c.type ch.number (Chan.pick r g b a ch) := by
      cases ch <;> rfl
    have pick := (show Chan.pick (adjustValue (Arith.ieee Lm) i.format c.type 0 r)
        (adjustValue (Arith.ieee Lm) i.format c.type (0 + 1) g)
        (adjustValue (Arith.ieee Lm) i.format c.type (0 + 1 + 1) b)
        (adjustValue (Arith.ieee Lm) i.format c.type (0 + 1 + 1 + 1) a) ch = _ from pick)
    rw [pick]
    rcases sample_cases hf (hi (i.bmp.height - y - 1) x (by omega) (by omega)) ch with
      ⟨m, v, n1, n2, n3, n4, n5⟩ | ⟨rfl, n1, n2, n3⟩
    · refine ⟨_, adjust_near Lm ht' n2 n3 n4 n5 (g2 ch _ n1), ?_, ?_, ?_, fun h => absurd h hu⟩
      · obtain ⟨-, -, t1, t2, t3⟩ := adjust_tables ht' n2
        refine rep_int ?_
        rw [abs_le] at t3 ⊢
        constructor <;> push_cast at * <;> omega
      · obtain ⟨-, -, t1, t2, t3⟩ := adjust_tables ht' n2
        have : |v + lowest c.type m| ≤ 65535 := by
          unfold lowest at t3 ⊢
          rw [abs_le] at t3 ⊢
          split <;> constructor <;> push_cast at * <;> omega
        exact_mod_cast this
      · intro m' v' hmv
        rw [n1] at hmv
        cases hmv
        rw [if_neg hu]
    · have zero : adjustValue (Arith.ieee Lm) i.format c.type Chan.A.number (Chan.pick r g b a .A) = .fin 0 := by
        have ea : Chan.pick r g b a .A = .fin 1 := g3 n2
        have h0 : adjustMultiply i.format 3 = 0 ∧ adjustOffset i.format c.type 3 = 0 := by
          revert n3 hf
          cases i.format <;> simp [largest, sources, adjustMultiply, adjustOffset]
        have hs : c.type ≠ .SNorm := by
          intro h
          rw [h] at ht'
          simp at ht'
        unfold adjustValue
        rw [if_neg hs, ea, show Chan.A.number = 3 from rfl, h0.1, h0.2]
        have z : Dbl.ofQ (0 : ℚ) = .fin 0 := by simpa using ofQ_int (n := 0) (by norm_num)
        have rz : F32.round 0 = .fin 0 := by
          have := round_fin (q := 0) (by norm_num)
          rwa [rne_zero] at this
        simp only [Arith.ieee, z, F32.mulWith, mul_zero, rz, F32.addWith, add_zero, F32.roundAway]
        norm_num [roundAwayQ]
      refine ⟨0, zero, ?_, by norm_num, ?_, fun h => absurd h hu⟩
      · exact_mod_cast rep_int (n := 0) (by norm_num)
      · intro m v h
        rw [n1] at h
        cases h

/-- A finished channel as bits. -/
theorem Finished.bits {type : TType} {f : IFormat} {p : Px Dbl} {ch : Chan} {x : Dbl} (h : Finished type f p ch x)
    (n : ℕ) : F32.ofBits (F32.toBits x) = x ∧ Storable type n (F32.toBits x) := by
  obtain ⟨q, rfl, h1, h2, -⟩ := h
  obtain ⟨b1, b2⟩ := toBits_spec h1 (h2.trans_lt (by norm_num))
  have h3 := (abs_le.1 h2).2
  refine ⟨b1, b2, ?_, ?_, ?_⟩
  · rw [b1]
    simp
  · intro _ _
    rw [b1]
    simp only [F32.lt, decide_eq_true_eq]
    linarith
  · intro _ _
    rw [b1]
    simp only [F32.lt, decide_eq_true_eq]
    linarith

theorem int_near {a b : ℤ} (h : |(a : ℚ) - b| < 1) : a = b := by
  have : |a - b| < 1 := by exact_mod_cast h
  rw [Int.abs_lt_one_iff] at this
  omega

/-- A field that stores a finished channel holds the integer. -/
theorem Finished.holds {type : TType} {f : IFormat} {p : Px Dbl} {ch : Chan} {x : Dbl} (h : Finished type f p ch x)
    (ht : type ∈ [TType.UNorm, .UInt, .Int]) {n d m : ℕ} {v : ℤ} (hn : 1 ≤ n) (hn' : type = .UNorm → n ≤ 16)
    (hs : IsStored type n (F32.toBits x) d) (hm : sample f p ch = some (m, v)) (h0 : 0 ≤ v) (h1 : v ≤ m)
    (hm' : m ∈ [31, 63, 255, 65535]) (hc : CanHold type n m) : FieldHolds type n m v d := by
  have hb := (h.bits n).1
  obtain ⟨q, rfl, -, -, h2, -⟩ := h
  have h2 := h2 m v hm
  have mpos : 0 < m := by
    simp only [List.mem_cons, List.not_mem_nil, or_false] at hm'
    omega
  have mposq : (0 : ℚ) < m := by exact_mod_cast mpos
  have pow1 : (2 : ℕ) ≤ 2 ^ n := by
    calc 2 = 2 ^ 1 := rfl
      _ ≤ 2 ^ n := Nat.pow_le_pow_right (by norm_num) hn
  simp only [List.mem_cons, List.not_mem_nil, or_false] at ht
  rcases ht with rfl | rfl | rfl
  · rw [if_pos rfl] at h2
    obtain ⟨q0, q1, hq⟩ := h2
    obtain ⟨c, e, hd, herr⟩ := hs
    rw [hb] at e
    simp only [clampVal, Option.some.injEq, min_eq_right q1, max_eq_right q0] at e
    subst e
    have n16 := hn' rfl
    have pow16 : (2 : ℚ) ^ n ≤ 2 ^ 16 := pow_le_pow_right₀ (by norm_num) n16
    have powq : (2 : ℚ) ≤ 2 ^ n := by exact_mod_cast pow1
    -- the largest field is a multiple of the largest sample
    obtain ⟨t, et⟩ : m ∣ 2 ^ n - 1 := by
      rcases hc with rfl | ⟨-, h⟩
      · exact dvd_refl _
      · exact h
    have etq : (2 : ℚ) ^ n - 1 = m * t := by
      have : ((2 ^ n - 1 : ℕ) : ℚ) = ((m * t : ℕ) : ℚ) := by rw [et]
      rw [Nat.cast_sub (by omega)] at this
      push_cast at this
      exact this
    have close : closeness m * (2 ^ n - 1) ≤ 1 / 4 := by
      rcases hc with hc | ⟨hc, -⟩
      · have : ((2 : ℚ) ^ n - 1) = m := by
          rw [hc, Nat.cast_sub (by omega)]
          push_cast
          rfl
        rw [this]
        exact closeness_near hm'
      · rw [closeness, if_neg (by omega)]
        calc (1 : ℚ) / 2 ^ 18 * (2 ^ n - 1) ≤ 1 / 2 ^ 18 * 2 ^ 16 := by gcongr; linarith
          _ ≤ 1 / 4 := by norm_num
    have key : |q * (2 ^ n - 1) - v * t| ≤ 1 / 4 := by
      have : q * (2 ^ n - 1) - v * t = (q - v / m) * (2 ^ n - 1) := by
        rw [etq]
        field_simp
      rw [this, abs_mul, abs_of_pos (show (0 : ℚ) < 2 ^ n - 1 by linarith)]
      exact (mul_le_mul_of_nonneg_right hq (by linarith)).trans close
    have small : (2 : ℚ) ^ n / 2 ^ 25 ≤ 1 / 512 := by
      rw [div_le_iff₀ (by norm_num)]
      linarith
    have : (d : ℤ) = v * t := int_near (by
      rw [abs_le] at key herr
      push_cast
      rw [abs_lt]
      constructor <;> linarith [key.1, key.2, herr.1, herr.2])
    show (d : ℤ) * m = v * (2 ^ n - 1)
    have etz : (2 : ℤ) ^ n - 1 = m * t := by exact_mod_cast etq
    rw [this, etz]
    ring
  · rw [if_neg (by simp)] at h2
    obtain ⟨c, e, hd, herr⟩ := hs
    have hc : m < 2 ^ n := hc
    simp only [lowest, reduceCtorEq, if_false, add_zero] at h2
    have v1 : (v : ℚ) ≤ 2 ^ n - 1 := by
      have : v ≤ 2 ^ n - 1 := by
        have : (m : ℤ) < 2 ^ n := by exact_mod_cast hc
        omega
      exact_mod_cast this
    have v0 : (0 : ℚ) ≤ v := by exact_mod_cast h0
    rw [hb, h2] at e
    simp only [clampVal, Option.some.injEq, min_eq_right v1, max_eq_right v0] at e
    subst e
    exact int_near (by push_cast; exact herr.trans_lt (by norm_num))
  · rw [if_neg (by simp)] at h2
    obtain ⟨c, e, hd, herr⟩ := hs
    have hc : m < 2 ^ n := hc
    simp only [lowest, if_true] at h2
    have half : (2 : ℤ) ^ n = 2 * 2 ^ (n - 1) := by
      rw [← pow_succ', Nat.sub_add_cancel hn]
    have hcz : (m : ℤ) < 2 ^ n := by exact_mod_cast hc
    have v1 : ((v + -((m + 1) / 2 : ℤ) : ℤ) : ℚ) ≤ 2 ^ (n - 1) - 1 := by
      have : v + -((m + 1) / 2 : ℤ) ≤ 2 ^ (n - 1) - 1 := by
        simp only [List.mem_cons, List.not_mem_nil, or_false] at hm'
        omega
      exact_mod_cast this
    have v0 : (-2 ^ (n - 1) : ℚ) ≤ ((v + -((m + 1) / 2 : ℤ) : ℤ) : ℚ) := by
      have : (-2 ^ (n - 1) : ℤ) ≤ v + -((m + 1) / 2 : ℤ) := by omega
      exact_mod_cast this
    rw [hb, h2] at e
    simp only [clampVal, Option.some.injEq, min_eq_right v1, max_eq_right v0] at e
    subst e
    have := int_near (herr.trans_lt (by norm_num))
    show signedVal n d = v - ((m + 1) / 2 : ℤ)
    rw [this]
    ring

/-- The alpha of an opaque image. -/
theorem Finished.opaque {f : IFormat} {p : Px Dbl} {x : Dbl} (h : Finished .UNorm f p .A x) (hf : f ∈ opaqueFormats)
    {n d : ℕ} (hn : 1 ≤ n) (hn' : n ≤ 16) (hs : IsStored .UNorm n (F32.toBits x) d) : d = 2 ^ n - 1 := by
  have hb := (h.bits n).1
  obtain ⟨q, rfl, -, -, -, h2⟩ := h
  have := h2 rfl rfl hf
  subst this
  obtain ⟨c, e, hd, herr⟩ := hs
  rw [hb] at e
  simp only [clampVal, Option.some.injEq, min_self] at e
  rw [max_eq_right (by norm_num)] at e
  subst e
  have pow16 : (2 : ℚ) ^ n ≤ 2 ^ 16 := pow_le_pow_right₀ (by norm_num) hn'
  have small : (2 : ℚ) ^ n / 2 ^ 25 ≤ 1 / 512 := by
    rw [div_le_iff₀ (by norm_num)]
    linarith
  have : (d : ℤ) = 2 ^ n - 1 := int_near (by
    push_cast
    rw [one_mul] at herr
    exact herr.trans_lt (by linarith))
  have p1 : (1 : ℕ) ≤ 2 ^ n := Nat.one_le_two_pow
  have : ((d : ℕ) : ℤ) = ((2 ^ n - 1 : ℕ) : ℤ) := by
    rw [this, Nat.cast_sub p1]
    push_cast
    rfl
  exact_mod_cast this

section
variable {N σ : Type} {A : Arith N} {FI : FreeImage N} {E : ToolEnv (Image N) N σ} {read : Str → ColorSpace → Img? N}

theorem loadAndProcess_from {c : Cmd N} {p : Str} {w h l : ℕ} {r : Img? N × ℕ × ℕ}
    (e : loadAndProcess A FI read c p w h l = .ok (some r)) :
    ∃ i, read p c.imageColorSpace = some i ∧ (r.2.1, r.2.2) = targetSize c i w h ∧
      processLoaded A FI c i (targetSize c i w h).1 (targetSize c i w h).2 l = .ok r.1 := by
  unfold loadAndProcess at e
  cases hr : read p c.imageColorSpace with
  | none => rw [hr] at e; cases e
  | some i =>
    rw [hr] at e
    obtain ⟨o, eo, e⟩ := Res.bind_eq_ok.1 e
    cases e
    exact ⟨i, rfl, rfl, eo⟩

/-- Every image of a job comes from its path. -/
theorem loadMain_each (hE : E.load = loadAndProcess A FI read) {c : Cmd N} {T : ℕ × ℕ} (hT : T.1 ≤ 2 ^ 31) :
    ∀ {ps : List Str} {r : List (Img? N) × ℕ × ℕ}, loadMain E c ps T.1 T.2 = .ok (some r) →
      ∀ (k : ℕ) p, ps[k]? = some p → ∃ i o, read p c.imageColorSpace = some i ∧ r.1[k]? = some o ∧
        processLoaded A FI c i T.1 T.2 0 = .ok o
  | [], r, e, k, p, hp => by simp at hp
  | q :: ps, r, e, k, p, hp => by
    simp only [loadMain, Res.bind_eq_ok] at e
    obtain ⟨o, eo, e⟩ := e
    cases o with
    | none => cases e
    | some o =>
      obtain ⟨s, es, e⟩ := Res.bind_eq_ok.1 e
      cases s with
      | none => cases e
      | some s =>
        cases e
        rw [hE] at eo
        obtain ⟨i, h1, h2, h3⟩ := loadAndProcess_from eo
        rw [target_kept (by omega)] at h2 h3
        have e1 : o.2.1 = T.1 := congrArg Prod.fst h2
        have e2 : o.2.2 = T.2 := congrArg Prod.snd h2
        rw [e1, e2] at es
        cases k with
        | zero =>
          simp only [List.getElem?_cons_zero, Option.some.injEq] at hp
          subst hp
          exact ⟨i, o.1, h1, by simp, h3⟩
        | succ k =>
          simp only [List.getElem?_cons_succ] at hp ⊢
          exact loadMain_each hE hT es k p hp

/-- The images of a job, with the target size that the first one sets. -/
theorem loadImages_each (R : LoadsWell A read) (hE : E.load = loadAndProcess A FI read) {c : Cmd N} (hg : GivenSizes c)
    (hne : c.images ≠ []) {images : List (Img? N)} {custom : CustomMips (Image N)}
    (h : loadImages E c = .ok (some (images, custom))) :
    ∃ (p : Str) (first : Image N) (s : ℕ × ℕ), c.images.head? = some p ∧ read p c.imageColorSpace = some first ∧
      SizeFor first.bmp.width first.bmp.width first.bmp.height (sizeOfInt c.width) s.1 ∧
      SizeFor first.bmp.height first.bmp.width first.bmp.height (sizeOfInt c.height) s.2 ∧ 0 < s.1 ∧ 0 < s.2 ∧
      ∀ (k : ℕ) p, c.images[k]? = some p → ∃ i o, read p c.imageColorSpace = some i ∧ images[k]? = some o ∧
        processLoaded A FI c i s.1 s.2 0 = .ok o := by
  obtain ⟨p, ps, hp⟩ := List.exists_cons_of_ne_nil hne
  obtain ⟨o, eo, h⟩ := Res.bind_eq_ok.1 h
  cases o with
  | none => cases h
  | some o =>
    obtain ⟨q, eq, h⟩ := Res.bind_eq_ok.1 h
    cases q with
    | none => cases h
    | some q =>
      cases h
      rw [hp] at eo
      simp only [loadMain, Res.bind_eq_ok] at eo
      obtain ⟨a, ea, eo⟩ := eo
      cases a with
      | none => cases eo
      | some a =>
        obtain ⟨b, eb, eo⟩ := Res.bind_eq_ok.1 eo
        cases b with
        | none => cases eo
        | some b =>
          cases eo
          rw [hE] at ea
          obtain ⟨i, h1, h2, h3⟩ := loadAndProcess_from ea
          have hc := (R _ _ _ h1).2.2
          obtain ⟨⟨t1, t2⟩, t3, t4⟩ := target_bounds hc hg
          obtain ⟨s1, s2⟩ := target_asked hc hg
          generalize targetSize c i unset unset = T at *
          have e1 : a.2.1 = T.1 := congrArg Prod.fst h2
          have e2 : a.2.2 = T.2 := congrArg Prod.snd h2
          rw [e1, e2] at eb
          refine ⟨p, i, T, by rw [hp]; rfl, h1, s1, s2, t1, t3, ?_⟩
          intro k p' hk
          rw [hp] at hk
          cases k with
          | zero =>
            simp only [List.getElem?_cons_zero, Option.some.injEq] at hk
            subst hk
            exact ⟨i, a.1, h1, by simp, h3⟩
          | succ k =>
            simp only [List.getElem?_cons_succ] at hk ⊢
            exact loadMain_each hE t2 eb k p' hk

theorem dimension_small {cur w h : ℕ} (o : SizeOpt) (hc : 1 ≤ cur ∧ cur < 2 ^ 31) (hw : 1 ≤ w ∧ w < 2 ^ 31)
    (hh : 1 ≤ h ∧ h < 2 ^ 31) : getDimension cur w h o < 2 ^ 32 := by
  by_cases he : ∃ n, o = .exact n
  · obtain ⟨n, rfl⟩ := he
    simp only [getDimension]
    omega
  · have := (sizeFor_bounds hc hw hh (fun n hn => absurd ⟨n, hn⟩ he)
      (C36_dimension o ⟨hc.1, hc.2.le⟩ ⟨hw.1, hw.2.le⟩ ⟨hh.1, hh.2.le⟩ (fun n hn => absurd ⟨n, hn⟩ he))).2
    omega

/-- The first image of a job has a 32-bit size. -/
theorem loads_small (L : LawfulArith A) (F : LawfulFI A FI) (R : LoadsWell A read)
    (hE : E.load = loadAndProcess A FI read)
    (hs : ∀ i, E.world.lib.width i = i.bmp.width ∧ E.world.lib.height i = i.bmp.height) : LoadsSmall E := by
  intro c p l g w' h' e
  rw [hE] at e
  obtain ⟨i, h1, h2, h3⟩ := loadAndProcess_from e
  obtain ⟨r1, r2, r3⟩ := R _ _ _ h1
  obtain ⟨-, -, b3, -⟩ := processLoaded_shape L F r1 r2 ⟨r3.1, r3.2.1⟩ h3
  obtain ⟨c1, c2, c3, c4, -⟩ := r3
  have t1 : (targetSize c i unset unset).1 < 2 ^ 32 := by
    unfold targetSize
    rw [if_pos ⟨rfl, rfl⟩]
    exact dimension_small _ ⟨c1, c3⟩ ⟨c1, c3⟩ ⟨c2, c4⟩
  have t2 : (targetSize c i unset unset).2 < 2 ^ 32 := by
    unfold targetSize
    rw [if_pos ⟨rfl, rfl⟩]
    exact dimension_small _ ⟨c2, c4⟩ ⟨c1, c3⟩ ⟨c2, c4⟩
  rw [(hs g).1, (hs g).2]
  generalize targetSize c i unset unset = T at *
  have ls : (levelSize T l).1 < 2 ^ 32 ∧ (levelSize T l).2 < 2 ^ 32 := by
    simp only [levelSize]
    have := Nat.div_le_self T.1 (2 ^ l)
    have := Nat.div_le_self T.2 (2 ^ l)
    omega
  have turned (s : ℕ × ℕ) (hs : s.1 < 2 ^ 32 ∧ s.2 < 2 ^ 32) : (turnedSize c s).1 < 2 ^ 32 ∧ (turnedSize c s).2 < 2 ^ 32 := by
    unfold turnedSize
    split
    · cases c.rotateAngle <;> exact ⟨by first | exact hs.1 | exact hs.2, by first | exact hs.1 | exact hs.2⟩
    · exact hs
  have last : (lastSize c T l).1 < 2 ^ 32 ∧ (lastSize c T l).2 < 2 ^ 32 := by
    unfold lastSize
    split
    · exact turned _ ls
    · exact ls
  rw [Prod.mk.eta] at b3
  rw [← b3] at last
  exact last

end

/-- The library keeps an image that has the colour space of the texture. -/
theorem represent_same {L : ImageLib (Image Dbl)} (hS : SameImages L) {cs : ColorSpace} {g r : Image Dbl}
    (hf : g.format = .RGBAF) (hc : g.colorSpace = cs) (h : represent L cs g true = some r) : r = g := by
  unfold represent at h
  rw [if_pos ⟨rfl, by rw [hS.format]; simpa using hf⟩, ← hc] at h
  simp only [Option.map_some, hS.change, Option.some.injEq] at h
  exact h.symm

end Cuttlefish
