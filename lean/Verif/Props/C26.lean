import Mathlib.Data.Set.Function
import Verif.Proofs.ImageGeom
import Verif.Spec.ToyImage
/-
C26: rotations and flips are the geometric ones.

Stated about `Image.rotate`, `Image.flipHorizontal` and `Image.flipVertical` with IEEE arithmetic, for
every FreeImage that meets its documentation (`LawfulFI`) and whose functions may fail; `rotate` then
uses its own loops, and a flip reports the failure.  Coordinates are those of `getPixel`.
-/
namespace Cuttlefish
open Spec
variable {L : Libm} {FI : FreeImage Dbl} {i : Image Dbl}

/-- `rotate` is defined for every image and angle, and gives an image (unless the memory for it cannot
be allocated) with each pixel moved as the angle says, the same format and colour space. -/
theorem C26_rotate (F : LawfulFI (Arith.ieee L) FI) (hi : ImgOk (Arith.ieee L) i) (a : RotateAngle) :
    ∃ r, i.rotate (Arith.ieee L) FI a = .ok r ∧ ∀ j, r = some j →
      j.format = i.format ∧ j.colorSpace = i.colorSpace ∧
      (∀ p, ((Move.turn a).place ((i.bmp.width, i.bmp.height), p)).1 = (j.bmp.width, j.bmp.height)) ∧
      ∀ x y, x < i.bmp.width → y < i.bmp.height →
        j.getPixel (Arith.ieee L) ((Move.turn a).place ((i.bmp.width, i.bmp.height), (x, y))).2.1
          ((Move.turn a).place ((i.bmp.width, i.bmp.height), (x, y))).2.2 =
          i.getPixel (Arith.ieee L) x y := by
  obtain ⟨r, e, h⟩ := move_spec (lawful_ieee L) F hi (.turn a)
  exact ⟨r, e, fun j hj => (h j hj).2⟩

/-- The same in coordinates, for the three angles. -/
theorem C26_angles (F : LawfulFI (Arith.ieee L) FI) (hi : ImgOk (Arith.ieee L) i) {a : RotateAngle}
    {j : Image Dbl} (e : i.rotate (Arith.ieee L) FI a = .ok (some j)) {x y : Nat} (hx : x < i.bmp.width)
    (hy : y < i.bmp.height) :
    (a = .CW90 ∨ a = .CCW270 → j.bmp.width = i.bmp.height ∧ j.bmp.height = i.bmp.width ∧
      j.getPixel (Arith.ieee L) (i.bmp.height - 1 - y) x = i.getPixel (Arith.ieee L) x y) ∧
    (a = .CW180 ∨ a = .CCW180 → j.bmp.width = i.bmp.width ∧ j.bmp.height = i.bmp.height ∧
      j.getPixel (Arith.ieee L) (i.bmp.width - 1 - x) (i.bmp.height - 1 - y) =
        i.getPixel (Arith.ieee L) x y) ∧
    (a = .CW270 ∨ a = .CCW90 → j.bmp.width = i.bmp.height ∧ j.bmp.height = i.bmp.width ∧
      j.getPixel (Arith.ieee L) y (i.bmp.width - 1 - x) = i.getPixel (Arith.ieee L) x y) := by
  obtain ⟨r, e', h⟩ := C26_rotate F hi a
  rw [e] at e'
  cases e'
  obtain ⟨-, -, h3, h4⟩ := h j rfl
  have h3 := h3 (x, y)
  have h4 := h4 x y hx hy
  refine ⟨?_, ?_, ?_⟩ <;> rintro (rfl | rfl) <;> simp only [Move.place, quarter, Prod.mk.injEq] at h3 h4 <;>
    refine ⟨h3.1.symm, h3.2.symm, ?_⟩
  · exact h4
  · exact h4
  · exact h4
  · exact h4
  · rwa [show i.bmp.height - 1 - (i.bmp.height - 1 - y) = y by omega] at h4
  · rwa [show i.bmp.height - 1 - (i.bmp.height - 1 - y) = y by omega] at h4

/-- A flip that reports success mirrors the image; one that fails leaves it as it was. -/
theorem C26_flip (F : LawfulFI (Arith.ieee L) FI) (hi : ImgOk (Arith.ieee L) i) {x y : Nat}
    (hx : x < i.bmp.width) (hy : y < i.bmp.height) :
    ((i.flipHorizontal FI).2.bmp.width = i.bmp.width ∧ (i.flipHorizontal FI).2.bmp.height = i.bmp.height ∧
      (i.flipHorizontal FI).2.getPixel (Arith.ieee L) x y =
        i.getPixel (Arith.ieee L) (if (i.flipHorizontal FI).1 then i.bmp.width - 1 - x else x) y) ∧
    ((i.flipVertical FI).2.bmp.width = i.bmp.width ∧ (i.flipVertical FI).2.bmp.height = i.bmp.height ∧
      (i.flipVertical FI).2.getPixel (Arith.ieee L) x y =
        i.getPixel (Arith.ieee L) x (if (i.flipVertical FI).1 then i.bmp.height - 1 - y else y)) := by
  obtain ⟨a1, a2, a3⟩ := F.flipHorizontal i.bmp
  obtain ⟨b1, b2, b3⟩ := F.flipVertical i.bmp
  refine ⟨⟨a1, a2, ?_⟩, ⟨b1, b2, ?_⟩⟩
  · simp only [Image.flipHorizontal]
    by_cases ok : (FI.flipHorizontal i.bmp).1 = true
    · simp only [ok, if_true] at a3 ⊢
      rw [getPixel_in (by rw [a1]; exact hx) (by rw [a2]; exact hy), getPixel_in (by omega) hy]
      dsimp only
      rw [a2, a3 _ x (by omega) hx]
    · simp only [ok] at a3 ⊢
      rw [getPixel_in (by rw [a1]; exact hx) (by rw [a2]; exact hy), getPixel_in (by simpa using hx) hy]
      dsimp only
      rw [a2, a3 _ x (by omega) hx]
      simp
  · simp only [Image.flipVertical]
    by_cases ok : (FI.flipVertical i.bmp).1 = true
    · simp only [ok, if_true] at b3 ⊢
      rw [getPixel_in (by rw [b1]; exact hx) (by rw [b2]; exact hy), getPixel_in hx (by omega)]
      dsimp only
      rw [b2, b3 _ x (by omega) hx,
        show i.bmp.height - 1 - (i.bmp.height - y - 1) = i.bmp.height - (i.bmp.height - 1 - y) - 1 by omega]
    · simp only [ok] at b3 ⊢
      rw [getPixel_in (by rw [b1]; exact hx) (by rw [b2]; exact hy), getPixel_in hx (by simpa using hy)]
      dsimp only
      rw [b2, b3 _ x (by omega) hx]
      simp

/-- Any sequence of rotations and flips is defined, and moves every pixel to where the sequence of
geometric operations moves it. -/
theorem C26_sequences (F : LawfulFI (Arith.ieee L) FI) (hi : ImgOk (Arith.ieee L) i) (ms : List Move) :
    ∃ r, runMoves (Arith.ieee L) FI ms i = .ok r ∧ ∀ j, r = some j →
      j.format = i.format ∧ j.colorSpace = i.colorSpace ∧
      (∀ p, (place ms ((i.bmp.width, i.bmp.height), p)).1 = (j.bmp.width, j.bmp.height)) ∧
      ∀ x y, x < i.bmp.width → y < i.bmp.height →
        j.getPixel (Arith.ieee L) (place ms ((i.bmp.width, i.bmp.height), (x, y))).2.1
          (place ms ((i.bmp.width, i.bmp.height), (x, y))).2.2 = i.getPixel (Arith.ieee L) x y := by
  obtain ⟨r, e, h⟩ := moves_spec (lawful_ieee L) F ms hi
  exact ⟨r, e, fun j hj => (h j hj).2⟩

theorem quarter_quarter (s : Place) (h : Inside s) : quarter (quarter (quarter (quarter s))) = s := by
  obtain ⟨⟨w, h⟩, ⟨x, y⟩⟩ := s
  simp only [Inside] at h
  simp only [quarter, Prod.mk.injEq, true_and]
  omega

/-- The inverse of a rotation or a flip. -/
def Spec.Move.inverse : Move → Move
  | .turn .CW90 | .turn .CCW270 => .turn .CW270
  | .turn .CW270 | .turn .CCW90 => .turn .CW90
  | m => m

theorem inverse_place {m : Move} {s : Place} (h : Inside s) : m.inverse.place (m.place s) = s := by
  cases m with
  | turn a => cases a <;> exact quarter_quarter s h
  | _ =>
    obtain ⟨⟨w, h⟩, ⟨x, y⟩⟩ := s
    simp only [Inside] at h
    simp only [Move.inverse, Move.place, Prod.mk.injEq, true_and, and_true]
    omega

theorem inverse_place' {m : Move} {s : Place} (h : Inside s) : m.place (m.inverse.place s) = s := by
  cases m with
  | turn a => cases a <;> exact quarter_quarter s h
  | _ =>
    obtain ⟨⟨w, h⟩, ⟨x, y⟩⟩ := s
    simp only [Inside] at h
    simp only [Move.inverse, Move.place, Prod.mk.injEq, true_and, and_true]
    omega

theorem places_inside {ms : List Move} {s : Place} (h : Inside s) : Inside (place ms s) := by
  induction ms generalizing s with
  | nil => exact h
  | cons m ms ih => exact ih (place_inside (m := m) h)

theorem place_undo {ms : List Move} {s : Place} (h : Inside s) :
    place (ms.reverse.map Move.inverse) (place ms s) = s := by
  induction ms generalizing s with
  | nil => rfl
  | cons m ms ih =>
    rw [List.reverse_cons, List.map_append]
    have e : place (m :: ms) s = place ms (m.place s) := rfl
    rw [e]
    unfold place at ih ⊢
    rw [List.foldl_append, ih (place_inside h)]
    exact inverse_place h

theorem place_redo {ms : List Move} {s : Place} (h : Inside s) :
    place ms (place (ms.reverse.map Move.inverse) s) = s := by
  induction ms generalizing s with
  | nil => rfl
  | cons m ms ih =>
    rw [List.reverse_cons, List.map_append]
    have e : ∀ t, place (m :: ms) t = place ms (m.place t) := fun _ => rfl
    have e2 : place (ms.reverse.map Move.inverse ++ [m].map Move.inverse) s =
        m.inverse.place (place (ms.reverse.map Move.inverse) s) := by
      simp [place, List.foldl_append]
    rw [e, e2, inverse_place' (places_inside h)]
    exact ih h

/-- No pixel is lost or duplicated: the pixels of the original image and of the result of any
sequence of rotations and flips correspond one to one. -/
theorem C26_bijection (F : LawfulFI (Arith.ieee L) FI) (hi : ImgOk (Arith.ieee L) i) (ms : List Move)
    {j : Image Dbl} (e : runMoves (Arith.ieee L) FI ms i = .ok (some j)) :
    Set.BijOn (fun p => (place ms ((i.bmp.width, i.bmp.height), p)).2)
      {p | p.1 < i.bmp.width ∧ p.2 < i.bmp.height} {p | p.1 < j.bmp.width ∧ p.2 < j.bmp.height} := by
  obtain ⟨r, e', h⟩ := C26_sequences F hi ms
  rw [e] at e'
  cases e'
  obtain ⟨-, -, h3, -⟩ := h j rfl
  refine ⟨?_, ?_, ?_⟩
  · intro p hp
    have := places_inside (ms := ms) (s := ((i.bmp.width, i.bmp.height), p)) hp
    unfold Inside at this
    rw [h3] at this
    exact this
  · intro p hp p' hp' he
    have u := place_undo (ms := ms) (s := ((i.bmp.width, i.bmp.height), p)) hp
    have u' := place_undo (ms := ms) (s := ((i.bmp.width, i.bmp.height), p')) hp'
    have : place ms ((i.bmp.width, i.bmp.height), p) = place ms ((i.bmp.width, i.bmp.height), p') :=
      Prod.ext (place_size ms _ p p') he
    rw [this, u'] at u
    exact (Prod.ext_iff.1 u).2.symm
  · intro p hp
    have hin : Inside ((j.bmp.width, j.bmp.height), p) := hp
    have u := place_redo (ms := ms) hin
    have hb := places_inside (ms := ms.reverse.map Move.inverse) hin
    have sz : (place (ms.reverse.map Move.inverse) ((j.bmp.width, j.bmp.height), p)).1 =
        (i.bmp.width, i.bmp.height) := by
      by_cases hwh : 0 < i.bmp.width ∧ 0 < i.bmp.height
      · have hin0 : Inside ((i.bmp.width, i.bmp.height), (0, 0)) := hwh
        have := place_undo (ms := ms) hin0
        have e2 : place ms ((i.bmp.width, i.bmp.height), (0, 0)) = ((j.bmp.width, j.bmp.height),
            (place ms ((i.bmp.width, i.bmp.height), (0, 0))).2) := Prod.ext (h3 _) rfl
        rw [e2] at this
        rw [place_size _ _ p, this]
      · exfalso
        -- an empty image stays empty
        have emp : ∀ (ms : List Move) (s : Place), ¬ (0 < s.1.1 ∧ 0 < s.1.2) →
            ¬ (0 < (place ms s).1.1 ∧ 0 < (place ms s).1.2) := by
          intro ms
          induction ms with
          | nil => exact fun s h => h
          | cons m ms ih =>
            intro s hs
            apply ih
            cases m with
            | turn a => cases a <;> simp only [Move.place, quarter] <;> omega
            | _ => simp only [Move.place] <;> omega
        have := emp ms ((i.bmp.width, i.bmp.height), (0, 0)) hwh
        rw [h3] at this
        simp only [Set.mem_setOf_eq] at hp
        omega
    refine ⟨(place (ms.reverse.map Move.inverse) ((j.bmp.width, j.bmp.height), p)).2, ?_, ?_⟩
    · unfold Inside at hb
      rw [sz] at hb
      exact hb
    · have e2 : place (ms.reverse.map Move.inverse) ((j.bmp.width, j.bmp.height), p) =
          ((i.bmp.width, i.bmp.height),
            (place (ms.reverse.map Move.inverse) ((j.bmp.width, j.bmp.height), p)).2) := Prod.ext sz rfl
      rw [e2] at u
      dsimp only
      rw [u]

/-- Four quarter turns, two half turns, a quarter turn and its inverse, and two equal flips give an
image with the original size and pixels. -/
theorem C26_identities (F : LawfulFI (Arith.ieee L) FI) (hi : ImgOk (Arith.ieee L) i) {ms : List Move}
    (hms : (∃ a, (a = .CW90 ∨ a = .CCW90 ∨ a = .CW270 ∨ a = .CCW270) ∧
        ms = [.turn a, .turn a, .turn a, .turn a]) ∨
      (∃ a, (a = .CW180 ∨ a = .CCW180) ∧ ms = [.turn a, .turn a]) ∨
      ms = [.turn .CW90, .turn .CCW90] ∨ ms = [.turn .CW270, .turn .CCW270] ∨
      ms = [.mirrorX, .mirrorX] ∨ ms = [.mirrorY, .mirrorY])
    {j : Image Dbl} (e : runMoves (Arith.ieee L) FI ms i = .ok (some j)) {x y : Nat}
    (hx : x < i.bmp.width) (hy : y < i.bmp.height) :
    j.bmp.width = i.bmp.width ∧ j.bmp.height = i.bmp.height ∧
      j.getPixel (Arith.ieee L) x y = i.getPixel (Arith.ieee L) x y := by
  obtain ⟨r, e', h⟩ := C26_sequences F hi ms
  rw [e] at e'
  cases e'
  obtain ⟨-, -, h3, h4⟩ := h j rfl
  have key : place ms ((i.bmp.width, i.bmp.height), (x, y)) = ((i.bmp.width, i.bmp.height), (x, y)) := by
    have hin : Inside ((i.bmp.width, i.bmp.height), (x, y)) := ⟨hx, hy⟩
    have q := quarter_quarter _ hin
    have i1 := quarter_inside hin
    have i2 := quarter_inside i1
    have i3 := quarter_inside i2
    rcases hms with ⟨a, ha, rfl⟩ | ⟨a, ha, rfl⟩ | rfl | rfl | rfl | rfl
    · rcases ha with rfl | rfl | rfl | rfl <;> simp only [place, List.foldl, Move.place]
      · exact q
      · rw [q, q, q]
      · rw [q, q, q]
      · exact q
    · rcases ha with rfl | rfl <;> exact q
    · exact q
    · exact q
    · exact inverse_place (m := .mirrorX) hin
    · exact inverse_place (m := .mirrorY) hin
  have h3 := h3 (x, y)
  have h4 := h4 x y hx hy
  rw [key] at h3 h4
  simp only [Prod.mk.injEq] at h3
  exact ⟨h3.1.symm, h3.2.symm, h4⟩

/-- The hypotheses are met, with and without a FreeImage that rotates, and the image does turn: the
pixel at the bottom left of the 3 x 2 image is at the top left of the 2 x 3 image. -/
example (rotates : Bool) : LawfulFI (Arith.ieee Toy.libm) (Toy.fi (Arith.ieee Toy.libm) rotates) ∧
    ImgOk (Arith.ieee Toy.libm) Toy.rgba ∧
    ∃ j, (Toy.rgba).rotate (Arith.ieee Toy.libm) (Toy.fi (Arith.ieee Toy.libm) rotates) .CW90 =
      .ok (some j) ∧ j.bmp.width = 2 ∧ j.bmp.height = 3 ∧
      j.getPixel (Arith.ieee Toy.libm) 0 0 = (Toy.rgba).getPixel (Arith.ieee Toy.libm) 0 1 := by
  have F := Toy.fi_ieee Toy.libm rotates
  have hi := Toy.rgba_ok (Arith.ieee Toy.libm)
  refine ⟨F, hi, ?_⟩
  obtain ⟨r, e, h⟩ := C26_rotate F hi .CW90
  have : r ≠ none := by
    rintro rfl
    cases rotates
    · simp only [Image.rotate, Toy.fi, Image.new, Toy.rgba] at e
      simp [Res.bind_eq_ok] at e
    · simp [Image.rotate, Toy.fi, RotateAngle.degrees] at e
  obtain ⟨j, rfl⟩ := Option.ne_none_iff_exists'.1 this
  have hs := (h j rfl).2.2.1 (0, 0)
  have hp := (h j rfl).2.2.2 0 1 (by simp [Toy.rgba]) (by simp [Toy.rgba])
  simp only [Move.place, quarter, Toy.rgba, Prod.mk.injEq] at hs
  exact ⟨j, e, hs.1.symm, hs.2.symm, by simpa [Move.place, quarter, Toy.rgba] using hp⟩

end Cuttlefish
