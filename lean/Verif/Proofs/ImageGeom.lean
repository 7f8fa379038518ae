import Verif.Proofs.ImagePx
/-
Rotations and flips.
-/
namespace Cuttlefish
open Spec
variable {N : Type} {A : Arith N} {FI : FreeImage N}

theorem getPixel_in {i : Image N} {x y : Nat} (hx : x < i.bmp.width) (hy : y < i.bmp.height) :
    i.getPixel A x y = (do
      let c ← getPixelImpl A i.format (i.bmp.px (i.bmp.height - y - 1) x)
      .ok (some c)) := by
  rw [Image.getPixel, if_neg (by omega), Image.get_eq (by omega) hx]

theorem new_ok (F : LawfulFI A FI) {f : IFormat} {w h : Nat} {cs : ColorSpace} {i : Image N}
    (e : Image.new FI f w h cs = some i) :
    i.format = f ∧ i.colorSpace = cs ∧ i.bmp.width = w ∧ i.bmp.height = h ∧ ImgOk A i := by
  unfold Image.new at e
  by_cases hf : f = .Invalid
  · simp [hf] at e
  · rw [if_neg hf] at e
    obtain ⟨b, hb, rfl⟩ := Option.map_eq_some_iff.1 e
    obtain ⟨h1, h2, h3⟩ := F.alloc _ _ _ _ hb
    exact ⟨rfl, rfl, h1, h2, h3⟩

/-- A bitmap whose pixels are those of another one, moved by `q`, up to the stored form of a colour. -/
structure Moved (A : Arith N) (i j : Image N) (w h : Nat) (q : Nat → Nat → Nat × Nat) : Prop where
  format : j.format = i.format
  space : j.colorSpace = i.colorSpace
  width : j.bmp.width = w
  height : j.bmp.height = h
  px : ∀ y, y < i.bmp.height → ∀ x, x < i.bmp.width → PxOk A i.format (j.bmp.px (q y x).1 (q y x).2) ∧
    getPixelImpl A i.format (j.bmp.px (q y x).1 (q y x).2) = getPixelImpl A i.format (i.bmp.px y x)

/-- A loop that reads each pixel of `src` and stores it at a different place of `dst`. -/
theorem move_loop (L : LawfulArith A) {src dst : Image N} {q r : Nat → Nat → Nat × Nat}
    {body : Nat → Nat → Image N → Res (Image N)} {h w : Nat} (hs : ImgOk A src) (hf : dst.format = src.format)
    (hb : ∀ y, y < h → ∀ x, x < w → ∀ d : Image N, d.bmp.width = dst.bmp.width →
      d.bmp.height = dst.bmp.height → body y x d = (do
        let c ← src.get A (r y x).1 (r y x).2
        d.set A (q y x).1 (q y x).2 c))
    (hq : ∀ y, y < h → ∀ x, x < w → ∀ y', y' < h → ∀ x', x' < w → q y x = q y' x' → y = y' ∧ x = x')
    (hin : ∀ y, y < h → ∀ x, x < w → (q y x).1 < dst.bmp.height ∧ (q y x).2 < dst.bmp.width ∧
      (r y x).1 < src.bmp.height ∧ (r y x).2 < src.bmp.width) :
    ∃ d, loop (steps 0 h) (fun y d => loop (steps 0 w) (body y) d) dst = .ok d ∧
      d.format = src.format ∧ d.colorSpace = dst.colorSpace ∧ d.bmp.width = dst.bmp.width ∧
      d.bmp.height = dst.bmp.height ∧
      ∀ y, y < h → ∀ x, x < w → PxOk A src.format (d.bmp.px (q y x).1 (q y x).2) ∧
        getPixelImpl A src.format (d.bmp.px (q y x).1 (q y x).2) =
          getPixelImpl A src.format (src.bmp.px (r y x).1 (r y x).2) := by
  obtain ⟨d, e, h1, h2, h3, h4, h5⟩ := write_grid (dst := dst) (body := body) (h := h) (w := w) (q := q)
    (P := fun y x p => PxOk A src.format p ∧ getPixelImpl A src.format p =
          getPixelImpl A src.format (src.bmp.px (r y x).1 (r y x).2)) (by
      intro y hy x hx d df dw dh _
      obtain ⟨a1, a2, a3, a4⟩ := hin y hy x hx
      obtain ⟨c, ec, gc⟩ := Image.get_ok hs a3 a4
      obtain ⟨p, ep, okp, gp⟩ := px_round L (hs _ _ a3 a4) gc
      refine ⟨p, ⟨okp, by rw [gp, gc]⟩, ?_⟩
      rw [hb y hy x hx d dw dh, ec, Res.ok_bind]
      exact Image.set_ok (by omega) (by omega) (by rw [df, hf]; exact ep)) hq
  exact ⟨d, e, h1.trans hf, h2, h3, h4, h5⟩

theorem rotate_spec (L : LawfulArith A) (F : LawfulFI A FI) {i : Image N} (hi : ImgOk A i)
    (angle : RotateAngle) :
    ∃ r, i.rotate A FI angle = .ok r ∧ ∀ j, r = some j →
      match angle with
      | .CCW90 | .CW270 => Moved A i j i.bmp.height i.bmp.width (fun y x => (x, i.bmp.height - 1 - y))
      | .CCW180 | .CW180 => Moved A i j i.bmp.width i.bmp.height
          (fun y x => (i.bmp.height - 1 - y, i.bmp.width - 1 - x))
      | .CCW270 | .CW90 => Moved A i j i.bmp.height i.bmp.width (fun y x => (i.bmp.width - 1 - x, y)) := by
  unfold Image.rotate
  cases hr : FI.rotate i.bmp angle.degrees with
  | some b =>
    refine ⟨_, rfl, ?_⟩
    rintro j hj
    cases hj
    cases angle <;> simp only [RotateAngle.degrees] at hr <;> dsimp only
    case CCW90 | CW270 =>
      obtain ⟨h1, h2, h3⟩ := F.rotate90 _ _ hr
      exact ⟨rfl, rfl, h1, h2, fun y hy x hx => by dsimp only; rw [h3 y x hy hx]; exact ⟨hi y x hy hx, rfl⟩⟩
    case CCW180 | CW180 =>
      obtain ⟨h1, h2, h3⟩ := F.rotate180 _ _ hr
      exact ⟨rfl, rfl, h1, h2, fun y hy x hx => by dsimp only; rw [h3 y x hy hx]; exact ⟨hi y x hy hx, rfl⟩⟩
    case CCW270 | CW90 =>
      obtain ⟨h1, h2, h3⟩ := F.rotate270 _ _ hr
      exact ⟨rfl, rfl, h1, h2, fun y hy x hx => by dsimp only; rw [h3 y x hy hx]; exact ⟨hi y x hy hx, rfl⟩⟩
  | none =>
    dsimp only
    have key : ∀ (w h : Nat) (q r : Nat → Nat → Nat × Nat)
        (m : Nat → Nat → Nat × Nat),
        (∀ dst : Image N, dst.bmp.width = w → dst.bmp.height = h → dst.format = i.format →
          ∃ d, rotateLoop A i angle dst = .ok d ∧ d.format = i.format ∧ d.colorSpace = dst.colorSpace ∧
            d.bmp.width = w ∧ d.bmp.height = h ∧
            ∀ y, y < i.bmp.height → ∀ x, x < i.bmp.width → PxOk A i.format (d.bmp.px (q y x).1 (q y x).2) ∧
              getPixelImpl A i.format (d.bmp.px (q y x).1 (q y x).2) =
                getPixelImpl A i.format (i.bmp.px (r y x).1 (r y x).2)) →
        (∀ y, y < i.bmp.height → ∀ x, x < i.bmp.width → ∃ y', y' < i.bmp.height ∧ ∃ x', x' < i.bmp.width ∧
          r y' x' = (y, x) ∧ q y' x' = m y x) →
        ∃ o, (match Image.new FI i.format w h i.colorSpace with
          | none => Res.ok none
          | some dst => do
            let dst ← rotateLoop A i angle dst
            .ok (some dst)) = .ok o ∧ ∀ j, o = some j → Moved A i j w h m := by
      intro w h q r m hl hm
      cases hn : Image.new FI i.format w h i.colorSpace with
      | none => exact ⟨none, rfl, by simp⟩
      | some dst =>
        obtain ⟨n1, n2, n3, n4, n5⟩ := new_ok F hn
        obtain ⟨d, e, d1, d2, d3, d4, d5⟩ := hl dst n3 n4 n1
        refine ⟨some d, by simp [e], ?_⟩
        rintro j hj
        cases hj
        refine ⟨d1, d2.trans n2, d3, d4, ?_⟩
        intro y hy x hx
        obtain ⟨y', hy', x', hx', e1, e2⟩ := hm y hy x hx
        have := d5 y' hy' x' hx'
        rwa [e1, e2] at this
    cases angle <;> dsimp only
    case CCW90 | CW270 =>
      refine key _ _ (fun y x => (x, i.bmp.height - 1 - y)) (fun y x => (y, x)) _ ?_
        (fun y hy x hx => ⟨y, hy, x, hx, rfl, rfl⟩)
      intro dst dw dh df
      obtain ⟨d, e, h1, h2, h3, h4, h5⟩ := move_loop L (src := i) (dst := dst) (h := i.bmp.height)
        (w := i.bmp.width) (q := fun y x => (x, i.bmp.height - 1 - y)) (r := fun y x => (y, x))
        (body := fun y x dst => do
          let c ← i.get A y x
          dst.set A x (dst.bmp.width - y - 1) c) hi df
        (by
          intro y hy x hx d d1 d2
          dsimp only
          rw [d1, dw, show i.bmp.height - y - 1 = i.bmp.height - 1 - y by omega])
        (by intro y hy x hx y' hy' x' hx' he; simp only [Prod.mk.injEq] at he; omega)
        (by intro y hy x hx; dsimp only; omega)
      exact ⟨d, e, h1, h2, h3.trans dw, h4.trans dh, h5⟩
    case CCW180 | CW180 =>
      refine key _ _ (fun y x => (i.bmp.height - 1 - y, i.bmp.width - 1 - x)) (fun y x => (y, x)) _ ?_
        (fun y hy x hx => ⟨y, hy, x, hx, rfl, rfl⟩)
      intro dst dw dh df
      obtain ⟨d, e, h1, h2, h3, h4, h5⟩ := move_loop L (src := i) (dst := dst) (h := i.bmp.height)
        (w := i.bmp.width) (q := fun y x => (i.bmp.height - 1 - y, i.bmp.width - 1 - x))
        (r := fun y x => (y, x))
        (body := fun y x dst => do
          let c ← i.get A y x
          dst.set A (i.bmp.height - y - 1) (i.bmp.width - x - 1) c) hi df
        (by
          intro y hy x hx d d1 d2
          dsimp only
          rw [show i.bmp.height - y - 1 = i.bmp.height - 1 - y by omega,
            show i.bmp.width - x - 1 = i.bmp.width - 1 - x by omega])
        (by intro y hy x hx y' hy' x' hx' he; simp only [Prod.mk.injEq] at he; omega)
        (by intro y hy x hx; dsimp only; omega)
      exact ⟨d, e, h1, h2, h3.trans dw, h4.trans dh, h5⟩
    case CCW270 | CW90 =>
      refine key _ _ (fun y x => (x, y)) (fun y x => (y, i.bmp.width - 1 - x)) _ ?_
        (fun y hy x hx => ⟨y, hy, i.bmp.width - 1 - x, by omega, by
          refine Prod.ext rfl ?_
          dsimp only
          omega, rfl⟩)
      intro dst dw dh df
      obtain ⟨d, e, h1, h2, h3, h4, h5⟩ := move_loop L (src := i) (dst := dst) (h := i.bmp.height)
        (w := i.bmp.width) (q := fun y x => (x, y)) (r := fun y x => (y, i.bmp.width - 1 - x))
        (body := fun y x dst => do
          let c ← i.get A y (i.bmp.width - x - 1)
          dst.set A x y c) hi df
        (by
          intro y hy x hx d d1 d2
          dsimp only
          rw [show i.bmp.width - x - 1 = i.bmp.width - 1 - x by omega])
        (by intro y hy x hx y' hy' x' hx' he; simp only [Prod.mk.injEq] at he; omega)
        (by intro y hy x hx; dsimp only; omega)
      exact ⟨d, e, h1, h2, h3.trans dw, h4.trans dh, h5⟩

theorem Moved.spec {i j : Image N} {w h : Nat} {q : Nat → Nat → Nat × Nat} (M : Moved A i j w h q)
    (inv : ∀ y, y < h → ∀ x, x < w → ∃ y', y' < i.bmp.height ∧ ∃ x', x' < i.bmp.width ∧ q y' x' = (y, x)) :
    ImgOk A j := by
  intro y x hy hx
  rw [M.height] at hy
  rw [M.width] at hx
  obtain ⟨y', hy', x', hx', e⟩ := inv y hy x hx
  have := (M.px y' hy' x' hx').1
  rw [e] at this
  rw [M.format]
  exact this

theorem Moved.get {i j : Image N} {w h : Nat} {q : Nat → Nat → Nat × Nat} (M : Moved A i j w h q)
    {x y x' y' : Nat} (hx : x < i.bmp.width) (hy : y < i.bmp.height) (hx' : x' < w) (hy' : y' < h)
    (e : q (i.bmp.height - y - 1) x = (h - y' - 1, x')) :
    j.getPixel A x' y' = i.getPixel A x y := by
  rw [getPixel_in hx hy, getPixel_in (by rw [M.width]; exact hx') (by rw [M.height]; exact hy'), M.height,
    M.format]
  have := (M.px (i.bmp.height - y - 1) (by omega) x hx).2
  rw [e] at this
  rw [this]

/-- A position inside its size. -/
def Inside (s : Place) : Prop := s.2.1 < s.1.1 ∧ s.2.2 < s.1.2

theorem quarter_inside {s : Place} (h : Inside s) : Inside (quarter s) := by
  unfold Inside quarter at *
  dsimp only
  omega

theorem place_inside {m : Move} {s : Place} (h : Inside s) : Inside (m.place s) := by
  cases m with
  | turn a =>
    cases a <;> simp only [Move.place] <;>
      first | exact quarter_inside (quarter_inside (quarter_inside h)) | exact quarter_inside (quarter_inside h) |
        exact quarter_inside h
  | _ => simp only [Inside, Move.place] at *; omega

theorem move_spec (L : LawfulArith A) (F : LawfulFI A FI) {i : Image N} (hi : ImgOk A i) (m : Move) :
    ∃ r, runMove A FI i m = .ok r ∧ ∀ j, r = some j → ImgOk A j ∧ j.format = i.format ∧
      j.colorSpace = i.colorSpace ∧
      (∀ p, (m.place ((i.bmp.width, i.bmp.height), p)).1 = (j.bmp.width, j.bmp.height)) ∧
      ∀ x y, x < i.bmp.width → y < i.bmp.height →
        j.getPixel A (m.place ((i.bmp.width, i.bmp.height), (x, y))).2.1
          (m.place ((i.bmp.width, i.bmp.height), (x, y))).2.2 = i.getPixel A x y := by
  cases m with
  | turn a =>
    obtain ⟨r, e, h⟩ := rotate_spec L F hi a
    refine ⟨r, e, ?_⟩
    intro j hj
    have M := h j hj
    cases a <;> dsimp only at M
    case CCW90 | CW270 =>
      refine ⟨M.spec (fun y hy x hx => ⟨i.bmp.height - 1 - x, by omega, y, hy, ?_⟩), M.format, M.space, ?_, ?_⟩
      · refine Prod.ext rfl ?_
        dsimp only
        omega
      · intro p; rw [M.width, M.height]; rfl
      · intro x y hx hy
        simp only [Move.place, quarter]
        refine M.get hx hy (by omega) (by omega) ?_
        refine Prod.ext ?_ ?_ <;> dsimp only <;> omega
    case CCW180 | CW180 =>
      refine ⟨M.spec (fun y hy x hx => ⟨i.bmp.height - 1 - y, by omega, i.bmp.width - 1 - x, by omega, ?_⟩),
        M.format, M.space, ?_, ?_⟩
      · refine Prod.ext ?_ ?_ <;> dsimp only <;> omega
      · intro p; rw [M.width, M.height]; rfl
      · intro x y hx hy
        simp only [Move.place, quarter]
        refine M.get hx hy (by omega) (by omega) ?_
        refine Prod.ext ?_ ?_ <;> dsimp only <;> omega
    case CCW270 | CW90 =>
      refine ⟨M.spec (fun y hy x hx => ⟨x, hx, i.bmp.width - 1 - y, by omega, ?_⟩), M.format, M.space, ?_, ?_⟩
      · refine Prod.ext ?_ rfl
        dsimp only
        omega
      · intro p; rw [M.width, M.height]; rfl
      · intro x y hx hy
        simp only [Move.place, quarter]
        refine M.get hx hy (by omega) (by omega) ?_
        refine Prod.ext ?_ ?_ <;> dsimp only <;> omega
  | mirrorX =>
    refine ⟨_, rfl, ?_⟩
    intro j hj
    obtain ⟨h1, h2, h3⟩ := F.flipHorizontal i.bmp
    by_cases ok : (FI.flipHorizontal i.bmp).1 = true
    · simp only [Image.flipHorizontal, ok, if_true, Option.some.injEq] at hj
      subst hj
      simp only [ok, if_true] at h3
      have M : Moved A i { i with bmp := (FI.flipHorizontal i.bmp).2 } i.bmp.width i.bmp.height
          (fun y x => (y, i.bmp.width - 1 - x)) := by
        refine ⟨rfl, rfl, h1, h2, ?_⟩
        intro y hy x hx
        dsimp only
        rw [h3 y _ hy (by omega), show i.bmp.width - 1 - (i.bmp.width - 1 - x) = x by omega]
        exact ⟨hi y x hy hx, rfl⟩
      refine ⟨M.spec (fun y hy x hx => ⟨y, hy, i.bmp.width - 1 - x, by omega, ?_⟩), M.format, M.space, ?_, ?_⟩
      · refine Prod.ext rfl ?_
        dsimp only
        omega
      · intro p; rw [M.width, M.height]; rfl
      · intro x y hx hy
        simp only [Move.place]
        refine M.get hx hy (by omega) (by omega) ?_
        refine Prod.ext ?_ ?_ <;> dsimp only <;> omega
    · simp only [Image.flipHorizontal, ok] at hj
      simp at hj
  | mirrorY =>
    refine ⟨_, rfl, ?_⟩
    intro j hj
    obtain ⟨h1, h2, h3⟩ := F.flipVertical i.bmp
    by_cases ok : (FI.flipVertical i.bmp).1 = true
    · simp only [Image.flipVertical, ok, if_true, Option.some.injEq] at hj
      subst hj
      simp only [ok, if_true] at h3
      have M : Moved A i { i with bmp := (FI.flipVertical i.bmp).2 } i.bmp.width i.bmp.height
          (fun y x => (i.bmp.height - 1 - y, x)) := by
        refine ⟨rfl, rfl, h1, h2, ?_⟩
        intro y hy x hx
        dsimp only
        rw [h3 _ x (by omega) hx, show i.bmp.height - 1 - (i.bmp.height - 1 - y) = y by omega]
        exact ⟨hi y x hy hx, rfl⟩
      refine ⟨M.spec (fun y hy x hx => ⟨i.bmp.height - 1 - y, by omega, x, hx, ?_⟩), M.format, M.space, ?_, ?_⟩
      · refine Prod.ext ?_ rfl
        dsimp only
        omega
      · intro p; rw [M.width, M.height]; rfl
      · intro x y hx hy
        simp only [Move.place]
        refine M.get hx hy (by omega) (by omega) ?_
        refine Prod.ext ?_ ?_ <;> dsimp only <;> omega
    · simp only [Image.flipVertical, ok] at hj
      simp at hj

theorem place_size (ms : List Move) (sz p p' : Nat × Nat) : (place ms (sz, p)).1 = (place ms (sz, p')).1 := by
  unfold place
  induction ms generalizing sz p p' with
  | nil => rfl
  | cons m ms ih =>
    simp only [List.foldl_cons]
    have e : (m.place (sz, p)).1 = (m.place (sz, p')).1 := by
      cases m with
      | turn a => cases a <;> rfl
      | _ => rfl
    have := ih (m.place (sz, p)).1 (m.place (sz, p)).2 (m.place (sz, p')).2
    rw [Prod.mk.eta] at this
    rw [this, e]

theorem moves_spec (L : LawfulArith A) (F : LawfulFI A FI) (ms : List Move) {i : Image N} (hi : ImgOk A i) :
    ∃ r, runMoves A FI ms i = .ok r ∧ ∀ j, r = some j → ImgOk A j ∧ j.format = i.format ∧
      j.colorSpace = i.colorSpace ∧
      (∀ p, (place ms ((i.bmp.width, i.bmp.height), p)).1 = (j.bmp.width, j.bmp.height)) ∧
      ∀ x y, x < i.bmp.width → y < i.bmp.height →
        j.getPixel A (place ms ((i.bmp.width, i.bmp.height), (x, y))).2.1
          (place ms ((i.bmp.width, i.bmp.height), (x, y))).2.2 = i.getPixel A x y := by
  induction ms generalizing i with
  | nil =>
    refine ⟨some i, rfl, ?_⟩
    rintro j hj
    cases hj
    exact ⟨hi, rfl, rfl, fun p => rfl, fun x y _ _ => rfl⟩
  | cons m ms ih =>
    obtain ⟨r, e, h⟩ := move_spec L F hi m
    cases r with
    | none => exact ⟨none, by simp [runMoves, e], by simp⟩
    | some k =>
      obtain ⟨k1, k2, k3, k4, k5⟩ := h k rfl
      obtain ⟨r, e', h'⟩ := ih k1
      refine ⟨r, by simp [runMoves, e, e'], ?_⟩
      intro j hj
      obtain ⟨j1, j2, j3, j4, j5⟩ := h' j hj
      refine ⟨j1, j2.trans k2, j3.trans k3, ?_, ?_⟩
      · intro p
        have := j4 (m.place ((i.bmp.width, i.bmp.height), p)).2
        rw [← k4 p, Prod.mk.eta] at this
        exact this
      · intro x y hx hy
        have hin := place_inside (m := m) (s := ((i.bmp.width, i.bmp.height), (x, y))) ⟨hx, hy⟩
        unfold Inside at hin
        rw [k4] at hin
        have := j5 _ _ hin.1 hin.2
        rw [k5 x y hx hy, ← k4 (x, y), Prod.mk.eta] at this
        exact this

end Cuttlefish
