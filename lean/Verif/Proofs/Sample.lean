import Verif.Proofs.Converted
/-
Concrete conversions in the small world, used by the examples that show that hypotheses can be met.
-/
namespace Cuttlefish.Toy
open Spec

/-- Runs a history and a conversion and compares one surface. -/
def check (ops : List (Op Img)) (f : Format) (ty : TType) (face : Option CubeFace) (m d : Nat)
    (g : Img) (expected : List UInt8) : Bool :=
  match run real none ops with
  | .ok (_, t) =>
    t.getImage face m d == .ok (some g) &&
    match t.convert real.feat real.hw real.enc f ty .Normal .Standard {} 1 with
    | .ok (b, t') => b && t'.data face m d == .ok (some expected)
    | .ub => false
  | .ub => false

theorem sampleConv {ops : List (Op Img)} {f : Format} {ty : TType} {face : Option CubeFace} {m d : Nat}
    {g : Img} {expected : List UInt8} (hs : SafeHist real none ops)
    (h : check ops f ty face m d g expected = true) :
    ∃ t t', Conversion ext view real t t' f ty ∧ Surface view t t' face m d (view g) expected ∧
      t.convert real.feat real.hw real.enc f ty .Normal .Standard {} 1 = .ok (true, t') := by
  unfold check at h
  cases hr : run real none ops with
  | ub => rw [hr] at h; simp at h
  | ok p =>
    obtain ⟨outs, t⟩ := p
    rw [hr] at h
    simp only [Bool.and_eq_true, beq_iff_eq] at h
    obtain ⟨h1, h2⟩ := h
    cases hc : t.convert real.feat real.hw real.enc f ty .Normal .Standard {} 1 with
    | ub => rw [hc] at h2; simp at h2
    | ok p =>
      obtain ⟨b, t'⟩ := p
      rw [hc] at h2
      simp only [Bool.and_eq_true, beq_iff_eq] at h2
      obtain ⟨rfl, h3⟩ := h2
      have hC : Conversion ext view real t t' f ty :=
        ⟨lawful, rfl, fun g => ⟨rfl, rfl⟩, ⟨ops, outs, hs, hr⟩, ⟨_, _, _, _, hc⟩⟩
      refine ⟨t, t', hC, ⟨⟨g, h1, rfl⟩, h3, ?_, (hC.extents h1).1, (hC.extents h1).2.1⟩, hc⟩
      unfold Tex.dataSize
      rw [h3]
      rfl

theorem sample {ops : List (Op Img)} {f : Format} {ty : TType} {face : Option CubeFace} {m d : Nat}
    {g : Img} {expected : List UInt8} (hs : SafeHist real none ops)
    (h : check ops f ty face m d g expected = true) :
    ∃ t t', Conversion ext view real t t' f ty ∧ Surface view t t' face m d (view g) expected := by
  obtain ⟨t, t', h1, h2, -⟩ := sampleConv hs h
  exact ⟨t, t', h1, h2⟩

/-- A 2D texture of one level holding one image. -/
def single (w h : Nat) (tags : List Nat) : List (Op Img) :=
  [.initialize .Dim2D w h 0 1 .Linear, .setImage (some ⟨w, h, true, .Linear, tags⟩) false none 0 0]

theorem single_safe (w h : Nat) (tags : List Nat) (hw : w < 2 ^ 32) (hh : h < 2 ^ 32) :
    SafeHist real none (single w h tags) := by
  simp only [single, SafeHist, SafeCall]
  refine ⟨⟨hw, hh, by norm_num⟩, ?_⟩
  intro _ _ _
  exact ⟨trivial, fun _ _ _ => trivial⟩

/-- Did the conversion of the toy texture after `ops` run into undefined behaviour? -/
def checkUb (ops : List (Op Img)) (f : Format) (ty : TType) : Bool :=
  match run real none ops with
  | .ok (_, t) =>
    match t.convert real.feat real.hw real.enc f ty .Normal .Standard {} 1 with
    | .ub => true
    | .ok _ => false
  | .ub => false

theorem undef {ops : List (Op Img)} {f : Format} {ty : TType}
    (h : checkUb ops f ty = true) : ∃ t outs, run real none ops = .ok (outs, t) ∧
      t.convert real.feat real.hw real.enc f ty .Normal .Standard {} 1 = .ub := by
  unfold checkUb at h
  split at h
  · rename_i outs t hr
    refine ⟨t, outs, hr, ?_⟩
    split at h
    · assumption
    · cases h
  · cases h

end Cuttlefish.Toy
