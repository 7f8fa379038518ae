import Verif.Proofs.Sample
import Verif.Proofs.SaveRun
/-
Concrete saved textures in the small world.
-/
namespace Cuttlefish.Toy
open Spec

/-- Runs a history, a conversion and a save to a perfect stream, and compares. -/
def checkSave (ops : List (Op Img)) (f : Format) (ty : TType) (ft : FileType)
    (expected : Res (SaveResult × OStream)) : Bool :=
  match run real none ops with
  | .ok (_, t) =>
    match t.convert real.feat real.hw real.enc f ty .Normal .Standard {} 1 with
    | .ok (b, t') => b && t'.save Device.perfect ft ⟨[], true⟩ == expected
    | .ub => false
  | .ub => false

theorem sampleSave {ops : List (Op Img)} {f : Format} {ty : TType} {ft : FileType}
    {expected : Res (SaveResult × OStream)} (hs : SafeHist real none ops)
    (h : checkSave ops f ty ft expected = true) :
    ∃ t t', Conversion ext view real t t' f ty ∧
      t.convert real.feat real.hw real.enc f ty .Normal .Standard {} 1 = .ok (true, t') ∧
      t'.save Device.perfect ft ⟨[], true⟩ = expected := by
  unfold checkSave at h
  cases hr : run real none ops with
  | ub => rw [hr] at h; simp at h
  | ok p =>
    obtain ⟨outs, t⟩ := p
    rw [hr] at h
    simp only at h
    cases hc : t.convert real.feat real.hw real.enc f ty .Normal .Standard {} 1 with
    | ub => rw [hc] at h; simp at h
    | ok p =>
      obtain ⟨b, t'⟩ := p
      rw [hc] at h
      simp only [Bool.and_eq_true, beq_iff_eq] at h
      obtain ⟨rfl, h3⟩ := h
      exact ⟨t, t', ⟨lawful, rfl, fun g => ⟨rfl, rfl⟩, ⟨ops, outs, hs, hr⟩, ⟨_, _, _, _, hc⟩⟩, hc, h3⟩

/-- Runs a history and a conversion and tests the converted texture. -/
def checkTex (ops : List (Op Img)) (f : Format) (ty : TType) (p : Tex Img → Bool) : Bool :=
  match run real none ops with
  | .ok (_, t) =>
    match t.convert real.feat real.hw real.enc f ty .Normal .Standard {} 1 with
    | .ok (b, t') => b && p t'
    | .ub => false
  | .ub => false

theorem sampleTex {ops : List (Op Img)} {f : Format} {ty : TType} {p : Tex Img → Bool}
    (hs : SafeHist real none ops) (h : checkTex ops f ty p = true) :
    ∃ t t', Conversion ext view real t t' f ty ∧ p t' = true := by
  unfold checkTex at h
  cases hr : run real none ops with
  | ub => rw [hr] at h; simp at h
  | ok q =>
    obtain ⟨outs, t⟩ := q
    rw [hr] at h
    simp only at h
    cases hc : t.convert real.feat real.hw real.enc f ty .Normal .Standard {} 1 with
    | ub => rw [hc] at h; simp at h
    | ok q =>
      obtain ⟨b, t'⟩ := q
      rw [hc] at h
      simp only [Bool.and_eq_true] at h
      obtain ⟨rfl, h3⟩ := h
      exact ⟨t, t', ⟨lawful, rfl, fun g => ⟨rfl, rfl⟩, ⟨ops, outs, hs, hr⟩, ⟨_, _, _, _, hc⟩⟩, h3⟩

/-- `initialize()` and an image for every level, depth and face. -/
def fill (dim : Dimension) (w h d levels : Nat) (cs : ColorSpace) (tag : Nat) : List (Op Img) :=
  .initialize dim w h d levels cs :: (List.range levels).flatMap (fun m =>
    (List.range (depthExtent dim d 0)).flatMap (fun k =>
      (List.range (if dim = .Cube then 6 else 1)).map (fun fc =>
        .setImage (some ⟨extent w m, extent h m, true, cs, [tag]⟩) false
          (some (CubeFace.ofIndex fc)) m k)))

theorem sets_safe (ops : List (Op Img)) (h : ∀ o ∈ ops, ∃ g mv face m d, o = .setImage g mv face m d) :
    ∀ t, SafeHist real t ops := by
  induction ops with
  | nil => intro t; trivial
  | cons o os ih =>
    intro t
    obtain ⟨g, mv, face, m, d, rfl⟩ := h o (by simp)
    exact ⟨trivial, fun out t' _ => ih (fun x hx => h x (by simp [hx])) t'⟩

theorem fill_safe (dim : Dimension) (w h d levels : Nat) (cs : ColorSpace) (tag : Nat) (hw : w < 2 ^ 32)
    (hh : h < 2 ^ 32) (hd : d < 2 ^ 32) : SafeHist real none (fill dim w h d levels cs tag) := by
  refine ⟨⟨hw, hh, hd⟩, fun out t' _ => sets_safe _ ?_ t'⟩
  intro o ho
  simp only [List.mem_flatMap, List.mem_map] at ho
  obtain ⟨m, -, k, -, fc, -, rfl⟩ := ho
  exact ⟨_, _, _, _, _, rfl⟩

/-- Tests the bytes of the saved texture. -/
def savedAs (ft : FileType) (q : List UInt8 → Bool) (t : Tex Img) : Bool :=
  match t.save Device.perfect ft ⟨[], true⟩ with
  | .ok (.Success, ⟨bytes, true⟩) => q bytes
  | _ => false

theorem savedAs_full {ft : FileType} {q : List UInt8 → Bool} {t : Tex Img}
    (h : savedAs ft q t = true) : ∃ bytes, FullFile t ft bytes ∧ q bytes = true := by
  unfold savedAs at h
  split at h
  · rename_i bytes hs
    exact ⟨bytes, hs, h⟩
  · cases h

end Cuttlefish.Toy
