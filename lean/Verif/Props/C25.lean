import Verif.Proofs.SaveSample
import Verif.Props.C23
/-
C25: classification of the results of `save()`.
-/
namespace Cuttlefish
open Spec
variable {Img : Type}

/-- A texture that is not converted: `Invalid`, and nothing is written to the stream, no file is
opened and the vector keeps its content. -/
theorem C25_not_converted (t : Tex Img) (h : t.converted = false) (ft : FileType) :
    (∀ D s, t.save D ft s = .ok (.Invalid, s)) ∧
    (∀ F name, t.saveFile F name ft = .ok (.Invalid, none)) ∧
    (∀ out, t.saveVector ft out = .ok (.Invalid, out)) := by
  have h1 : ∀ D s, t.save D ft s = .ok (.Invalid, s) := fun D s => by simp [Tex.save, h]
  refine ⟨h1, ?_, ?_⟩
  · intro F name
    cases name <;> simp [Tex.saveFile, h]
  · intro out
    unfold Tex.saveVector
    rw [h1]
    simp

/-- A converted texture and an unknown file type: `UnknownFormat`, and the stream and the vector are
left alone. -/
theorem C25_unknown_type (t : Tex Img) (h : t.converted = true) :
    (∀ D s, t.save D .Auto s = .ok (.UnknownFormat, s)) ∧
    (∀ out, t.saveVector .Auto out = .ok (.UnknownFormat, out)) ∧
    (∀ F name, fileType name = .Auto → F.opens name = true →
      ∃ content, t.saveFile F (some name) .Auto = .ok (.UnknownFormat, content)) := by
  have h1 : ∀ D s, t.save D .Auto s = .ok (.UnknownFormat, s) := fun D s => by simp [Tex.save, h]
  refine ⟨h1, ?_, ?_⟩
  · intro out
    unfold Tex.saveVector
    rw [h1]
    simp
  · intro F name hn ho
    unfold Tex.saveFile
    simp only [h, ho, hn, Bool.not_true, Bool.false_eq_true, if_false, if_true]
    rw [h1]
    exact ⟨_, rfl⟩

/-- A null file name gives `Invalid`; a name that cannot be opened gives `WriteError`. -/
theorem C25_bad_name (t : Tex Img) (F : FileSys) (ft : FileType) :
    t.saveFile F none ft = .ok (.Invalid, none) ∧
    (∀ name, t.converted = true → F.opens name = false →
      t.saveFile F (some name) ft = .ok (.WriteError, none)) := by
  refine ⟨rfl, fun name hc ho => ?_⟩
  simp [Tex.saveFile, hc, ho]

theorem readStream_memory (bytes : List UInt8) :
    readStreamData 1 ⟨bytes, 0, true, false, false⟩ = some (bytes, ⟨bytes, bytes.length, true, false, false⟩) := by
  simp [readStreamData, IStream.seekg, IStream.tellg, IStream.read]

/-- Saving to a vector: on success the vector holds exactly what a stream that never fails receives,
and with any other result the vector is left alone. -/
theorem C25_vector (t : Tex Img) (ft : FileType) (out : List UInt8) :
    (∀ full, FullFile t ft full → t.saveVector ft out = .ok (.Success, full)) ∧
    (∀ r s, t.save Device.perfect ft ⟨[], true⟩ = .ok (r, s) → r ≠ .Success →
      t.saveVector ft out = .ok (r, out)) := by
  constructor
  · intro full h
    unfold Tex.saveVector
    rw [show t.save Device.perfect ft ⟨[], true⟩ = _ from h]
    simp [readStream_memory]
  · intro r s h hr
    unfold Tex.saveVector
    rw [h]
    simp [hr]

/-- The result on a stream that never fails is the whole classification: `Invalid` exactly for
textures that are not converted, `UnknownFormat` exactly for converted ones with an unknown type,
`Unsupported` or `Success` otherwise; with an error nothing is written. -/
theorem C25_classification (t : Tex Img) (ft : FileType) (s : OStream) (hs : s.good = true)
    (r : SaveResult) (s' : OStream) (h : t.save Device.perfect ft s = .ok (r, s')) :
    (r = .Invalid ↔ t.converted = false) ∧
    (r = .UnknownFormat ↔ t.converted = true ∧ ft = .Auto) ∧
    r ≠ .WriteError ∧ (r ≠ .Success → s' = s) := by
  obtain ⟨b, g⟩ := s
  simp only at hs
  subst hs
  rw [save_eq] at h
  cases hc : t.converted
  · rw [hc] at h
    simp only [if_true, Res.ok.injEq, Prod.mk.injEq] at h
    obtain ⟨rfl, rfl⟩ := h
    simp
  · rw [hc] at h
    simp only [Bool.true_eq_false, if_false] at h
    cases ha : saveActs t ft with
    | none =>
      rw [ha] at h
      simp only [Res.ok.injEq, Prod.mk.injEq] at h
      obtain ⟨rfl, rfl⟩ := h
      by_cases hf : ft = .Auto <;> simp [hf]
    | some x =>
      rw [ha] at h
      have hft : ft ≠ .Auto := by rintro rfl; simp [saveActs] at ha
      cases x with
      | ub => simp at h
      | ok as =>
        simp only [Res.ok_bind, runActs_perfect, Res.ok.injEq, Prod.mk.injEq] at h
        obtain ⟨rfl, rfl⟩ := h
        simp [hft]

/-- A converted texture, saved to a vector that already had content. -/
example : ∃ (t : Tex Toy.Img) (full : List UInt8), t.converted = true ∧ full.length = 54 ∧
    t.saveVector .PVR [1, 2, 3] = .ok (.Success, full) ∧
    t.saveVector .Auto [1, 2, 3] = .ok (.UnknownFormat, [1, 2, 3]) := by
  obtain ⟨t, t', -, -, h⟩ := sample_file
  have hc := (fullFile_acts h).1
  exact ⟨t', _, hc, by decide, (C25_vector t' .PVR _).1 _ h, (C25_unknown_type t' hc).2.1 _⟩

/-- A texture that is not converted. -/
example : Tex.converted (none : Tex Toy.Img) = false := rfl

end Cuttlefish
