import Verif.Proofs.SaveSample
/-
C23: output failures are reported.
-/
namespace Cuttlefish
open Spec
variable {Img : Type}

/-- On every output device, however and whenever it fails: `save()` returns `Success` only if the
complete file was accepted; otherwise the stream is bad, the result is `WriteError`, and the accepted
bytes are a beginning of the complete file.  (`full` is what a stream that never fails receives.) -/
theorem C23_failures_reported (t : Tex Img) (ft : FileType) (full : List UInt8)
    (hfull : FullFile t ft full) (D : Device) (old : List UInt8) :
    ∃ r s, t.save D ft ⟨old, true⟩ = .ok (r, s) ∧
      ((r = .Success ∧ s.good = true ∧ s.bytes = old ++ full) ∨
       (r = .WriteError ∧ s.good = false ∧ ∃ p, p <+: full ∧ s.bytes = old ++ p)) := by
  obtain ⟨hc, as, ha, rfl⟩ := fullFile_acts hfull
  refine ⟨_, _, save_run hc ha D _, ?_⟩
  rcases runActs_any D as old with h | ⟨h1, h2, h3⟩
  · left; rw [h]; simp
  · exact Or.inr ⟨h3 (checked_save ha), h1, h2⟩

/-- A stream that failed before the call stays as it is and the result is `WriteError`. -/
theorem C23_failed_before (t : Tex Img) (ft : FileType) (full : List UInt8)
    (hfull : FullFile t ft full) (D : Device) (old : List UInt8) :
    t.save D ft ⟨old, false⟩ = .ok (.WriteError, ⟨old, false⟩) := by
  obtain ⟨hc, as, ha, rfl⟩ := fullFile_acts hfull
  rw [save_run hc ha]
  obtain ⟨h1, h2⟩ := runActs_bad D as old
  rw [Res.ok.injEq]
  exact Prod.ext (h2 (check_mem_save ha)) h1

/-- Every failure point: a device with room for `n` bytes gets the first `n` bytes of the file, and
the result is `Success` exactly when the file fits. -/
theorem C23_every_failure_point (t : Tex Img) (ft : FileType) (full : List UInt8)
    (hfull : FullFile t ft full) (n : Nat) :
    t.save (failAfter n) ft ⟨[], true⟩ =
      .ok (if full.length ≤ n then (.Success, ⟨full, true⟩)
        else (.WriteError, ⟨full.take n, false⟩)) := by
  obtain ⟨hc, as, ha, rfl⟩ := fullFile_acts hfull
  rw [save_run hc ha, runActs_failAfter n as (checked_save ha) [] (by simp)]
  simp

/-- Saving to a named file, when closing the file does not lose bytes: `Success` means that the file
holds the complete data, an error that it holds a beginning of it (or was not opened).

Partial: closing can lose bytes, and then `Success` is returned although the file is not complete, see
`C23_fails_file`. -/
theorem C23_file_partial (t : Tex Img) (ft : FileType) (name full : List UInt8)
    (hfull : FullFile t (if ft = .Auto then fileType name else ft) full) (F : FileSys)
    (hclose : ∀ b, F.close b = b.length) :
    ∃ r content, t.saveFile F (some name) ft = .ok (r, content) ∧
      ((r = .Success ∧ content = some full) ∨
       (r = .WriteError ∧ ∀ c, content = some c → c <+: full)) := by
  have hc := (fullFile_acts hfull).1
  unfold Tex.saveFile
  simp only [hc, Bool.not_true, Bool.false_eq_true, if_false]
  by_cases ho : F.opens name = true
  · simp only [ho, Bool.not_true, Bool.false_eq_true, if_false]
    obtain ⟨r, s, h1, h2⟩ := C23_failures_reported t _ full hfull F.dev []
    rw [h1]
    refine ⟨_, _, rfl, ?_⟩
    simp only [hclose, List.take_length]
    rcases h2 with ⟨rfl, -, h⟩ | ⟨rfl, -, p, hp, h⟩
    · left; simp [h]
    · right
      refine ⟨rfl, ?_⟩
      rintro c hcc
      simp only [Option.some.injEq] at hcc
      subst hcc
      rw [h, List.nil_append]; exact hp
  · refine ⟨.WriteError, none, by simp [ho], Or.inr ⟨rfl, by simp⟩⟩

theorem sample_file : ∃ t t', Conversion Toy.ext Toy.view Toy.real t t' .R8 .UNorm ∧
    t.convert Toy.real.feat Toy.real.hw Toy.real.enc .R8 .UNorm .Normal .Standard {} 1 = .ok (true, t') ∧
    FullFile t' .PVR ([80, 86, 82, 3] ++ leBytes 4 0 ++ [114, 0, 0, 0, 8, 0, 0, 0] ++ leBytes 4 0 ++
      leBytes 4 0 ++ leBytes 4 1 ++ leBytes 4 2 ++ leBytes 4 1 ++ leBytes 4 1 ++ leBytes 4 1 ++
      leBytes 4 1 ++ leBytes 4 0 ++ [0, 255]) :=
  Toy.sampleSave (ops := Toy.single 2 1 [0, 0x3F800000]) (Toy.single_safe _ _ _ (by norm_num) (by norm_num))
    (by decide +kernel)

/-- The full claim is false for files: when the disk is full and the data still fits the buffer of the
`ofstream`, the failing flush in its destructor is not seen and `Success` is returned for an empty
file. -/
theorem C23_fails_file : ∃ (t : Tex Toy.Img) (F : FileSys) (name full : List UInt8),
    FullFile t (fileType name) full ∧ full ≠ [] ∧
    t.saveFile F (some name) .Auto = .ok (.Success, some []) := by
  obtain ⟨t, t', -, -, h⟩ := sample_file
  refine ⟨t', ⟨fun _ => true, Device.perfect, fun _ => 0⟩, ascii "a.pvr", _,
    show FullFile t' (fileType (ascii "a.pvr")) _ from h, by simp, ?_⟩
  have hc := (fullFile_acts h).1
  unfold Tex.saveFile
  simp only [hc, Bool.not_true, Bool.false_eq_true, if_false, if_true]
  rw [show fileType (ascii "a.pvr") = .PVR by decide, show t'.save Device.perfect .PVR ⟨[], true⟩ = _ from h]
  simp

/-- A texture whose PVR file has 54 bytes, and a device that fails in the middle of it. -/
example : ∃ (t : Tex Toy.Img) (full : List UInt8), FullFile t .PVR full ∧ full.length = 54 ∧
    t.save (failAfter 53) .PVR ⟨[], true⟩ = .ok (.WriteError, ⟨full.take 53, false⟩) ∧
    t.save (failAfter 54) .PVR ⟨[], true⟩ = .ok (.Success, ⟨full, true⟩) := by
  obtain ⟨t, t', -, -, h⟩ := sample_file
  refine ⟨t', _, h, by decide, ?_, ?_⟩
  · rw [C23_every_failure_point _ _ _ h, if_neg (by decide)]
  · rw [C23_every_failure_point _ _ _ h, if_pos (by decide)]

end Cuttlefish
