import Verif.Spec.Streams
import Verif.Props.C38
/-
C58: saving an image to a stream or to memory gives the bytes of the image file.

The writers of FreeImage are any programs over its four functions (`ImageWriter`).  `Spec.onFile` is what such a program
does to a file with the functions of the C library.
-/
namespace Cuttlefish
open Spec
variable {N F α : Type}

/-- A stream that failed stays so. -/
theorem failed_stays : ∀ (p : IOProg α) (s : WStream), s.fail = true → (p.onWStream s).2.fail = true
  | .done _, s, h => h
  | .read _ _ k, s, h => failed_stays (k [] 0) s h
  | .write bytes size count k, s, h => by
    simp only [IOProg.onWStream]
    apply failed_stays
    simp [writeOStream, WStream.write, h]
  | .seek offset origin k, s, h => by
    simp only [IOProg.onWStream]
    apply failed_stays
    rcases origin with _ | _ | _ | o <;> simp [seekOStream, h]
  | .tell k, s, h => by
    simp only [IOProg.onWStream]
    exact failed_stays _ s h

theorem overwrite_eq {content : List UInt8} {pos : ℕ} (h : pos ≤ content.length) (bs : List UInt8) :
    overwrite content pos bs = putAt content pos bs := by
  rw [overwrite, putAt, Nat.sub_eq_zero_of_le h]
  simp

/-- A write that the stream took. -/
theorem write_good {s : WStream} {bs : List UInt8} (hf : s.fail = false) (h : (s.write bs).fail = false)
    (hp : s.pos ≤ s.content.length) :
    s.write bs = { s with content := putAt s.content s.pos bs, pos := s.pos + bs.length } := by
  have key : ∀ fit : List UInt8, (∃ n, fit = bs.take n) → decide (fit.length < bs.length) = false → fit = bs := by
    rintro fit ⟨n, rfl⟩ h
    simp only [decide_eq_false_iff_not, List.length_take] at h
    exact List.take_of_length_le (by omega)
  cases hr : s.room with
  | none =>
    simp only [WStream.write, hf, hr, Bool.false_eq_true, if_false]
    rw [overwrite_eq hp]
    simp [hr]
  | some n =>
    simp only [WStream.write, hf, hr, Bool.false_eq_true, if_false] at h ⊢
    rw [key _ ⟨_, rfl⟩ h, overwrite_eq hp]
    simp [hr]

theorem putAt_length {content : List UInt8} {pos : ℕ} (h : pos ≤ content.length) (bs : List UInt8) :
    pos + bs.length ≤ (putAt content pos bs).length ∧ content.length ≤ (putAt content pos bs).length := by
  rw [putAt, Nat.sub_eq_zero_of_le h]
  simp
  omega

/-- A plain writer on a stream that did not fail. -/
theorem plain_writes : ∀ (p : IOProg α) (s : WStream), s.fail = false → s.pos ≤ s.content.length →
    PlainWriter p s.content s.pos → (p.onWStream s).2.fail = false →
    (p.onWStream s).1 = (onFile p s.content s.pos).1 ∧ (p.onWStream s).2.content = (onFile p s.content s.pos).2.1
  | .done _, s, _, _, _, _ => ⟨rfl, rfl⟩
  | .read _ _ _, s, _, _, h, _ => absurd h id
  | .write bytes size count k, s, hf, hp, h, hgood => by
    obtain ⟨h1, h2, h3⟩ := h
    have hu : u32 (size * count) = size * count := Nat.mod_eq_of_lt h1
    have hu' : u32 (count * size) = count * size := by rw [Nat.mul_comm]; exact hu
    simp only [IOProg.onWStream, writeOStream, hu, hu', h2, onFile] at hgood ⊢
    have hw : (s.write (bytes.take (size * count))).fail = false := by
      by_contra hcon
      rw [failed_stays _ _ (by simpa using hcon)] at hgood
      simp at hgood
    rw [write_good hf hw hp] at hgood ⊢
    exact plain_writes (k count) _ hf (putAt_length hp _).1 h3 hgood
  | .seek offset origin k, s, hf, hp, h, hgood => by
    obtain ⟨ho, h0, hl, h3⟩ := h
    simp only [IOProg.onWStream, onFile] at hgood ⊢
    rw [if_pos ⟨h0, ho⟩]
    have key : seekOStream s offset origin = (0, { s with
        pos := ((if origin = 0 then 0 else if origin = 1 then (s.pos : ℤ) else (s.content.length : ℤ)) + offset).toNat }) := by
      rcases (by omega : origin = 0 ∨ origin = 1 ∨ origin = 2) with rfl | rfl | rfl
      · simp only [if_true] at h0 hl
        simp only [seekOStream, hf]
        rw [if_neg (by simp), if_pos ⟨by simpa using h0, by simpa using hl⟩]
        simp
      · simp only [one_ne_zero, if_true, if_false] at h0 hl
        simp only [seekOStream, hf]
        rw [if_neg (by simp), if_pos ⟨h0, hl⟩]
        simp
      · simp only [OfNat.ofNat_ne_zero, OfNat.ofNat_ne_one, if_false] at h0 hl
        simp only [seekOStream, hf]
        rw [if_neg (by simp), if_pos ⟨h0, hl⟩]
        simp
    rw [key] at hgood ⊢
    exact plain_writes (k 0) _ hf (by simp only; omega) h3 hgood
  | .tell k, s, hf, hp, h, hgood => by
    simp only [IOProg.onWStream, onFile, tellOStream, hf, Bool.false_eq_true, if_false] at hgood ⊢
    exact plain_writes _ s hf hp h hgood

/-- A stream with room for any number of bytes does not fail. -/
theorem plain_good : ∀ (p : IOProg α) (s : WStream), s.fail = false → s.room = none → s.pos ≤ s.content.length →
    PlainWriter p s.content s.pos → (p.onWStream s).2.fail = false
  | .done _, s, hf, _, _, _ => hf
  | .read _ _ _, s, _, _, _, h => absurd h id
  | .write bytes size count k, s, hf, hr, hp, h => by
    obtain ⟨h1, h2, h3⟩ := h
    have hu : u32 (size * count) = size * count := Nat.mod_eq_of_lt h1
    have hu' : u32 (count * size) = count * size := by rw [Nat.mul_comm]; exact hu
    simp only [IOProg.onWStream, writeOStream, hu, hu', h2]
    have hw : (s.write (bytes.take (size * count))).fail = false := by simp [WStream.write, hf, hr]
    rw [write_good hf hw hp]
    exact plain_good (k count) _ hf hr (putAt_length hp _).1 h3
  | .seek offset origin k, s, hf, hr, hp, h => by
    obtain ⟨ho, h0, hl, h3⟩ := h
    simp only [IOProg.onWStream]
    have key : seekOStream s offset origin = (0, { s with
        pos := ((if origin = 0 then 0 else if origin = 1 then (s.pos : ℤ) else (s.content.length : ℤ)) + offset).toNat }) := by
      rcases (by omega : origin = 0 ∨ origin = 1 ∨ origin = 2) with rfl | rfl | rfl
      · simp only [if_true] at h0 hl
        simp only [seekOStream, hf]
        rw [if_neg (by simp), if_pos ⟨by simpa using h0, by simpa using hl⟩]
        simp
      · simp only [one_ne_zero, if_true, if_false] at h0 hl
        simp only [seekOStream, hf]
        rw [if_neg (by simp), if_pos ⟨h0, hl⟩]
        simp
      · simp only [OfNat.ofNat_ne_zero, OfNat.ofNat_ne_one, if_false] at h0 hl
        simp only [seekOStream, hf]
        rw [if_neg (by simp), if_pos ⟨h0, hl⟩]
        simp
    rw [key]
    exact plain_good (k 0) _ hf hr (by simp only; omega) h3
  | .tell k, s, hf, hr, hp, h => by
    simp only [IOProg.onWStream, tellOStream, hf, Bool.false_eq_true, if_false]
    exact plain_good _ s hf hr hp h

/-- Saving to a stream, for writers that are `PlainWriter`: if the stream is still good afterwards, the result is the one
of the writer, and the stream holds what the file would hold. -/
theorem C58_stream_partial (lib : ImageWriter N F) (i : Image N) (s : WStream) (name : List UInt8) (f : F)
    (hf : lib.fileType name = some f) (hs : s.fail = false) (hp : s.pos ≤ s.content.length)
    (hw : PlainWriter (lib.save f i.bmp) s.content s.pos) (hgood : (saveStream lib (some i) s name).2.fail = false) :
    (saveStream lib (some i) s name).1 = (onFile (lib.save f i.bmp) s.content s.pos).1 ∧
    (saveStream lib (some i) s name).2.content = (onFile (lib.save f i.bmp) s.content s.pos).2.1 := by
  simp only [saveStream, hf] at hgood ⊢
  exact plain_writes _ s hs hp hw hgood

/-- Saving to memory, for writers that are `PlainWriter`: if the writer succeeds, the bytes are those of a new file;
otherwise the result is false and the bytes are what they were. -/
theorem C58_vector_partial (lib : ImageWriter N F) (i : Image N) (out : List UInt8) (name : List UInt8) (f : F) (fuel : ℕ)
    (hf : lib.fileType name = some f) (hw : PlainWriter (lib.save f i.bmp) [] 0) :
    saveVector fuel lib (some i) out name = some (if (onFile (lib.save f i.bmp) [] 0).1 = true
      then (true, (onFile (lib.save f i.bmp) [] 0).2.1) else (false, out)) := by
  have hg := plain_good (lib.save f i.bmp) ⟨[], 0, false, none⟩ rfl rfl le_rfl hw
  obtain ⟨e1, e2⟩ := plain_writes (lib.save f i.bmp) ⟨[], 0, false, none⟩ rfl le_rfl hw hg
  simp only [saveVector, saveStream, hf]
  rw [e1, e2, hg]
  by_cases h : (onFile (lib.save f i.bmp) [] 0).1 = true
  · rw [if_pos h, if_pos h]
    obtain ⟨s', e⟩ := C38_seekable ⟨(onFile (lib.save f i.bmp) [] 0).2.1, 0, true, false, false⟩ rfl rfl fuel
    rw [e, Option.map_some]
  · rw [if_neg h, if_neg h]

/-- An image that is not valid, and a name that is no name of an image file, are refused; nothing is written. -/
theorem C58_refuses (lib : ImageWriter N F) (i : Img? N) (s : WStream) (out name : List UInt8) (fuel : ℕ)
    (h : i = none ∨ lib.fileType name = none) :
    saveStream lib i s name = (false, s) ∧ saveVector fuel lib i out name = some (false, out) := by
  have : ∀ s, saveStream lib i s name = (false, s) := by
    intro s
    cases i with
    | none => rfl
    | some i =>
      rcases h with h | h
      · simp at h
      · simp [saveStream, h]
  exact ⟨this s, by simp [saveVector, this]⟩

/-! ### Where the code does not meet the claim, and examples -/

/-- A writer that leaves a place for the size of the file, writes the pixels of the first row as one item, checks the
result of this with `check`, and goes back to the place. -/
def Toy.writer (N : Type) (check : ℕ → Bool) : ImageWriter N ℕ where
  fileType name := if name = [] then none else some 7
  save f b := .write [UInt8.ofNat f, 0] 1 2 fun _ =>
    .write ((List.range b.width).map UInt8.ofNat) b.width 1 fun n =>
      if check n then .tell fun size => .seek 1 0 fun r =>
        if r = 0 then .write [UInt8.ofNat size.toNat] 1 1 fun _ => .done true else .done false
      else .done false

/-- An image of three pixels. -/
def Toy.row3 : Image ℚ := ⟨.Gray8, .Linear, ⟨3, 1, fun _ _ => .ints [0]⟩⟩

/-- The full claim is false: `writeOStream` reports what it was asked to write, not what the stream took.  A writer of one
block that checks the result returns true on a stream without room, and nothing is written. -/
theorem C58_fails_full : ∃ (lib : ImageWriter ℚ ℕ) (s : WStream) (f : ℕ), lib.fileType [7] = some f ∧
    s.fail = false ∧ s.pos ≤ s.content.length ∧ PlainWriter (lib.save f Toy.row3.bmp) s.content s.pos ∧
    (saveStream lib (some Toy.row3) s [7]).1 = true ∧ (saveStream lib (some Toy.row3) s [7]).2.content = [] ∧
    (onFile (lib.save f Toy.row3.bmp) s.content s.pos).2.1 = [1, 2, 3] :=
  ⟨⟨fun _ => some 7, fun _ _ => .write [1, 2, 3] 1 3 fun n => .done (decide (n = 3))⟩, ⟨[], 0, false, some 0⟩, 7, rfl, rfl,
    le_rfl, by simp [PlainWriter], by decide +kernel, by decide +kernel, by decide +kernel⟩

/-- The full claim is false: the result of a write is the number of bytes, where FreeImage asks for the number of items.
A writer that checks for one item succeeds on a file but not on a stream. -/
theorem C58_fails_items : ∃ (lib : ImageWriter ℚ ℕ) (f : ℕ), lib.fileType [7] = some f ∧
    (onFile (lib.save f Toy.row3.bmp) [] 0).1 = true ∧ saveVector 1 lib (some Toy.row3) [] [7] = some (false, []) :=
  ⟨Toy.writer ℚ (fun n => n = 1), 7, rfl, by decide +kernel, by decide +kernel⟩

/-- A writer that goes back meets the hypotheses, and the bytes are there. -/
example : PlainWriter ((Toy.writer ℚ (fun n => n ≠ 0)).save 7 Toy.row3.bmp) [] 0 ∧
    saveVector 1 (Toy.writer ℚ (fun n => n ≠ 0)) (some Toy.row3) [] [7] = some (true, [7, 5, 0, 1, 2]) := by
  refine ⟨?_, by decide +kernel⟩
  simp [Toy.writer, Toy.row3, PlainWriter, putAt]

end Cuttlefish
