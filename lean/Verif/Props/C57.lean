import Verif.Spec.Streams
import Verif.Props.C38
import Verif.Props.C55
/-
C57: an image is loaded from a stream or from memory as it is from the bytes in a file.

The readers of FreeImage are any programs over its four functions (`Decoder`).  `Spec.imageIn` is the image that the bytes
hold when these functions are those of the C library.
-/
namespace Cuttlefish
open Spec
variable {N F α β : Type}

theorem onMemory_andThen (data : List UInt8) (q : α → IOProg β) : ∀ (p : IOProg α) (pos : ℕ),
    (andThen p q).onMemory data pos = (q (p.onMemory data pos).1).onMemory data (p.onMemory data pos).2
  | .done a, pos => rfl
  | .read size count k, pos => by
    simp only [andThen, IOProg.onMemory]
    exact onMemory_andThen data q _ _
  | .write _ _ _ k, pos => by
    simp only [andThen, IOProg.onMemory]
    exact onMemory_andThen data q _ _
  | .seek offset origin k, pos => by
    simp only [andThen, IOProg.onMemory]
    by_cases h : 0 ≤ (if origin = 0 then 0 else if origin = 1 then (pos : ℤ) else (data.length : ℤ)) + offset ∧ origin ≤ 2
    · rw [if_pos h, if_pos h]
      exact onMemory_andThen data q _ _
    · rw [if_neg h, if_neg h]
      exact onMemory_andThen data q _ _
  | .tell k, pos => by
    simp only [andThen, IOProg.onMemory]
    exact onMemory_andThen data q _ _

theorem onIStream_andThen (q : α → IOProg β) : ∀ (p : IOProg α) (s : IStream),
    (andThen p q).onIStream s = (q (p.onIStream s).1).onIStream (p.onIStream s).2
  | .done a, s => rfl
  | .read size count k, s => by
    simp only [andThen, IOProg.onIStream]
    exact onIStream_andThen q _ _
  | .write _ _ _ k, s => by
    simp only [andThen, IOProg.onIStream]
    exact onIStream_andThen q _ _
  | .seek offset origin k, s => by
    simp only [andThen, IOProg.onIStream]
    exact onIStream_andThen q _ _
  | .tell k, s => by
    simp only [andThen, IOProg.onIStream]
    exact onIStream_andThen q _ _

/-- A plain program gives the same result on a stream as on the bytes. -/
theorem plain_stream (content : List UInt8) : ∀ (p : IOProg α) (ended : Bool) (s : IStream), s.content = content →
    s.seekable = true → s.pos ≤ content.length → (ended = false → s.eof = false ∧ s.fail = false) →
    (ended = true → s.fail = true ∧ s.pos = content.length) → Plain content p ended s.pos →
    (p.onIStream s).1 = (p.onMemory content s.pos).1
  | .done a, _, _, _, _, _, _, _, _ => rfl
  | .read size count k, ended, s, hc, hs, hp, hg, he, h => by
    obtain ⟨h1, h2, h3⟩ := h
    have hu : u32 (size * count) = size * count := Nat.mod_eq_of_lt h1
    simp only [IOProg.onIStream, IOProg.onMemory, readIStream, hu]
    generalize hgot : (content.drop s.pos).take (size * count) = got at h2 h3 ⊢
    have hle : got.length ≤ size * count := by rw [← hgot]; exact List.length_take_le _ _
    have hlen : got.length = min (size * count) (content.length - s.pos) := by
      rw [← hgot, List.length_take, List.length_drop]
    cases ended with
    | true =>
      obtain ⟨hf, hpe⟩ := he rfl
      have hnil : got = [] := by
        rw [← List.length_eq_zero_iff, hlen, hpe]
        simp
      subst hnil
      have hr : s.read (size * count) = ([], { s with fail := true }) := by simp [IStream.read, hf]
      rw [hr]
      simp only [List.length_nil, Nat.zero_div, Nat.add_zero, u32, Nat.zero_mod, Bool.true_or] at h3 ⊢
      exact plain_stream content (k [] 0) true { s with fail := true } hc hs hp (by simp) (fun _ => ⟨rfl, hpe⟩) h3
    | false =>
      obtain ⟨ge, gf⟩ := hg rfl
      have hul : u32 got.length = got.length := Nat.mod_eq_of_lt (lt_of_le_of_lt hle h1)
      have hr : s.read (size * count) = (got, if got.length < size * count then
          { s with pos := s.pos + got.length, eof := true, fail := true } else { s with pos := s.pos + got.length }) := by
        simp only [IStream.read, ge, gf, Bool.or_self, Bool.false_eq_true, if_false, hc, hgot]
        split <;> rfl
      rw [hr]
      simp only [hul, h2]
      by_cases hlt : got.length < size * count
      · rw [if_pos hlt]
        simp only [hlt, decide_true, Bool.false_or] at h3
        exact plain_stream content _ true _ hc hs (by simp only; omega) (by simp) (fun _ => ⟨rfl, by simp only; omega⟩) h3
      · rw [if_neg hlt]
        simp only [hlt, decide_false, Bool.or_self] at h3
        exact plain_stream content _ false _ hc hs (by simp only; omega) (fun _ => ⟨ge, gf⟩) (by simp) h3
  | .write _ _ _ k, ended, s, hc, hs, hp, hg, he, h => by
    simp only [IOProg.onIStream, IOProg.onMemory]
    exact plain_stream content (k 0) ended s hc hs hp hg he h
  | .seek offset origin k, ended, s, hc, hs, hp, hg, he, h => by
    obtain ⟨rfl, ho, h0, hl, h3⟩ := h
    obtain ⟨ge, gf⟩ := hg rfl
    simp only [IOProg.onIStream, IOProg.onMemory]
    rw [if_pos ⟨h0, ho⟩]
    have key : seekIStream s offset origin = (0, { s with
        pos := ((if origin = 0 then 0 else if origin = 1 then (s.pos : ℤ) else (content.length : ℤ)) + offset).toNat }) := by
      have go : ∀ base : ℕ, 0 ≤ (base : ℤ) + offset → (base : ℤ) + offset ≤ content.length →
          s.seekTo base offset = { s with pos := ((base : ℤ) + offset).toNat } := by
        intro base b0 b1
        rw [IStream.seekTo, gf, if_neg (by simp), if_pos ⟨hs, b0, by rw [hc]; exact b1⟩, ← ge]
      rcases (by omega : origin = 0 ∨ origin = 1 ∨ origin = 2) with rfl | rfl | rfl
      · simp only [if_true] at h0 hl
        simp [seekIStream, go 0 (by simpa using h0) (by simpa using hl), ge, gf]
      · simp only [one_ne_zero, if_true, if_false] at h0 hl
        simp [seekIStream, go _ h0 hl, ge, gf]
      · simp only [OfNat.ofNat_ne_zero, OfNat.ofNat_ne_one, if_false] at h0 hl
        simp [seekIStream, hc, go _ h0 hl, ge, gf]
    rw [key]
    exact plain_stream content (k 0) false _ hc hs (by simp only; omega) (fun _ => ⟨ge, gf⟩) (by simp) h3
  | .tell k, ended, s, hc, hs, hp, hg, he, h => by
    obtain ⟨rfl, h3⟩ := h
    obtain ⟨ge, gf⟩ := hg rfl
    simp only [IOProg.onIStream, IOProg.onMemory, IStream.tell, ge, gf, hs, Bool.or_self, Bool.false_eq_true, if_false, if_true]
    exact plain_stream content _ false s hc hs hp hg (by simp) h3

theorem imageIn_eq (FP : FromPalette N) (lib : Decoder N F) (bytes : List UInt8) (pos : ℕ) (cs : ColorSpace) :
    imageIn FP lib bytes pos cs = match (lib.fileType.onMemory bytes pos).1 with
      | none => none
      | some f => createImpl FP ((lib.load f).onMemory bytes (lib.fileType.onMemory bytes pos).2).1 cs .Invalid := by
  rw [imageIn, readImage, onMemory_andThen]
  cases (lib.fileType.onMemory bytes pos).1 with
  | none => rfl
  | some f => rfl

/-- Loading from memory, up to 4 GiB: the image that the bytes hold. -/
theorem C57_memory (FP : FromPalette N) (lib : Decoder N F) (data : List UInt8) (cs : ColorSpace)
    (h : data.length < 2 ^ 32) : loadMemory FP lib data cs = imageIn FP lib data 0 cs := by
  rw [imageIn_eq, loadMemory]
  have : data.take (u32 data.length) = data := by
    rw [show u32 data.length = data.length from Nat.mod_eq_of_lt h, List.take_length]
  rw [this]
  cases (lib.fileType.onMemory data 0).1 with
  | none => rfl
  | some f => rfl

/-- Loading from a stream that can be positioned, for readers that are `Plain`: the image that the bytes from the current
position on hold. -/
theorem C57_stream_partial (FP : FromPalette N) (lib : Decoder N F) (s : IStream) (cs : ColorSpace) (fuel : ℕ)
    (hs : s.seekable = true) (he : s.eof = false) (hf : s.fail = false) (hp : s.pos ≤ s.content.length)
    (h : Plain s.content (readImage lib) false s.pos) :
    loadStream fuel FP lib s cs = some (imageIn FP lib s.content s.pos cs) := by
  have ht : s.tell = ((s.pos : ℤ), s) := by simp [IStream.tell, he, hf, hs]
  have key := plain_stream s.content (readImage lib) false s rfl hs hp (fun _ => ⟨he, hf⟩) (by simp) h
  rw [readImage, onIStream_andThen] at key
  rw [loadStream, ht]
  simp only
  rw [if_neg (by omega), imageIn, readImage, ← key]
  cases (lib.fileType.onIStream s).1 with
  | none => rfl
  | some f => rfl

/-- Loading from a stream that cannot be positioned, or on which an earlier operation failed: the image that the rest of
its bytes hold, up to 4 GiB.  All readers are served. -/
theorem C57_unseekable (FP : FromPalette N) (lib : Decoder N F) (s : IStream) (cs : ColorSpace)
    (hs : s.seekable = false ∨ s.eof = true ∨ s.fail = true) (hlen : (s.content.drop s.pos).length < 2 ^ 32) :
    ∃ fuel, ∀ m, fuel ≤ m → loadStream m FP lib s cs = some (imageIn FP lib (s.content.drop s.pos) 0 cs) := by
  have ht : ∃ s', s.tell = (-1, s') ∧ s'.content = s.content ∧ s'.pos = s.pos ∧ (s'.seekable = false ∨ s'.fail = true) := by
    rw [IStream.tell]
    by_cases h : (s.eof || s.fail) = true
    · rw [if_pos h]
      exact ⟨_, rfl, rfl, rfl, .inr rfl⟩
    · rw [if_neg h]
      have : s.seekable = false := by
        rcases hs with h' | h' | h'
        · exact h'
        · simp [h'] at h
        · simp [h'] at h
      rw [if_neg (by simp [this])]
      exact ⟨_, rfl, rfl, rfl, .inl this⟩
  obtain ⟨s', e, hc, hp, hor⟩ := ht
  obtain ⟨fuel, hfuel⟩ := C38_not_seekable s' hor
  refine ⟨fuel, fun m hm => ?_⟩
  obtain ⟨s'', e'⟩ := hfuel m hm
  rw [loadStream, e]
  simp only
  rw [if_pos (by decide), e', hc, hp, Option.map_some, C57_memory FP lib _ cs hlen]

/-! ### Where the code does not meet the claim, and examples -/

/-- A bitmap of one pixel. -/
def Toy.dot (N : Type) (v : ℕ) : FIBitmap N :=
  ⟨.BITMAP, 8, .MinIsBlack, false, 0, 0, 0, fun i => (i, i, i), fun _ => 255, ⟨1, 1, fun _ _ => .ints [(v : ℤ)]⟩⟩

/-- A reader of files that start with 7: the file type is 7, the second byte is the pixel.  It reads a header of
`header` bytes to look at the type, goes back to the start, and reads items of `size` bytes. -/
def Toy.reader (N : Type) (header size : ℕ) : Decoder N ℕ where
  fileType := .tell fun start => .read 1 header fun bs _ => .seek start 0 fun r =>
    if r = 0 ∧ bs.head? = some 7 then .done (some 7) else .done none
  load _ := .read size 1 fun bs n => if n = 1 then .done (some (Toy.dot N (bs.getD 1 0).toNat)) else .done none

/-- A reader of one byte. -/
def Toy.byteReader (N : Type) : Decoder N ℕ where
  fileType := .tell fun start => .read 1 1 fun bs _ => .seek start 0 fun r =>
    if r = 0 ∧ bs.head? = some 7 then .done (some 7) else .done none
  load _ := .seek 1 1 fun _ => .read 1 1 fun bs n => if n = 1 then .done (some (Toy.dot N (bs.getD 0 0).toNat)) else .done none

/-- The full claim is false: the result of a read is the number of bytes, where FreeImage asks for the number of items.  A
reader that asks for one item of two bytes and checks for one loads the image from memory but not from a stream. -/
theorem C57_fails_items : ∃ (lib : Decoder ℚ ℕ) (bytes : List UInt8),
    (imageIn Toy.palettes lib bytes 0 .Linear).isSome = true ∧
    loadStream 0 Toy.palettes lib ⟨bytes, 0, true, false, false⟩ .Linear = some none :=
  ⟨Toy.reader ℚ 1 2, [7, 9], by decide +kernel, by
    have : (loadStream 0 Toy.palettes (Toy.reader ℚ 1 2) ⟨[7, 9], 0, true, false, false⟩ .Linear).map Option.isSome = some false := by
      decide +kernel
    cases h : loadStream 0 Toy.palettes (Toy.reader ℚ 1 2) ⟨[7, 9], 0, true, false, false⟩ .Linear with
    | none => simp [h] at this
    | some r => cases r <;> simp_all⟩

/-- The full claim is false: a file that is shorter than the header that a reader asks for cannot be loaded from a stream,
because the stream fails at its end and does not go back. -/
theorem C57_fails_end : ∃ (lib : Decoder ℚ ℕ) (bytes : List UInt8),
    (imageIn Toy.palettes lib bytes 0 .Linear).isSome = true ∧
    loadStream 0 Toy.palettes lib ⟨bytes, 0, true, false, false⟩ .Linear = some none := by
  refine ⟨{ Toy.byteReader ℚ with fileType := (Toy.reader ℚ 16 1).fileType }, [7, 9], by decide +kernel, ?_⟩
  have : (loadStream 0 Toy.palettes { Toy.byteReader ℚ with fileType := (Toy.reader ℚ 16 1).fileType }
      ⟨[7, 9], 0, true, false, false⟩ .Linear).map Option.isSome = some false := by decide +kernel
  cases h : loadStream 0 Toy.palettes { Toy.byteReader ℚ with fileType := (Toy.reader ℚ 16 1).fileType }
      ⟨[7, 9], 0, true, false, false⟩ .Linear with
  | none => simp [h] at this
  | some r => cases r <;> simp_all

/-- The full claim is false: 4 GiB of data are taken for no data at all. -/
theorem C57_fails_large : ∃ (lib : Decoder ℚ ℕ) (bytes : List UInt8),
    (imageIn Toy.palettes lib bytes 0 .Linear).isSome = true ∧ loadMemory Toy.palettes lib bytes .Linear = none := by
  obtain ⟨t, ht⟩ : ∃ t : List UInt8, t.length + 2 = 2 ^ 32 := by
    have : ∀ n : ℕ, 2 ≤ n → ∃ t : List UInt8, t.length + 2 = n := fun n hn =>
      ⟨List.replicate (n - 2) 0, by rw [List.length_replicate]; omega⟩
    exact this _ (by norm_num)
  refine ⟨Toy.byteReader ℚ, 7 :: 9 :: t, ?_, ?_⟩
  · simp [imageIn, readImage, andThen, Toy.byteReader, IOProg.onMemory, createImpl, Toy.dot, getFormat]
  · have hl : u32 ((7 : UInt8) :: 9 :: t).length = 0 := by
      rw [List.length_cons, List.length_cons, Nat.add_assoc, ht]
      rfl
    rw [loadMemory, hl]
    simp [Toy.byteReader, IOProg.onMemory]

/-- A reader that goes back and forth, and a stream that stands at the second byte, meet the hypotheses; the image is
loaded. -/
example : Plain [1, 7, 9] (readImage (Toy.byteReader ℚ)) false 1 ∧
    (loadStream 0 Toy.palettes (Toy.byteReader ℚ) ⟨[1, 7, 9], 1, true, false, false⟩ .sRGB).map Option.isSome = some true ∧
    ((loadStream 3 Toy.palettes (Toy.reader ℚ 16 2) ⟨[1, 7, 9], 1, false, false, false⟩ .sRGB).map Option.isSome = some true) := by
  refine ⟨?_, by decide +kernel, by decide +kernel⟩
  simp [readImage, andThen, Toy.byteReader, Plain]

end Cuttlefish
