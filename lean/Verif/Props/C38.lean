import Verif.Model.Save
import Mathlib.Tactic.Common
/-
C38: streams are read completely.
-/
namespace Cuttlefish

/-- The bytes a reader that cannot reposition the stream can still get. -/
def IStream.rest (s : IStream) : List UInt8 := s.content.drop s.pos

theorem readLoop_stop (s : IStream) (out : List UInt8) (h : s.eof = true ∨ s.fail = true) (n : Nat) :
    ∃ s', readLoop (n + 1) s out = some (out, s') := by
  have h' : (s.eof || s.fail) = true := by simpa using h
  exact ⟨{ s with fail := true }, by simp [readLoop, IStream.read, h']⟩

theorem readLoop_all (n : Nat) : ∀ (s : IStream) (out : List UInt8), s.eof = false → s.fail = false →
    s.rest.length < 4096 * n → ∀ m, n < m → ∃ s', readLoop m s out = some (out ++ s.rest, s') := by
  induction n with
  | zero => intro s out _ _ h; omega
  | succ n ih =>
    intro s out h1 h2 h m hm
    obtain ⟨m, rfl⟩ : ∃ k, m = k + 1 := ⟨m - 1, by omega⟩
    have hr : s.read 4096 = if (s.rest.take 4096).length < 4096 then
        (s.rest.take 4096, { s with pos := s.pos + (s.rest.take 4096).length, eof := true, fail := true })
        else (s.rest.take 4096, { s with pos := s.pos + (s.rest.take 4096).length }) := by
      simp only [IStream.read, h1, h2, Bool.or_self, Bool.false_eq_true, if_false]
      rfl
    by_cases hlt : s.rest.length < 4096
    · have ht : s.rest.take 4096 = s.rest := List.take_of_length_le (by omega)
      rw [ht, if_pos hlt] at hr
      rw [readLoop, hr]
      by_cases h0 : s.rest.length = 0
      · exact ⟨_, by simp only [h0, if_true]; rw [List.length_eq_zero_iff.1 h0, List.append_nil]⟩
      · simp only [h0, if_false]
        obtain ⟨m', rfl⟩ : ∃ k, m = k + 1 := ⟨m - 1, by omega⟩
        exact readLoop_stop _ _ (Or.inl rfl) _
    · have hl : (s.rest.take 4096).length = 4096 := by rw [List.length_take]; omega
      rw [hl, if_neg (by omega)] at hr
      rw [readLoop, hr]
      simp only [hl]
      rw [if_neg (by omega)]
      have hrest : ({ s with pos := s.pos + 4096 } : IStream).rest = s.rest.drop 4096 := by
        simp only [IStream.rest, List.drop_drop]
      obtain ⟨s', hs'⟩ := ih { s with pos := s.pos + 4096 } (out ++ s.rest.take 4096) h1 h2
        (by rw [hrest, List.length_drop]; omega) m (by omega)
      refine ⟨s', ?_⟩
      rw [hs', hrest, List.append_assoc, List.take_append_drop]

/-- A stream that can be positioned and did not fail: its whole content is delivered, from wherever
the stream stood, and even when its end had been reached. -/
theorem C38_seekable (s : IStream) (hs : s.seekable = true) (hf : s.fail = false) (fuel : Nat) :
    ∃ s', readStreamData fuel s = some (s.content, s') := by
  have h1 : s.seekg true = { s with eof := false, pos := s.content.length } := by
    simp [IStream.seekg, hs, hf]
  have h2 : (s.seekg true).tellg = some s.content.length := by
    rw [h1]; simp [IStream.tellg, hs, hf]
  unfold readStreamData
  simp only [h2]
  rw [h1]
  simp only [IStream.seekg, hs, hf, Bool.false_eq_true, if_false, if_true, IStream.read, Bool.or_self,
    List.drop_zero, List.take_length, lt_irrefl, Nat.sub_self, List.replicate_zero, List.append_nil]
  exact ⟨_, rfl⟩

/-- Any other stream (it cannot be positioned, or an earlier operation failed): the reading loop ends
and delivers exactly the bytes from the current position on, for every length, whatever the split into
chunks of 4096. -/
theorem C38_not_seekable (s : IStream) (h : s.seekable = false ∨ s.fail = true) :
    ∃ fuel, ∀ m, fuel ≤ m → ∃ s', readStreamData m s = some (s.content.drop s.pos, s') := by
  refine ⟨s.rest.length / 4096 + 2, fun m hm => ?_⟩
  have ht : (s.seekg true).tellg = none := by
    unfold IStream.seekg IStream.tellg
    rcases h with h | h
    · by_cases hf : s.fail = true <;> simp [h, hf]
    · simp [h]
  have hs : ∃ b c, s.seekg true = { s with eof := b, fail := c } := by
    unfold IStream.seekg
    rcases h with h | h
    · by_cases hf : s.fail = true
      · exact ⟨false, s.fail, by simp [hf]⟩
      · exact ⟨false, true, by simp [h, hf]⟩
    · exact ⟨false, s.fail, by simp [h]⟩
  obtain ⟨b, c, hs⟩ := hs
  unfold readStreamData
  simp only [ht]
  rw [hs]
  obtain ⟨s', hs'⟩ := readLoop_all (s.rest.length / 4096 + 1) { s with eof := false, fail := false } []
    rfl rfl (by
      show s.rest.length < _
      omega) m (by omega)
  exact ⟨s', hs'⟩

/-- A fresh stream: the whole content is delivered, whether or not it can be positioned. -/
theorem C38_fresh (content : List UInt8) (seekable : Bool) :
    ∃ fuel, ∀ m, fuel ≤ m → ∃ s', readStreamData m ⟨content, 0, seekable, false, false⟩ =
      some (content, s') := by
  cases seekable
  · obtain ⟨f, hf⟩ := C38_not_seekable ⟨content, 0, false, false, false⟩ (Or.inl rfl)
    exact ⟨f, fun m hm => by simpa using hf m hm⟩
  · exact ⟨0, fun m _ => C38_seekable _ rfl rfl m⟩

/-- A stream of exactly two chunks that stands in the middle of the first one. -/
example : (⟨List.replicate 8192 7, 100, false, false, false⟩ : IStream).rest.length = 8092 := by
  rw [IStream.rest, List.length_drop, List.length_replicate]
  rfl

end Cuttlefish
