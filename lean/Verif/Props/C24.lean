import Verif.Spec.File
import Mathlib.Tactic.Common
/-
C24: the file type is deduced from the extension.
-/
namespace Cuttlefish
open Spec

theorem lowerAscii_eq (b : UInt8) : lowerAscii b = asciiLower b := by
  unfold lowerAscii asciiLower
  have h : (65 ≤ b.toNat ∧ b.toNat ≤ 90) ↔
      (UInt8.ofNat 'A'.toNat ≤ b ∧ b ≤ UInt8.ofNat 'Z'.toNat) := by
    rw [UInt8.le_iff_toNat_le, UInt8.le_iff_toNat_le]
    rfl
  by_cases hb : 65 ≤ b.toNat ∧ b.toNat ≤ 90
  · rw [if_pos hb, if_pos (h.1 hb)]
  · rw [if_neg hb, if_neg (fun x => hb (h.2 x))]

theorem strcaseEq_iff (a : List UInt8) : ∀ b, strcaseEq a b = true ↔
    a.map asciiLower = b.map asciiLower := by
  induction a with
  | nil => intro b; cases b <;> simp [strcaseEq]
  | cons x xs ih => intro b; cases b <;> simp [strcaseEq, ih, lowerAscii_eq]

theorem endsWithCase_iff (name ext : List UInt8) (he : ext.map asciiLower = ext) :
    endsWithCase name ext = true ↔ EndsWith name ext := by
  unfold endsWithCase EndsWith
  simp only [Bool.and_eq_true, decide_eq_true_eq, strcaseEq_iff, he]
  constructor
  · rintro ⟨h1, h2⟩
    exact ⟨_, _, (List.take_append_drop (name.length - ext.length) name).symm, h2⟩
  · rintro ⟨base, suffix, rfl, h⟩
    have hl : suffix.length = ext.length := by rw [← h]; simp
    refine ⟨by simp [hl], ?_⟩
    rw [List.length_append, ← hl, Nat.add_sub_cancel, List.drop_left, h]

theorem endsWith_unique {name e1 e2 : List UInt8} (hl : e1.length = e2.length)
    (h1 : EndsWith name e1) (h2 : EndsWith name e2) : e1 = e2 := by
  obtain ⟨b1, s1, rfl, rfl⟩ := h1
  obtain ⟨b2, s2, h, rfl⟩ := h2
  simp only [List.length_map] at hl
  have := List.append_inj_right' h hl
  rw [this]

/-- `fileType(name)` is DDS, KTX or PVR exactly when the name ends with `.dds`, `.ktx` or `.pvr`
ignoring ASCII case, and Auto otherwise. -/
theorem C24_file_type (name : List UInt8) :
    (fileType name = .DDS ↔ EndsWith name (ascii ".dds")) ∧
    (fileType name = .KTX ↔ EndsWith name (ascii ".ktx")) ∧
    (fileType name = .PVR ↔ EndsWith name (ascii ".pvr")) ∧
    (fileType name = .Auto ↔ ¬ EndsWith name (ascii ".dds") ∧ ¬ EndsWith name (ascii ".ktx") ∧
      ¬ EndsWith name (ascii ".pvr")) := by
  have hd : endsWithCase name [0x2E, 0x64, 0x64, 0x73] = true ↔ EndsWith name (ascii ".dds") :=
    endsWithCase_iff name _ (by decide)
  have hk : endsWithCase name [0x2E, 0x6B, 0x74, 0x78] = true ↔ EndsWith name (ascii ".ktx") :=
    endsWithCase_iff name _ (by decide)
  have hp : endsWithCase name [0x2E, 0x70, 0x76, 0x72] = true ↔ EndsWith name (ascii ".pvr") :=
    endsWithCase_iff name _ (by decide)
  have x1 : ¬ (EndsWith name (ascii ".dds") ∧ EndsWith name (ascii ".ktx")) := fun h => by
    have := endsWith_unique (by decide) h.1 h.2; revert this; decide
  have x2 : ¬ (EndsWith name (ascii ".dds") ∧ EndsWith name (ascii ".pvr")) := fun h => by
    have := endsWith_unique (by decide) h.1 h.2; revert this; decide
  have x3 : ¬ (EndsWith name (ascii ".ktx") ∧ EndsWith name (ascii ".pvr")) := fun h => by
    have := endsWith_unique (by decide) h.1 h.2; revert this; decide
  unfold fileType
  have key : ∀ {e : List UInt8} {P : Prop} [Decidable P], (endsWithCase name e = true ↔ P) →
      endsWithCase name e = decide P := fun h => Bool.eq_iff_iff.2 (by simpa using h)
  classical
  rw [key hd, key hk, key hp]
  by_cases a : EndsWith name (ascii ".dds")
  · by_cases b : EndsWith name (ascii ".ktx")
    · exact absurd ⟨a, b⟩ x1
    · by_cases c : EndsWith name (ascii ".pvr")
      · exact absurd ⟨a, c⟩ x2
      · simp [a, b, c]
  · by_cases b : EndsWith name (ascii ".ktx")
    · by_cases c : EndsWith name (ascii ".pvr")
      · exact absurd ⟨b, c⟩ x3
      · simp [a, b, c]
    · by_cases c : EndsWith name (ascii ".pvr") <;> simp [a, b, c]

/-- Names that meet each case. -/
example : EndsWith (ascii "dir.x/Foo.KtX") (ascii ".ktx") ∧ fileType (ascii "a.DDS") = .DDS ∧
    fileType (ascii ".pvr") = .PVR ∧ fileType (ascii "ktx") = .Auto ∧ fileType [] = .Auto ∧
    fileType (ascii "a.ktx ") = .Auto :=
  ⟨⟨ascii "dir.x/Foo", ascii ".KtX", by decide, by decide⟩, by decide, by decide, by decide, by decide,
    by decide⟩

end Cuttlefish
