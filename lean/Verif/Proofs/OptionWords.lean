import Verif.Spec.Options
import Verif.Proofs.CommandSteps
import Verif.Proofs.CommandSafe
/-
Words and numbers on the command line.
-/
namespace Cuttlefish
open Spec
variable {H : Type}

theorem lower_toNat (a : UInt8) :
    (lowerAscii a).toNat = if 65 ≤ a.toNat ∧ a.toNat ≤ 90 then a.toNat + 32 else a.toNat := by
  unfold lowerAscii
  split
  · rename_i h
    rw [UInt8.toNat_add]
    have : (32 : UInt8).toNat = 32 := rfl
    omega
  · rfl

theorem lower_iff (a b : UInt8) : lowerAscii a = lowerAscii b ↔ sameLetter a b := by
  rw [← UInt8.toNat_inj, lower_toNat, lower_toNat]
  unfold sameLetter
  rw [← UInt8.toNat_inj]
  constructor
  · intro h
    by_cases e : a.toNat = b.toNat
    · exact .inl e
    refine .inr ?_
    split at h <;> split at h
    · omega
    · exact ⟨a.toNat - 65, by omega, .inl ⟨by omega, by omega⟩⟩
    · exact ⟨b.toNat - 65, by omega, .inr ⟨by omega, by omega⟩⟩
    · omega
  · rintro (h | ⟨k, hk, ⟨h1, h2⟩ | ⟨h1, h2⟩⟩)
    · rw [h]
    · rw [if_pos (by omega), if_neg (by omega)]; omega
    · rw [if_neg (by omega), if_pos (by omega)]; omega

theorem strcase_map : ∀ (a b : Str), strcaseEq a b = true ↔ a.map lowerAscii = b.map lowerAscii
  | [], [] => by simp [strcaseEq]
  | [], _ :: _ => by simp [strcaseEq]
  | _ :: _, [] => by simp [strcaseEq]
  | a :: as, b :: bs => by simp [strcaseEq, strcase_map as bs]

theorem word_map {w : String} {a : Str} : Word w a ↔ a.map lowerAscii = (cstr w).map lowerAscii := by
  unfold Word
  rw [← List.forall₂_eq_eq_eq, List.forall₂_map_left_iff, List.forall₂_map_right_iff]
  have : (fun a b => lowerAscii a = lowerAscii b) = sameLetter := by
    funext a b; exact propext (lower_iff a b)
  rw [this]

theorem isWord_iff {w : String} {a : Str} : isWord a w = true ↔ Word w a := by
  unfold isWord
  rw [strcase_map, word_map]

theorem word_self (w : String) : Word w (cstr w) := word_map.2 rfl

/-- Looking up a word that is written with other letters. -/
theorem lookup_word {α : Type} {w : String} {a : Str} (h : Word w a) (t : List (String × α)) :
    lookupWord a t = lookupWord (cstr w) t := by
  unfold lookupWord
  have : (fun e : String × α => isWord a e.1) = fun e => isWord (cstr w) e.1 := by
    funext e
    rw [Bool.eq_iff_iff, isWord_iff, isWord_iff, word_map, word_map, word_map.1 h]
  rw [this]

theorem lookup_none {α : Type} {a : Str} {t : List (String × α)} (h : ∀ e ∈ t, ¬ Word e.1 a) :
    lookupWord a t = none := by
  unfold lookupWord
  rw [List.find?_eq_none.2, Option.map_none]
  intro e he
  rw [isWord_iff]
  exact h e he

/-! ### The tables -/

theorem lookup_face (f : CubeFace) : lookupWord (cstr (faceName f)) cubeFaces = some f := by
  cases f <;> decide +kernel

theorem lookup_replace (r : MipReplacement) :
    lookupWord (cstr (replaceName r)) mipReplacements = some r := by
  cases r <;> decide +kernel

theorem lookup_filter (r : ResizeFilter) : lookupWord (cstr (filterName r)) filterNames = some r := by
  cases r <;> decide +kernel

theorem lookup_list (r : ImageType) : lookupWord (cstr (listName r)) listTypes = some r := by
  cases r <;> decide +kernel

theorem lookup_type (r : TType) : lookupWord (cstr (typeName r)) typeNames = some r := by
  cases r <;> decide +kernel

theorem lookup_alpha (r : Alpha) : lookupWord (cstr (alphaName r)) alphaNames = some r := by
  cases r <;> decide +kernel

theorem lookup_quality (r : Quality) : lookupWord (cstr (qualityName r)) qualityNames = some r := by
  cases r <;> decide +kernel

theorem lookup_file (r : FileType) (h : r ≠ .Auto) :
    lookupWord (cstr (fileName r)) fileTypeNames = some r := by
  cases r
  · exact absurd rfl h
  all_goals decide +kernel

theorem lookup_wrap (x : Bool × Bool) (h : x ≠ (false, false)) :
    lookupWord (cstr (wrapName x)) wrapNames = some { wrapX := x.1, wrapY := x.2 } := by
  rcases x with ⟨_ | _, _ | _⟩
  · exact absurd rfl h
  all_goals decide +kernel

/-- All formats. -/
def everyFormat : List Format :=
  [.Unknown, .R4G4, .R4G4B4A4, .B4G4R4A4, .A4R4G4B4, .R5G6B5, .B5G6R5, .R5G5B5A1, .B5G5R5A1,
    .A1R5G5B5, .R8, .R8G8, .R8G8B8, .B8G8R8, .R8G8B8A8, .B8G8R8A8, .A8B8G8R8, .A2R10G10B10,
    .A2B10G10R10, .R16, .R16G16, .R16G16B16, .R16G16B16A16, .R32, .R32G32, .R32G32B32,
    .R32G32B32A32, .B10G11R11_UFloat, .E5B9G9R9_UFloat, .BC1_RGB, .BC1_RGBA, .BC2, .BC3, .BC4, .BC5,
    .BC6H, .BC7, .ETC1, .ETC2_R8G8B8, .ETC2_R8G8B8A1, .ETC2_R8G8B8A8, .EAC_R11, .EAC_R11G11,
    .ASTC_4x4, .ASTC_5x4, .ASTC_5x5, .ASTC_6x5, .ASTC_6x6, .ASTC_8x5, .ASTC_8x6, .ASTC_8x8,
    .ASTC_10x5, .ASTC_10x6, .ASTC_10x8, .ASTC_10x10, .ASTC_12x10, .ASTC_12x12, .PVRTC1_RGB_2BPP,
    .PVRTC1_RGBA_2BPP, .PVRTC1_RGB_4BPP, .PVRTC1_RGBA_4BPP, .PVRTC2_RGBA_2BPP, .PVRTC2_RGBA_4BPP]

instance (F : Features) (f : Format) : Decidable (inBuild F f) := by
  unfold inBuild
  split <;> infer_instance

theorem lookup_format (F : Features) (f : Format) (h : inBuild F f) :
    lookupWord (cstr (formatName f)) (formatNames F) = some f := by
  have key : ∀ a ∈ [true, false], ∀ b ∈ [true, false], ∀ c ∈ [true, false], ∀ d ∈ [true, false],
      ∀ f ∈ everyFormat, inBuild ⟨a, b, c, d⟩ f →
        lookupWord (cstr (formatName f)) (formatNames ⟨a, b, c, d⟩) = some f := by
    decide +kernel
  have hb : ∀ a : Bool, a ∈ [true, false] := by decide
  have hf : f ∈ everyFormat := by cases f <;> decide
  obtain ⟨a, b, c, d⟩ := F
  exact key a (hb a) b (hb b) c (hb c) d (hb d) f hf h

theorem face_free {a : Str} (h : ∀ f, ¬ Word (faceName f) a) : lookupWord a cubeFaces = none := by
  refine lookup_none fun e he => ?_
  simp only [cubeFaces, List.mem_cons, List.not_mem_nil, or_false] at he
  rcases he with rfl | rfl | rfl | rfl | rfl | rfl
  · exact h .PosX
  · exact h .NegX
  · exact h .PosY
  · exact h .NegY
  · exact h .PosZ
  · exact h .NegZ

theorem replace_free {a : Str} (h : ∀ f, ¬ Word (replaceName f) a) :
    lookupWord a mipReplacements = none := by
  refine lookup_none fun e he => ?_
  simp only [mipReplacements, List.mem_cons, List.not_mem_nil, or_false] at he
  rcases he with rfl | rfl
  · exact h .Once
  · exact h .Continue

theorem wrap_free {a : Str} (h : ∀ f, ¬ Word (wrapName f) a) : lookupWord a wrapNames = none := by
  refine lookup_none fun e he => ?_
  simp only [wrapNames, List.mem_cons, List.not_mem_nil, or_false] at he
  rcases he with rfl | rfl | rfl
  · exact h (true, true)
  · exact h (true, false)
  · exact h (false, true)

/-! ### Numbers -/

theorem number_chars {a : Str} (h : IsNumber a) :
    ∀ b ∈ a, isSpaceByte b = true ∨ b.toNat = 45 ∨ b.toNat = 43 ∨ isDigitByte b = true := by
  unfold IsNumber scanNumber at h
  split at h
  · rename_i he
    intro b hb
    rw [List.isEmpty_iff] at he
    subst he; simp at hb
  dsimp only at h
  split at h
  · simp at h
  rename_i hd
  simp only [Bool.or_eq_true, not_or, Bool.not_eq_true, Bool.not_eq_false'] at hd
  have hd := List.all_eq_true.1 hd.2
  intro b hb
  rw [← List.takeWhile_append_dropWhile (p := isSpaceByte) (l := a), List.mem_append] at hb
  rcases hb with hb | hb
  · exact .inl (List.all_eq_true.1 (List.all_takeWhile) b hb)
  · refine .inr ?_
    generalize List.dropWhile isSpaceByte a = l at hb hd
    cases l with
    | nil => simp at hb
    | cons x xs =>
      unfold splitSign at hd
      dsimp only at hd
      split at hd
      · rename_i hx
        rcases List.mem_cons.1 hb with rfl | hb
        · exact .inl (by simpa using hx)
        · exact .inr (.inr (hd b hb))
      split at hd
      · rename_i hx
        rcases List.mem_cons.1 hb with rfl | hb
        · exact .inr (.inl (by simpa using hx))
        · exact .inr (.inr (hd b hb))
      · exact .inr (.inr (hd b hb))

/-- A word with a lower case letter, in any case, is not a number. -/
theorem word_not_number {w : String} {a : Str} (h : Word w a)
    (hl : (cstr w).any (fun b => 97 ≤ b.toNat && b.toNat ≤ 122) = true) : ¬ IsNumber a := by
  intro hn
  obtain ⟨x, hx, hl⟩ := List.any_eq_true.1 hl
  obtain ⟨i, hi, rfl⟩ := List.getElem_of_mem hx
  have hlen := h.length_eq
  have hs : sameLetter a[i] (cstr w)[i] := List.Forall₂.get h (by omega) hi
  have hc := number_chars hn a[i] (List.getElem_mem _)
  simp only [Bool.and_eq_true, decide_eq_true_eq] at hl
  generalize (cstr w)[i] = y at hs hl
  generalize a[i] = x at hs hc
  unfold isSpaceByte isDigitByte at hc
  simp only [Bool.or_eq_true, Bool.and_eq_true, decide_eq_true_eq, beq_iff_eq] at hc
  rcases hs with rfl | ⟨k, hk, ⟨h1, h2⟩ | ⟨h1, h2⟩⟩ <;> omega

theorem not_number {a : Str} (h : ¬ IsNumber a) : strtoulAll a = none ∧ strtolAll a = none := by
  unfold IsNumber at h
  simp only [Option.not_isSome_iff_eq_none] at h
  unfold strtoulAll strtolAll
  rw [h]
  exact ⟨rfl, rfl⟩

theorem decimal_number (n : ℤ) : IsNumber (decimal n) := by
  unfold IsNumber
  rw [scan_decimal]
  rfl

theorem face_not_number {f : CubeFace} {a : Str} (h : Word (faceName f) a) : ¬ IsNumber a :=
  word_not_number h (by cases f <;> decide +kernel)

theorem replace_not_number {f : MipReplacement} {a : Str} (h : Word (replaceName f) a) : ¬ IsNumber a :=
  word_not_number h (by cases f <;> decide +kernel)

theorem filter_not_number {f : ResizeFilter} {a : Str} (h : Word (filterName f) a) : ¬ IsNumber a :=
  word_not_number h (by cases f <;> decide +kernel)

theorem replace_not_face {f : MipReplacement} {a : Str} (h : Word (replaceName f) a) :
    lookupWord a cubeFaces = none := by
  rw [lookup_word h]
  cases f <;> decide +kernel

theorem decimal_not_size (n : ℤ) : lookupWord (decimal n) sizeNames = none := by
  refine lookup_none fun e he h => ?_
  refine word_not_number h ?_ (decimal_number n)
  have : ∀ e ∈ sizeNames, (cstr e.1).any (fun b => 97 ≤ b.toNat && b.toNat ≤ 122) = true := by
    decide +kernel
  exact this e he

theorem name_not_number : ∀ n ∈ optionNames, ¬ IsNumber (cstr n) := by
  have : ∀ n ∈ optionNames, (scanNumber (cstr n)).isSome = false := by decide +kernel
  intro n hn h
  have := this n hn
  unfold IsNumber at h
  rw [h] at this
  simp at this

theorem name_not_filter : ∀ n ∈ optionNames, lookupWord (cstr n) filterNames = none := by decide +kernel

theorem name_not_wrap : ∀ n ∈ optionNames, lookupWord (cstr n) wrapNames = none := by decide +kernel

/-- `strtoul` of the text of a number. -/
theorem strtoul_small {n : ℕ} (h : n < 2 ^ 64) : strtoulAll (decimal n) = some n := by
  rw [strtoul_decimal, Nat.min_eq_left (by omega)]

theorem strtol_small {n : ℤ} (h1 : -2 ^ 63 ≤ n) (h2 : n < 2 ^ 63) : strtolAll (decimal n) = some n := by
  rw [strtol_decimal]
  congr 1
  omega

theorem size_text {s : SizeOpt} {a : Str} (h : SizeText s a) : sizeArg a = some (sizeCode s) := by
  unfold sizeArg
  cases s
  case exact n =>
    obtain ⟨h1, h2, rfl⟩ := h
    rw [decimal_not_size]
    dsimp only
    rw [strtol_small (by omega) (by omega), Option.map_some]
    unfold toI32
    show some _ = some n
    congr 1
    omega
  case original => exact absurd h (by unfold SizeText; simp)
  all_goals
    unfold SizeText at h
    rw [lookup_word h]
    rfl

theorem size_code (s : SizeOpt) (h : ∀ n, s = .exact n → 0 ≤ n) : sizeOfInt (sizeCode s) = s := by
  cases s
  case exact n =>
    have := h n rfl
    unfold sizeOfInt sizeCode
    simp only
    repeat rw [if_neg (by omega)]
  all_goals rfl

theorem channel_letter {c : Channel} {b : UInt8} (h : ChannelLetter c b) : readChannel b = some c := by
  obtain ⟨l, hl, hb⟩ := h
  unfold readChannel
  cases c <;> simp only [channelLetters, List.mem_cons, List.not_mem_nil, or_false] at hl <;>
    rcases hl with rfl | rfl <;> (rw [hb]; rfl)

end Cuttlefish
