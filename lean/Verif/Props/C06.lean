import Verif.Proofs.TexWeak
import Verif.Spec.Toy
/-
C06: the contract of `initialize()`.
-/
namespace Cuttlefish
open Spec
variable {Img : Type}

/-- `initialize()` succeeds exactly for non-empty extents (depth only counts for 3D). -/
theorem C06_success_iff (old : Tex Img) (dim : Dimension) (w h d r : Nat) (cs : ColorSpace) :
    (old.initialize dim w h d r cs).1 = true ↔ w ≠ 0 ∧ h ≠ 0 ∧ (dim = .Dim3D → d ≠ 0) := by
  unfold Tex.initialize
  split
  · rename_i hc
    simp only [Bool.false_eq_true, ne_eq, false_iff, not_and, Classical.not_imp, not_not]
    intro h1 h2
    rcases hc with hc | hc | hc
    · exact absurd hc h1
    · exact absurd hc h2
    · exact hc
  · rename_i hc
    simp only [not_or, not_and] at hc
    simp only [ne_eq, true_iff]
    exact ⟨hc.1, hc.2.1, hc.2.2⟩

/-- After a successful `initialize()` the texture has the requested kind and number of levels
(limited), six faces exactly for cube maps, no image in any slot, and is not converted. -/
theorem C06_success (L : ImageLib Img) (old : Tex Img) (dim : Dimension) (w h d r : Nat)
    (cs : ColorSpace) (hw : w < 2 ^ 32) (hh : h < 2 ^ 32) (hd : d < 2 ^ 32)
    (hok : (old.initialize dim w h d r cs).1 = true) :
    let t := (old.initialize dim w h d r cs).2
    t.isSome = true ∧ t.dimension = dim ∧ t.colorSpace = cs ∧
    t.mipLevelCount = limitLevels r (maxMipmapLevels dim w h d) ∧
    t.faceCount = (if dim = .Cube then 6 else 1) ∧
    (∀ face m k, t.getImage face m k = .ok none) ∧
    t.converted = false ∧ t.format = .Unknown ∧
    (∀ face m k, t.data face m k = .ok none) ∧
    t.widthAt 0 = .ok w ∧ t.heightAt 0 = .ok h ∧
    t.depthAt 0 = .ok (depthExtent dim d 0) := by
  intro t
  rcases winv_init old (dim := dim) (m := r) (cs := cs) hw hh hd with
    ⟨i, hi, hI, hl, h1, h2, h3, htex, him⟩ | ⟨hbad, -⟩
  · have ht : t = some i := by show (old.initialize dim w h d r cs).2 = _; rw [hi]
    have hinv : Inv L i := by
      have := inv_initialize (L := L) old dim w h d r cs hw hh hd
      rw [hi] at this; exact this
    have hfmt : i.format = .Unknown := by
      have h4 : (old.initialize dim w h d r cs).2.format = .Unknown := by
        unfold Tex.initialize; split <;> rfl
      rw [hi] at h4; exact h4
    have hpos := maxMip_pos dim w h d h1 hw h2 hh (fun h => ⟨h3 h, hd⟩)
    have hconv : Tex.converted (some i) = false := by simp [Tex.converted, htex]
    rw [ht]
    refine ⟨rfl, hI.edim, hI.ecs, ?_, hI.faces, ?_, hconv, hfmt, ?_, ?_, ?_, ?_⟩
    · rw [limitLevels_eq _ _ hpos]; exact hl
    · intro face m k
      by_cases hs : ∃ f, HasSlot i face m k f
      · obtain ⟨f, hs⟩ := hs
        obtain ⟨g, hg, hres⟩ := getImage_slot hinv hs
        rw [hres]
        obtain ⟨ds, fs, e1, e2, e3, -⟩ := Store.mem_of_at? hg
        rw [him, List.mem_replicate] at e1
        rw [e1.2, List.mem_replicate] at e2
        rw [e2.2, List.mem_replicate] at e3
        rw [e3.2]
      · exact getImage_noSlot hinv (fun f hf => hs ⟨f, hf⟩)
    · intro face m k; exact data_noSlot hinv (Or.inl hconv)
    · have := (wAt hI 0).1; rw [if_pos (by have := hI.mips.1; omega)] at this; exact this
    · have := (wAt hI 0).2.1; rw [if_pos (by have := hI.mips.1; omega)] at this; exact this
    · have := (wAt hI 0).2.2; rw [if_pos (by have := hI.mips.1; omega)] at this; exact this
  · rw [hbad] at hok; simp at hok

/-- What a new texture reports besides: it is an array exactly when it is not 3D and a depth was
given, and until it is converted it reports type UNorm, standard alpha and all channels. -/
theorem C06_reported (old : Tex Img) (dim : Dimension) (w h d r : Nat) (cs : ColorSpace)
    (hw : w < 2 ^ 32) (hh : h < 2 ^ 32) (hd : d < 2 ^ 32)
    (hok : (old.initialize dim w h d r cs).1 = true) :
    let t := (old.initialize dim w h d r cs).2
    (t.isArray = true ↔ dim ≠ .Dim3D ∧ 0 < d) ∧ t.type = .UNorm ∧ t.alphaType = .Standard ∧
    t.colorMask = ⟨true, true, true, true⟩ ∧ t.imagesComplete = false := by
  have hpos : ∀ n : Nat, (List.replicate (max n 1) (List.replicate
      (if dim = Dimension.Cube then 6 else 1) (none : Option Img))).all
        (fun fs => fs.all Option.isSome) = false := by
    intro n
    obtain ⟨k, hk⟩ : ∃ k, max n 1 = k + 1 := ⟨max n 1 - 1, by omega⟩
    obtain ⟨q, hq⟩ : ∃ q, (if dim = Dimension.Cube then 6 else 1) = q + 1 := by
      by_cases h : dim = .Cube
      · exact ⟨5, by simp [h]⟩
      · exact ⟨0, by simp [h]⟩
    rw [hk, hq]; simp [List.replicate_succ]
  unfold Tex.initialize at *
  split
  · rename_i hc; rw [if_pos hc] at hok; simp at hok
  · rename_i hc
    refine ⟨by simp [Tex.isArray], rfl, rfl, rfl, ?_⟩
    simp only [not_or, not_and] at hc
    have hmax := maxMip_pos dim w h d (Nat.pos_of_ne_zero hc.1) hw (Nat.pos_of_ne_zero hc.2.1) hh
      (fun h3 => ⟨Nat.pos_of_ne_zero (hc.2.2 h3), hd⟩)
    obtain ⟨k, hk⟩ : ∃ k, min (max r 1) (maxMipmapLevels dim w h d) = k + 1 :=
      ⟨min (max r 1) (maxMipmapLevels dim w h d) - 1, by omega⟩
    simp only [Tex.imagesComplete]
    rw [hk, List.replicate_succ, List.all_cons, hpos, Bool.false_and]

/-- What an invalid texture (new, reset, or after a failed `initialize()`) reports, and that every
other call fails on it and keeps it invalid. -/
theorem C06_invalid (W : World Img) :
    let t : Tex Img := none
    t.dimension = .Dim2D ∧ t.colorSpace = .Linear ∧ t.isArray = false ∧ t.mipLevelCount = 0 ∧
    t.faceCount = 0 ∧ t.converted = false ∧ t.imagesComplete = false ∧ t.format = .Unknown ∧
    t.type = .UNorm ∧ t.alphaType = .None ∧ t.colorMask = ⟨true, true, true, true⟩ ∧
    (∀ face m k, t.getImage face m k = .ok none) ∧ (∀ face m k, t.data face m k = .ok none) ∧
    (∀ face m k, t.dataSize face m k = .ok 0) ∧
    (∀ img mv face m k, t.setImage W.lib img mv face m k = .ok (false, none)) ∧
    (∀ filter m custom, t.generateMipmaps W.lib filter m custom = .ok (false, none)) ∧
    (∀ f ty q a mask th, t.convert W.feat W.hw W.enc f ty q a mask th = .ok (false, none)) := by
  refine ⟨rfl, rfl, rfl, rfl, rfl, rfl, rfl, rfl, rfl, rfl, rfl, fun face m k => ?_,
    fun face m k => ?_, fun face m k => ?_, fun img mv face m k => ?_, fun filter m custom => ?_,
    fun f ty q a mask th => ?_⟩
  · simp [Tex.getImage, Tex.depthAt]
  · simp [Tex.data, Tex.converted]
  · simp [Tex.dataSize, Tex.data, Tex.converted]
  · simp [Tex.setImage, Tex.depthAt]
  · simp [Tex.generateMipmaps]
  · simp [Tex.convert, Tex.imagesComplete]

/-- A failed `initialize()` leaves the texture invalid. -/
theorem C06_failure (old : Tex Img) (dim : Dimension) (w h d r : Nat) (cs : ColorSpace)
    (hfail : (old.initialize dim w h d r cs).1 = false) :
    (old.initialize dim w h d r cs).2 = none := by
  unfold Tex.initialize at *
  split
  · rfl
  · rename_i hc; rw [if_neg hc] at hfail; simp at hfail

/-- The previous state never matters. -/
theorem C06_history_irrelevant (old old' : Tex Img) (dim : Dimension) (w h d r : Nat)
    (cs : ColorSpace) : old.initialize dim w h d r cs = old'.initialize dim w h d r cs := rfl

example : (Tex.initialize (none : Tex Toy.Img) .Cube 5 5 2 4294967295 .sRGB).1 = true ∧
    (Tex.initialize (none : Tex Toy.Img) .Cube 5 5 2 4294967295 .sRGB).2.mipLevelCount = 3 ∧
    (Tex.initialize (none : Tex Toy.Img) .Cube 5 5 2 4294967295 .sRGB).2.faceCount = 6 ∧
    (Tex.initialize (none : Tex Toy.Img) .Dim3D 5 5 0 1 .sRGB).1 = false := by decide

end Cuttlefish
