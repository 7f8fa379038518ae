import Verif.Proofs.SaveBody
/-
What `saveDds` writes, and that it can be read back.
-/
namespace Cuttlefish
open Spec
variable {Img : Type} {t : Tex Img} {f : Format} {ty : TType} {w h d L : Nat}
  {px : Nat → Nat → Nat → List UInt8}

/-- `flags` of the header. -/
def ddsFlags (t : Tex Img) : Nat :=
  0x1 ||| 0x2 ||| 0x4 ||| 0x1000 ||| 0x20000 ||| 0x8 ||| (if t.dimension = .Dim3D then 0x800000 else 0)

/-- `caps` of the header. -/
def ddsCaps (t : Tex Img) : Nat :=
  0x1000 ||| (if t.mipLevelCount > 1 then 0x400000 else 0) |||
    (if t.mipLevelCount > 1 ∨ t.dimension = .Dim3D ∨ t.dimension = .Dim3D ∨ t.isArray then 0x8 else 0)

theorem ddsFlags_ok (t : Tex Img) : ddsFlags t &&& 0x1007 = 0x1007 ∧ ddsFlags t &&& 0x20000 = 0x20000 ∧
    (t.dimension = .Dim3D → ddsFlags t &&& 0x800000 = 0x800000) ∧ ddsFlags t < 2 ^ 32 := by
  unfold ddsFlags
  split <;> simp [*]

theorem ddsCaps_ok (t : Tex Img) : ddsCaps t &&& 0x1000 = 0x1000 ∧ ddsCaps t < 2 ^ 32 := by
  unfold ddsCaps
  split <;> split <;> decide

/-- The bytes of a DDS file. -/
def ddsBytes (t : Tex Img) (f : Format) (w h d L : Nat) (px : Nat → Nat → Nat → List UInt8) (n pitch : Nat) :
    List UInt8 :=
  [0x44, 0x44, 0x53, 0x20] ++ (leBytes 4 124 ++ (leBytes 4 (ddsFlags t) ++ (leBytes 4 h ++ (leBytes 4 w ++
  (leBytes 4 pitch ++ (leBytes 4 (if t.dimension = .Dim3D then d else 0) ++ (leBytes 4 L ++
  (List.replicate 44 0 ++ (leBytes 4 32 ++ (leBytes 4 4 ++ ([0x44, 0x58, 0x31, 0x30] ++
  (List.replicate 20 0 ++ (leBytes 4 (ddsCaps t) ++
  (leBytes 4 (if t.dimension = .Cube then 0xFE00 else if t.dimension = .Dim3D then 0x200000 else 0) ++
  (List.replicate 12 0 ++ (leBytes 4 n ++ (leBytes 4 (ddsDimension t.dimension) ++
  (leBytes 4 (if t.dimension = .Cube then 0x4 else 0) ++ (leBytes 4 (elementsOf t d) ++
  (leBytes 4 (ddsAlphaMode f t.alphaType) ++
  (List.range (elementsOf t d)).flatMap (fun e => (List.range t.faceCount).flatMap (fun fc =>
    (List.range L).flatMap (fun m => (List.range (slicesOf t d m)).flatMap (fun s =>
      px m (depthIndex t e s) fc))))))))))))))))))))))))

theorem elementsOf_eq (hS : Shaped t f ty w h d L px) :
    (if t.isArray = true then depthExtent t.dimension d 0 else 1) = elementsOf t d := by
  unfold elementsOf depthExtent
  by_cases h3 : t.dimension = .Dim3D
  · have : t.isArray = false := by
      by_contra hc
      simp only [Bool.not_eq_false] at hc
      exact (hS.array.1 hc).1 h3
    simp [h3, this]
  · by_cases h0 : d = 0
    · have : t.isArray = false := by
        by_contra hc
        simp only [Bool.not_eq_false] at hc
        have := (hS.array.1 hc).2
        omega
      simp [h3, this, h0]
    · have : t.isArray = true := hS.array.2 ⟨h3, by omega⟩
      simp [h3, this, h0]

theorem dds_body (hS : Shaped t f ty w h d L px) :
    ddsSurfaces t = .ok ((List.range (elementsOf t d)).flatMap (fun e =>
      (List.range t.faceCount).flatMap (fun fc => (List.range L).flatMap (fun m =>
        (List.range (slicesOf t d m)).flatMap (fun s => emit (px m (depthIndex t e s) fc)))))) := by
  unfold ddsSurfaces
  rw [hS.depth 0 hS.levelsPos, Res.ok_bind]
  simp only [elementsOf_eq hS, hS.levels]
  refine actsFor_ok (fun e he => actsFor_ok (fun fc hf => actsFor_ok (fun m hm => ?_)))
  rw [List.mem_range] at he hf hm
  rw [hS.depth m hm, Res.ok_bind]
  have hsl : (if t.dimension = .Dim3D then depthExtent t.dimension d m else 1) = slicesOf t d m := by
    unfold slicesOf depthExtent
    split <;> simp [*]
  simp only [hsl]
  refine actsFor_ok (fun s hs => ?_)
  rw [List.mem_range] at hs
  have hk := depthIndex_lt he hs
  have hidx : u32 (s + e) = depthIndex t e s := by
    have h1 : s + e = depthIndex t e s := by
      unfold depthIndex
      unfold elementsOf at he
      unfold slicesOf at hs
      by_cases h3 : t.dimension = .Dim3D
      · rw [if_pos h3] at he ⊢; omega
      · rw [if_neg h3] at hs ⊢; omega
    have h2 : depthExtent t.dimension d m < 2 ^ 32 := by
      have := hS.dLt
      unfold depthExtent
      split_ifs with h3 h4
      · exact lt_of_le_of_lt (extent_le _ _ (hS.dPos h3)) this
      · norm_num
      · exact this
    rw [h1]
    exact Nat.mod_eq_of_lt (lt_trans hk h2)
  rw [hidx, surfaceBytes_eq hS hm hk hf]
  rfl

theorem dds_written (hS : Shaped t f ty w h d L px) (n : Nat) :
    ∃ as pitch, pitch < 2 ^ 32 ∧ ddsActs n t = .ok as ∧
      written as = ddsBytes t f w h d L px n pitch := by
  have hp : computePitch t = .ok (u32 (u32 (w + blockWidth t.format - 1) / blockWidth t.format *
      blockSize t.format)) := by
    unfold computePitch
    rw [hS.width 0 hS.levelsPos]
    rfl
  refine ⟨?as, u32 (u32 (w + blockWidth t.format - 1) / blockWidth t.format * blockSize t.format),
    Nat.mod_lt _ (by norm_num), ?e, ?w⟩
  case e =>
    unfold ddsActs ddsHeaderBytes ddsHeader10Bytes
    rw [hS.width 0 hS.levelsPos, hS.height 0 hS.levelsPos, hS.depth 0 hS.levelsPos, hp, dds_body hS]
    simp only [Res.ok_bind]
    rfl
  case w =>
    have hd3 : (if t.dimension = .Dim3D then depthExtent t.dimension d 0 else 0) =
        if t.dimension = .Dim3D then d else 0 := by
      unfold depthExtent
      split <;> simp [*, extent]
    have hel : (if t.dimension = .Dim3D then 1 else depthExtent t.dimension d 0) = elementsOf t d := by
      unfold elementsOf depthExtent
      by_cases h3 : t.dimension = .Dim3D <;> simp [h3]
    have e1 : leBytes 4 0x20534444 = [0x44, 0x44, 0x53, 0x20] := by decide
    have e2 : leBytes 4 (fourCC 'D'.toNat 'X'.toNat '1'.toNat '0'.toNat) = [0x44, 0x58, 0x31, 0x30] := by
      decide
    simp only [written_append, written_emit32, written_emit, written_flatMap, hS.format,
      hS.levels, hel, hd3, List.append_assoc, e1, e2]
    unfold ddsBytes ddsFlags ddsCaps
    simp only [hS.levels]
    rfl

/-- The file reads back as the texture. -/
theorem dds_reads (hS : Shaped t f ty w h d L px) (hZ : Sized t f w h d L px) (n pitch : Nat)
    (hn : n < 2 ^ 32) (hpitch : pitch < 2 ^ 32)
    (hb : dxgiBlock n = some (blockWidth f, blockHeight f, blockSize f)) (hp : isPvrtc1 f = false)
    (h1d : t.dimension = .Dim1D → h = 1) :
    Reads ddsFile (ddsBytes t f w h d L px n pitch)
      ⟨w, h, if t.dimension = .Dim3D then d else 1, L, n, ddsDimension t.dimension, t.dimension = .Cube,
        elementsOf t d, ddsAlphaMode f t.alphaType,
        (List.range (elementsOf t d)).map (fun e => (List.range t.faceCount).map (fun fc =>
          (List.range L).map (fun m => (List.range (slicesOf t d m)).map (fun s =>
            px m (depthIndex t e s) fc))))⟩ := by
  have hl := hS.levelsLt
  have hl0 := hS.levelsPos
  have hw := hS.wLt
  have hh := hS.hLt
  have hd := hS.dLt
  have hE : elementsOf t d < 2 ^ 32 := by unfold elementsOf; split_ifs <;> omega
  obtain ⟨f1, f2, f3, f4⟩ := ddsFlags_ok t
  obtain ⟨c1, c2⟩ := ddsCaps_ok t
  have hdim : ddsDimension t.dimension < 5 := by cases t.dimension <;> decide
  have hal : ddsAlphaMode f t.alphaType < 8 ∧ ddsAlphaMode f t.alphaType &&& 7 = ddsAlphaMode f t.alphaType := by
    unfold ddsAlphaMode; split
    · cases t.alphaType <;> decide
    · decide
  have h256 : (256 : Nat) ^ 4 = 2 ^ 32 := by norm_num
  unfold ddsBytes
  refine reads_then (reads_bytes rfl) (reads_guard (by decide) ?_)
  refine reads_then (reads_le (by norm_num)) (reads_guard (by decide) ?_)
  refine reads_then (reads_le (by rw [h256]; exact f4)) (reads_guard (by simpa using f1) ?_)
  refine reads_then (reads_le (by rw [h256]; exact hh)) ?_
  refine reads_then (reads_le (by rw [h256]; exact hw)) ?_
  refine reads_then (reads_le (by rw [h256]; exact hpitch)) ?_
  refine reads_then (reads_le (by rw [h256]; split_ifs <;> omega)) ?_
  refine reads_then (reads_le (by norm_num; omega)) ?_
  refine reads_then (reads_bytes (by simp)) ?_
  refine reads_then (reads_le (by norm_num)) (reads_guard (by decide) ?_)
  refine reads_then (reads_le (by norm_num)) (reads_guard (by decide) ?_)
  refine reads_then (reads_bytes rfl) (reads_guard (by decide) ?_)
  refine reads_then (reads_bytes (by simp)) ?_
  refine reads_then (reads_le (by rw [h256]; exact c2)) (reads_guard (by simpa using c1) ?_)
  refine reads_then (reads_le (by split_ifs <;> norm_num)) ?_
  refine reads_then (reads_bytes (by simp)) ?_
  refine reads_then (reads_le (by rw [h256]; exact hn)) ?_
  refine reads_then (reads_le (by norm_num; omega)) ?_
  refine reads_then (reads_le (by split_ifs <;> norm_num)) ?_
  refine reads_then (reads_le (by rw [h256]; exact hE)) ?_
  refine reads_then (reads_le (by norm_num; omega)) ?_
  refine reads_guard (by cases t.dimension <;> decide) ?_
  refine reads_guard ?_ (reads_guard ?_ ?_)
  · simp only [decide_eq_true_eq]
    intro h2; apply h1d
    revert h2; cases t.dimension <;> decide
  · simp only [decide_eq_true_eq]
    intro h2
    have h3 : t.dimension = .Dim3D := by revert h2; cases t.dimension <;> decide
    exact ⟨f3 h3, by simp [elementsOf, h3]⟩
  · have e1 : (if ddsFlags t &&& 0x20000 = 0x20000 then orOne L else 1) = L := by
      rw [if_pos f2, orOne, if_neg (by omega)]
    have e2 : ((if t.dimension = .Cube then 4 else 0) &&& 4 = 4) = (t.dimension = .Cube) := by
      by_cases hc : t.dimension = .Cube <;> simp [hc]
    have e3 : (ddsDimension t.dimension = 4) = (t.dimension = .Dim3D) := by
      cases t.dimension <;> decide
    simp only [e1, e2, e3, hal.2]
    have hfc : (if t.dimension = .Cube then 6 else 1) = t.faceCount := hS.faces.symm
    have hdd : (if t.dimension = .Dim3D then (if t.dimension = .Dim3D then d else 0) else 1) =
        if t.dimension = .Dim3D then d else 1 := by split <;> simp [*]
    have hsl : ∀ m, (if t.dimension = .Dim3D then
        extent (if t.dimension = .Dim3D then d else 1) m else 1) = slicesOf t d m := by
      intro m; unfold slicesOf; split <;> simp [*]
    simp only [hdd, hsl, hfc]
    refine reads_then_pure ?_ (reads_pure _)
    refine reads_for (fun e he => reads_for (fun fc hf => reads_for (fun m hm => reads_for (fun s hs => ?_))))
    intro rest
    unfold ddsImage
    rw [hb]
    have hz := hZ m (depthIndex t e s) fc hm (depthIndex_lt he hs) hf
    rw [surfaceSize_eq hp] at hz
    exact reads_bytes hz rest

end Cuttlefish
