import Verif.Proofs.SaveBody
import Verif.Spec.File
/-
What `savePvr` writes, and that it can be read back.
-/
namespace Cuttlefish
open Spec
variable {Img : Type} {t : Tex Img} {f : Format} {ty : TType} {w h d L : Nat}
  {px : Nat → Nat → Nat → List UInt8}

/-- The metadata entries of a texture. -/
def pvrEntriesOf (f : Format) (array oneD : Bool) : List PvrEntry :=
  (if f = .BC1_RGBA then [⟨ascii "CTFS", ascii "BC1A", [0, 0, 0, 0]⟩] else []) ++
  (if f = .BC1_RGB then [⟨ascii "CTFS", ascii "BC1" ++ [0], [0, 0, 0, 0]⟩] else []) ++
  (if array then [⟨ascii "CTFS", ascii "ARRY", [0, 0, 0, 0]⟩] else []) ++
  (if oneD then [⟨ascii "CTFS", ascii "DIM1", [0, 0, 0, 0]⟩] else [])

theorem reads_entry {key : List UInt8} (hk : key.length = 4) :
    Reads pvrEntry (ascii "CTFS" ++ (key ++ (leBytes 4 4 ++ [0, 0, 0, 0])))
      ⟨ascii "CTFS", key, [0, 0, 0, 0]⟩ :=
  reads_then (reads_bytes (by decide)) (reads_then (reads_bytes hk) (reads_then (reads_le (by norm_num))
    (reads_then_pure (reads_bytes rfl) (reads_pure _))))

/-- A list of entries is read back from its bytes. -/
theorem entries_all (keys : List (List UInt8)) : ∀ fuel, keys.length ≤ fuel →
    (∀ k ∈ keys, k.length = 4) →
    pvrEntries fuel (keys.flatMap (fun k => ascii "CTFS" ++ (k ++ (leBytes 4 4 ++ [0, 0, 0, 0])))) =
      some (keys.map (fun k => ⟨ascii "CTFS", k, [0, 0, 0, 0]⟩), []) := by
  induction keys with
  | nil => intro fuel _ _; cases fuel <;> simp [pvrEntries]
  | cons k ks ih =>
    intro fuel hf hl
    obtain ⟨n, rfl⟩ : ∃ n, fuel = n + 1 := ⟨fuel - 1, by simp at hf; omega⟩
    rw [List.flatMap_cons, pvrEntries]
    beta_reduce
    rw [if_neg (by simp [ascii])]
    have h1 := reads_entry (hl k (by simp))
      (ks.flatMap (fun k => ascii "CTFS" ++ (k ++ (leBytes 4 4 ++ [0, 0, 0, 0]))))
    have h2 := ih n (by simpa using hf) (fun x hx => hl x (by simp [hx]))
    simp only [rdThen]
    rw [h1]
    simp only
    rw [h2]
    rfl

/-- The keys of the metadata entries. -/
def pvrKeys (f : Format) (array oneD : Bool) : List (List UInt8) :=
  (if f = .BC1_RGBA then [ascii "BC1A"] else []) ++ (if f = .BC1_RGB then [ascii "BC1" ++ [0]] else []) ++
  (if array then [ascii "ARRY"] else []) ++ (if oneD then [ascii "DIM1"] else [])

theorem pvrKeys_len (f : Format) (array oneD : Bool) : ∀ k ∈ pvrKeys f array oneD, k.length = 4 := by
  intro k hk
  unfold pvrKeys at hk
  simp only [List.mem_append] at hk
  rcases hk with ((h | h) | h) | h <;> split at h <;> simp at h <;> subst h <;> decide

theorem written_meta (key : Nat) :
    written (pvrMeta key) = ascii "CTFS" ++ (leBytes 4 key ++ (leBytes 4 4 ++ [0, 0, 0, 0])) := by
  simp only [pvrMeta, written_append, written_emit32, List.append_assoc]
  rfl

theorem written_metadata (t : Tex Img) :
    written (pvrMetadata t) =
      leBytes 4 (16 * (pvrKeys t.format t.isArray (t.dimension = .Dim1D)).length) ++
      (pvrKeys t.format t.isArray (t.dimension = .Dim1D)).flatMap
        (fun k => ascii "CTFS" ++ (k ++ (leBytes 4 4 ++ [0, 0, 0, 0]))) := by
  have e1 : leBytes 4 (fourCC 66 67 49 65) = ascii "BC1A" := by decide
  have e2 : leBytes 4 (fourCC 66 67 49 0) = ascii "BC1" ++ [0] := by decide
  have e3 : leBytes 4 (fourCC 65 82 82 89) = ascii "ARRY" := by decide
  have e4 : leBytes 4 (fourCC 68 73 77 49) = ascii "DIM1" := by decide
  unfold pvrMetadata pvrKeys
  by_cases a : t.format = .BC1_RGBA
  · cases hb : t.isArray <;> by_cases c : t.dimension = .Dim1D <;>
      simp [a, c, written_append, written_meta, e1, e3, e4]
  · by_cases a' : t.format = .BC1_RGB
    · cases hb : t.isArray <;> by_cases c : t.dimension = .Dim1D <;>
        simp [a', c, written_append, written_meta, e2, e3, e4]
    · cases hb : t.isArray <;> by_cases c : t.dimension = .Dim1D <;>
        simp [a, a', c, written_append, written_meta, e3, e4]

theorem reads_metadata (f : Format) (array oneD : Bool) :
    Reads (rdThen (rdLe 4) (fun n => rdWithin n (pvrEntries n)))
      (leBytes 4 (16 * (pvrKeys f array oneD).length) ++ (pvrKeys f array oneD).flatMap
        (fun k => ascii "CTFS" ++ (k ++ (leBytes 4 4 ++ [0, 0, 0, 0]))))
      (pvrEntriesOf f array oneD) := by
  have hlen : (pvrKeys f array oneD).length ≤ 4 := by
    unfold pvrKeys
    simp only [List.length_append]
    split <;> split <;> split <;> split <;> simp
  have hb : ((pvrKeys f array oneD).flatMap
        (fun k => ascii "CTFS" ++ (k ++ (leBytes 4 4 ++ [0, 0, 0, 0])))).length =
      16 * (pvrKeys f array oneD).length := by
    have := pvrKeys_len f array oneD
    generalize pvrKeys f array oneD = ks at *
    clear hlen
    induction ks with
    | nil => rfl
    | cons k ks ih =>
      rw [List.flatMap_cons, List.length_append, ih (fun x hx => this x (by simp [hx])), List.length_cons]
      have h1 : (ascii "CTFS").length = 4 := by decide
      simp only [List.length_append, h1, this k (by simp), leBytes_length, List.length_cons, List.length_nil]
      omega
  refine reads_then (reads_le (by norm_num; omega)) ?_
  intro rest
  have he := entries_all (pvrKeys f array oneD) (16 * (pvrKeys f array oneD).length) (by omega)
    (pvrKeys_len _ _ _)
  unfold rdWithin
  rw [if_pos (by rw [List.length_append, hb]; omega), List.take_left' hb, List.drop_left' hb]
  unfold rdAll
  rw [he]
  simp only [Option.map_some, Option.some.injEq, Prod.mk.injEq, and_true]
  unfold pvrKeys pvrEntriesOf
  split <;> split <;> split <;> split <;> simp

/-- The bytes of a PVR file. -/
def pvrBytes (t : Tex Img) (f : Format) (ty : TType) (w h d L : Nat)
    (px : Nat → Nat → Nat → List UInt8) (pf : Nat) : List UInt8 :=
      [0x50, 0x56, 0x52, 0x03] ++ (leBytes 4 (if t.alphaType = .PreMultiplied then 2 else 0) ++
      (leBytes 8 pf ++ (leBytes 4 (if t.colorSpace = .sRGB then 1 else 0) ++
      (leBytes 4 (pvrChannelType f ty) ++ (leBytes 4 h ++ (leBytes 4 w ++
      (leBytes 4 (if t.dimension = .Dim3D then d else 1) ++ (leBytes 4 (elementsOf t d) ++
      (leBytes 4 t.faceCount ++ (leBytes 4 L ++ ((leBytes 4 (16 * (pvrKeys f t.isArray (t.dimension = .Dim1D)).length) ++ (pvrKeys f t.isArray (t.dimension = .Dim1D)).flatMap
        (fun k => ascii "CTFS" ++ (k ++ (leBytes 4 4 ++ [0, 0, 0, 0])))) ++
      (List.range L).flatMap (fun m => (List.range (elementsOf t d)).flatMap (fun e =>
        (List.range t.faceCount).flatMap (fun fc => (List.range (slicesOf t d m)).flatMap (fun s =>
          px m (depthIndex t e s) fc)))))))))))))))

theorem pvr_written (hS : Shaped t f ty w h d L px) (pf : Nat) :
    ∃ as, pvrActs pf t = .ok as ∧ written as =
      pvrBytes t f ty w h d L px pf := by
  have hbody : actsFor (List.range t.mipLevelCount) (fun level => (do
      let dl ← t.depthAt level
      actsFor (List.range dl) (fun depth =>
        actsFor (List.range t.faceCount) (fun face => do
          let b ← surfaceBytes t face level depth
          pure (emit b))) : Res (List Act))) =
      .ok ((List.range L).flatMap (fun m => (List.range (depthExtent t.dimension d m)).flatMap (fun k =>
        (List.range t.faceCount).flatMap (fun fc => emit (px m k fc))))) := by
    rw [hS.levels]
    refine actsFor_ok (fun m hm => ?_)
    rw [List.mem_range] at hm
    rw [hS.depth m hm, Res.ok_bind]
    refine actsFor_ok (fun k hk => actsFor_ok (fun fc hf => ?_))
    rw [List.mem_range] at hk hf
    rw [surfaceBytes_eq hS hm hk hf]
    rfl
  refine ⟨?as, ?e, ?w⟩
  case e =>
    unfold pvrActs
    rw [hS.width 0 hS.levelsPos, hS.height 0 hS.levelsPos, hS.depth 0 hS.levelsPos, hbody]
    simp only [Res.ok_bind]
    rfl
  case w =>
    have hel : (if t.isArray = true then depthExtent t.dimension d 0 else 1) = elementsOf t d := by
      unfold elementsOf depthExtent
      by_cases h3 : t.dimension = .Dim3D
      · have : t.isArray = false := by
          by_contra hc
          simp only [Bool.not_eq_false] at hc
          exact (hS.array.1 hc).1 h3
        simp [h3, this]
      · by_cases h0 : d = 0
        · have : t.isArray = false := by
            by_contra hc
            simp only [Bool.not_eq_false] at hc
            have := (hS.array.1 hc).2
            omega
          simp [h3, this, h0]
        · have : t.isArray = true := hS.array.2 ⟨h3, by omega⟩
          simp [h3, this, h0]
    have hd3 : (if t.dimension = .Dim3D then depthExtent t.dimension d 0 else 1) =
        if t.dimension = .Dim3D then d else 1 := by
      unfold depthExtent
      split <;> simp [*, extent]
    simp only [written_append, written_emit32, written_emit, written_metadata, written_flatMap, hS.format,
      hS.type, hS.levels, hel, hd3, List.append_assoc]
    have hb := fun m => body_order (α := UInt8) hS m (fun k fc => px m k fc)
    simp only [hb]
    rfl

/-- The file reads back as the texture. -/
theorem pvr_reads (hS : Shaped t f ty w h d L px) (hZ : Sized t f w h d L px) (pf : Nat)
    (hpf : pf < 2 ^ 64) (hb : pvrBlock pf = some (blockWidth f, blockHeight f, blockSize f))
    (hq : pvrLeast pf = leastBlocks f) :
    Reads pvrFile (pvrBytes t f ty w h d L px pf)
      ⟨if t.alphaType = .PreMultiplied then 2 else 0, pf, if t.colorSpace = .sRGB then 1 else 0,
        pvrChannelType f ty, w, h, if t.dimension = .Dim3D then d else 1, elementsOf t d, t.faceCount, L,
        pvrEntriesOf f t.isArray (t.dimension = .Dim1D),
        (List.range L).map (fun m => (List.range (elementsOf t d)).map (fun e =>
          (List.range t.faceCount).map (fun fc => (List.range (slicesOf t d m)).map (fun s =>
            px m (depthIndex t e s) fc))))⟩ := by
  have hl := hS.levelsLt
  have hw := hS.wLt
  have hh := hS.hLt
  have hd := hS.dLt
  have hE : elementsOf t d < 2 ^ 32 := by unfold elementsOf; split_ifs <;> omega
  have hF : t.faceCount < 2 ^ 32 := by rw [hS.faces]; split_ifs <;> omega
  refine reads_then (reads_bytes rfl) (reads_guard (by decide) ?_)
  refine reads_then (reads_le (by split_ifs <;> norm_num)) ?_
  refine reads_then (reads_le (by norm_num at hpf ⊢; omega)) ?_
  refine reads_then (reads_le (by split_ifs <;> norm_num)) ?_
  refine reads_then (reads_le (by have := pvr_channelType f ty; norm_num at this ⊢; omega)) ?_
  refine reads_then (reads_le (by norm_num at hh ⊢; omega)) ?_
  refine reads_then (reads_le (by norm_num at hw ⊢; omega)) ?_
  refine reads_then (reads_le (by norm_num at hd ⊢; split_ifs <;> omega)) ?_
  refine reads_then (reads_le (by norm_num at hE ⊢; omega)) ?_
  refine reads_then (reads_le (by norm_num at hF ⊢; omega)) ?_
  refine reads_then (reads_le (by norm_num; omega)) ?_
  have hmeta := reads_metadata f t.isArray (t.dimension = .Dim1D)
  intro rest
  have hm := hmeta ((List.range L).flatMap (fun m => (List.range (elementsOf t d)).flatMap (fun e =>
        (List.range t.faceCount).flatMap (fun fc => (List.range (slicesOf t d m)).flatMap (fun s =>
          px m (depthIndex t e s) fc)))) ++ rest)
  rw [← List.append_assoc] at hm
  have hsl : ∀ m, extent (if t.dimension = .Dim3D then d else 1) m = slicesOf t d m := by
    intro m
    unfold slicesOf
    split
    · rfl
    · exact extent_one m
  have himg := reads_images (L := L) (E := elementsOf t d) (F := t.faceCount) (S := slicesOf t d)
    (p := fun m => pvrImage pf (extent w m) (extent h m))
    (b := fun m e fc s => px m (depthIndex t e s) fc) (v := fun m e fc s => px m (depthIndex t e s) fc)
    (by
      intro m e fc s hm he hf hs rest
      have hz := hZ m (depthIndex t e s) fc hm (depthIndex_lt he hs) hf
      unfold pvrImage
      rw [hb]
      simp only [hq]
      exact reads_bytes hz rest)
  unfold rdThen at hm
  simp only [rdThen]
  cases h1 : rdLe 4 (((leBytes 4 (16 * (pvrKeys f t.isArray (t.dimension = .Dim1D)).length) ++ (pvrKeys f t.isArray (t.dimension = .Dim1D)).flatMap
        (fun k => ascii "CTFS" ++ (k ++ (leBytes 4 4 ++ [0, 0, 0, 0])))) ++
      (List.range L).flatMap (fun m => (List.range (elementsOf t d)).flatMap (fun e =>
        (List.range t.faceCount).flatMap (fun fc => (List.range (slicesOf t d m)).flatMap (fun s =>
          px m (depthIndex t e s) fc))))) ++ rest) with
  | none => rw [h1] at hm; simp at hm
  | some p =>
    obtain ⟨n, r⟩ := p
    rw [h1] at hm
    simp only at hm ⊢
    rw [hm]
    simp only [hsl]
    rw [himg rest]
    rfl

end Cuttlefish
