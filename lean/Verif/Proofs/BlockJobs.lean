import Verif.Proofs.StdJobs
import Verif.Spec.Surface
/-
The block converters: every job encodes the texels of its block and stores the block in row-major
block order.
-/
namespace Cuttlefish
open Spec

theorem jobList_eq (a b : Nat) : jobList a b = (List.range (b * a)).map (fun i => (i % a, i / a)) := by
  unfold jobList
  induction b with
  | zero => simp
  | succ b ih =>
    rw [List.range_succ, List.flatMap_append, ih, Nat.succ_mul, List.range_add, List.map_append]
    congr 1
    simp only [List.flatMap_cons, List.flatMap_nil, List.append_nil, List.map_map]
    apply List.map_congr_left
    intro x hx
    have hx : x < a := List.mem_range.1 hx
    have ha : 0 < a := by omega
    simp only [Function.comp]
    rw [Nat.mul_comm b a, Nat.mul_add_mod, Nat.mod_eq_of_lt hx, Nat.mul_add_div ha,
      Nat.div_eq_of_lt hx, Nat.add_zero]

theorem consec_const {proc : Nat → Nat → Res (List Write)} {enc : Nat × Nat → Res (List UInt8)}
    {size : Nat} (js : List (Nat × Nat)) :
    ∀ n0, (∀ (i : Nat) (j : Nat × Nat), js[i]? = some j →
      proc j.1 j.2 = (do let bs ← enc j; pure (writesAt ((n0 + i) * size) bs)) ∧
      (∀ bs, enc j = .ok bs → bs.length = size)) →
    Consec proc enc (fun _ => size) (n0 * size) js := by
  induction js with
  | nil => intro _ _; trivial
  | cons j js ih =>
    intro n0 h
    obtain ⟨h1, h2⟩ := h 0 j rfl
    refine ⟨by simpa using h1, h2, ?_⟩
    have := ih (n0 + 1) (fun i j' hj => by
      have := h (i + 1) j' (by simpa using hj)
      rwa [show n0 + (i + 1) = n0 + 1 + i by omega] at this)
    rwa [show n0 * size + size = (n0 + 1) * size by rw [Nat.add_mul]; omega]

/-- The bytes of block `(x, y)`. -/
def blockEnc (X : Ext) (k : Conv) (a : ConvArgs) (img : FImg) (j : Nat × Nat) : Res (List UInt8) :=
  match k with
  | .s3tc s => do
    let ps ← gatherClamped img 4 4 j.1 j.2
    compressS3tc X s a ps
  | .etc => etcProcess X a img j.1 j.2
  | .astc bx by_ => astcProcess X bx by_ a img j.1 j.2
  | _ => .ok []

/-- Is this one of the converters with one job per block? -/
def Conv.isBlock : Conv → Bool
  | .s3tc _ | .etc | .astc _ _ => true
  | _ => false

/-- The 32-bit size conditions under which the block converters compute the intended sizes. -/
structure BlockFits (k : Conv) (f : Format) (img : FImg) : Prop where
  w0 : 0 < img.width
  h0 : 0 < img.height
  bw : 0 < k.blockDims.1
  bh : 0 < k.blockDims.2
  w : img.width + k.blockDims.1 ≤ pow32
  h : img.height + k.blockDims.2 ≤ pow32
  size : (img.width + k.blockDims.1 - 1) / k.blockDims.1 *
    ((img.height + k.blockDims.2 - 1) / k.blockDims.2) * k.blockBytes f < pow32
  bytes : 0 < k.blockBytes f

theorem blockJobs_eq {e b : Nat} (hb : 0 < b) (h : e + b ≤ pow32) : blockJobs e b = (e + b - 1) / b := by
  unfold blockJobs
  rw [u32_lt (by omega)]

/-- A block conversion stores the blocks in row-major order and nothing else. -/
theorem block_encode (X : Ext) (k : Conv) (a : ConvArgs) (img : FImg) (hk : k.isBlock = true)
    (hf : BlockFits k a.format img)
    (hlen : ∀ j bs, blockEnc X k a img j = .ok bs → bs.length = k.blockBytes a.format) :
    encodeImage X k a img = (do
      let bs ← mapRes (blockEnc X k a img)
        (jobList ((img.width + k.blockDims.1 - 1) / k.blockDims.1)
          ((img.height + k.blockDims.2 - 1) / k.blockDims.2))
      pure bs.flatten) ∧
    ∀ x y, x < (img.width + k.blockDims.1 - 1) / k.blockDims.1 →
      y < (img.height + k.blockDims.2 - 1) / k.blockDims.2 →
      k.process X a img x y = (do
        let bs ← blockEnc X k a img (x, y)
        pure (writesAt ((y * ((img.width + k.blockDims.1 - 1) / k.blockDims.1) + x) *
          k.blockBytes a.format) bs)) := by
  have hX : k.jobsX img = (img.width + k.blockDims.1 - 1) / k.blockDims.1 := by
    have : k.jobsX img = blockJobs img.width k.blockDims.1 := by
      cases k <;> first | rfl | simp [Conv.isBlock] at hk
    rw [this, blockJobs_eq hf.bw hf.w]
  have hY : k.jobsY img = (img.height + k.blockDims.2 - 1) / k.blockDims.2 := by
    have : k.jobsY img = blockJobs img.height k.blockDims.2 := by
      cases k <;> first | rfl | simp [Conv.isBlock] at hk
    rw [this, blockJobs_eq hf.bh hf.h]
  have hE : encodeImage X k a img = (do
      let jobs ← makeJobs (k.jobsX img) (k.jobsY img)
      runJobs (k.process X a img) jobs (List.replicate (k.initSize a img) 0)) := by
    cases k <;> first | rfl | simp [Conv.isBlock] at hk
  have hsize := hf.size
  set JX := (img.width + k.blockDims.1 - 1) / k.blockDims.1
  set JY := (img.height + k.blockDims.2 - 1) / k.blockDims.2
  have hjobs : JX * JY < pow32 :=
    lt_of_le_of_lt (Nat.le_mul_of_pos_right _ hf.bytes) hsize
  have hS : k.initSize a img = JX * JY * k.blockBytes a.format := by
    have : k.initSize a img = u32 (u32 (k.jobsX img * k.jobsY img) * k.blockBytes a.format) := by
      cases k <;> first | rfl | simp [Conv.isBlock] at hk
    rw [this, hX, hY, u32_lt hjobs, u32_lt hsize]
  have hidx : ∀ x y, x < JX → y < JY → y * JX + x < JX * JY := by
    intro x y hx hy
    calc y * JX + x < y * JX + JX := by omega
      _ = (y + 1) * JX := by rw [Nat.add_mul]; omega
      _ ≤ JY * JX := Nat.mul_le_mul_right _ hy
      _ = JX * JY := Nat.mul_comm _ _
  have hP : ∀ x y, x < JX → y < JY → k.process X a img x y = (do
      let bs ← blockEnc X k a img (x, y)
      pure (writesAt ((y * JX + x) * k.blockBytes a.format) bs)) := by
    intro x y hx hy
    have hoff : blockOffset (k.jobsX img) x y (k.blockBytes a.format) =
        (y * JX + x) * k.blockBytes a.format := by
      unfold blockOffset
      have h1 := hidx x y hx hy
      rw [hX, u32_lt (n := y * JX + x) (by omega), u32_lt]
      exact lt_of_le_of_lt (Nat.mul_le_mul_right _ h1.le) hsize
    cases k with
    | s3tc s =>
      show (do
        let ps ← gatherClamped img 4 4 x y
        let bs ← compressS3tc X s a ps
        pure (writesAt _ bs)) = (do
        let bs ← (do
          let ps ← gatherClamped img 4 4 x y
          compressS3tc X s a ps)
        pure (writesAt _ bs))
      rw [hoff]
      cases gatherClamped img 4 4 x y with
      | ub => rfl
      | ok ps => simp only [Res.ok_bind]
    | etc =>
      show (do
        let bs ← etcProcess X a img x y
        pure (writesAt _ bs)) = _
      rw [hoff]; rfl
    | astc bx by_ =>
      show (do
        let bs ← astcProcess X bx by_ a img x y
        pure (writesAt _ bs)) = _
      rw [hoff]; rfl
    | _ => simp [Conv.isBlock] at hk
  refine ⟨?_, hP⟩
  rw [hE, hX, hY, hS]
  unfold makeJobs
  rw [if_pos hjobs, Res.ok_bind]
  have hc : Consec (k.process X a img) (blockEnc X k a img) (fun _ => k.blockBytes a.format) 0
      (jobList JX JY) := by
    have := consec_const (proc := k.process X a img) (enc := blockEnc X k a img)
      (size := k.blockBytes a.format) (jobList JX JY) 0 (by
      intro i j hj
      rw [jobList_eq] at hj
      rw [List.getElem?_map] at hj
      have hi : i < JY * JX := by
        by_contra hcon
        rw [List.getElem?_eq_none (by simp; omega)] at hj
        simp at hj
      rw [List.getElem?_range hi] at hj
      simp only [Option.map_some, Option.some.injEq] at hj
      subst hj
      have hx0 : 0 < JX := by
        by_contra h
        have : JX = 0 := by omega
        rw [this] at hi; simp at hi
      have h1 : i % JX < JX := Nat.mod_lt _ hx0
      have h2 : i / JX < JY := by rw [Nat.div_lt_iff_lt_mul hx0]; exact hi
      refine ⟨?_, fun bs hb => hlen _ _ hb⟩
      rw [hP _ _ h1 h2]
      have : i / JX * JX + i % JX = i := by
        rw [Nat.mul_comm]; exact Nat.div_add_mod i JX
      rw [this, Nat.zero_add])
    rwa [Nat.zero_mul] at this
  exact runJobs_full _ _ hc (by
    rw [jobList_eq, List.map_map, List.length_replicate]
    simp [Function.comp_def, Nat.mul_comm JX JY])

theorem mul_lt_of_ceil {x e b : Nat} (hb : 0 < b) (h : x < (e + b - 1) / b) : x * b < e := by
  have : (x + 1) * b ≤ e + b - 1 := (Nat.le_div_iff_mul_le hb).1 h
  rw [Nat.add_mul] at this
  omega

/-- The texels a block encoder sees, clamped at the edges. -/
theorem gatherClamped_eq (img : FImg) (bw bh x y : Nat) (hw0 : 0 < img.width) (hh0 : 0 < img.height)
    (hbw : 0 < bw) (hbh : 0 < bh) (hw : img.width + bw ≤ pow32) (hh : img.height + bh ≤ pow32)
    (hx : x < (img.width + bw - 1) / bw) (hy : y < (img.height + bh - 1) / bh) :
    gatherClamped img bw bh x y = .ok (clampedBlock img bw bh x y) := by
  have hxb := mul_lt_of_ceil hbw hx
  have hyb := mul_lt_of_ceil hbh hy
  have hcl : ∀ c e, 0 < e → e ≤ pow32 → c < pow32 → clampCoord c e = min c (e - 1) := by
    intro c e h0 he hc
    have h1 : u32 (e + pow32 - 1) = e - 1 := by
      have h2 : e + pow32 - 1 = (e - 1) + pow32 := by omega
      rw [h2]
      exact (Nat.add_mod_right _ _).trans (Nat.mod_eq_of_lt (by omega))
    unfold clampCoord
    rw [u32_lt hc, h1]
  unfold gatherClamped
  have hrow : ∀ j ∈ List.range bh, mapRes (fun i => img.read (clampCoord (u32 (x * bw) + i) img.width)
      (clampCoord (u32 (y * bh) + j) img.height)) (List.range bw) =
      .ok ((List.range bw).map (fun i => clampedTexel img bw bh x y i j)) := by
    intro j hj
    have hj : j < bh := List.mem_range.1 hj
    apply mapRes_all_ok
    intro i hi
    have hi : i < bw := List.mem_range.1 hi
    rw [u32_lt (n := x * bw) (by omega), u32_lt (n := y * bh) (by omega),
      hcl _ _ hw0 (by omega) (by omega), hcl _ _ hh0 (by omega) (by omega)]
    unfold FImg.read
    rw [if_pos ⟨by omega, by omega⟩]
    rfl
  rw [mapRes_all_ok (g := fun j => (List.range bw).map (fun i => clampedTexel img bw bh x y i j)) hrow]
  simp only [Res.ok_bind, Res.pure_eq, clampedBlock, rowMajor, Res.ok.injEq]
  rw [List.flatMap_def]
  congr 1
  apply List.map_congr_left
  intro j _
  rw [List.map_eq_flatMap]

/-- The texels an ETC block encoder sees, cropped at the edges. -/
theorem gatherCropped_eq (img : FImg) (x y : Nat)
    (hw : img.width + 4 ≤ pow32) (hh : img.height + 4 ≤ pow32)
    (hx : x < (img.width + 4 - 1) / 4) (hy : y < (img.height + 4 - 1) / 4) :
    min (u32 (u32 (x + 1) * 4)) img.width - u32 (x * 4) = insideExtent img.width x ∧
    min (u32 (u32 (y + 1) * 4)) img.height - u32 (y * 4) = insideExtent img.height y ∧
    gatherCropped img (min (u32 (u32 (x + 1) * 4)) img.width)
      (min (u32 (u32 (y + 1) * 4)) img.height) x y = .ok (croppedBlock img x y) := by
  have hxb := mul_lt_of_ceil (by omega) hx
  have hyb := mul_lt_of_ceil (by omega) hy
  have e1 : u32 (x * 4) = x * 4 := u32_lt (by omega)
  have e2 : u32 (y * 4) = y * 4 := u32_lt (by omega)
  have w1 : min (u32 (u32 (x + 1) * 4)) img.width - u32 (x * 4) = insideExtent img.width x := by
    rw [e1, u32_lt (n := x + 1) (by omega)]
    unfold insideExtent
    by_cases h : (x + 1) * 4 < pow32
    · rw [u32_lt h]; omega
    · have : (x + 1) * 4 = pow32 := by omega
      exfalso; omega
  have h1 : min (u32 (u32 (y + 1) * 4)) img.height - u32 (y * 4) = insideExtent img.height y := by
    rw [e2, u32_lt (n := y + 1) (by omega)]
    unfold insideExtent
    by_cases h : (y + 1) * 4 < pow32
    · rw [u32_lt h]; omega
    · have : (y + 1) * 4 = pow32 := by omega
      exfalso; omega
  refine ⟨w1, h1, ?_⟩
  unfold gatherCropped
  rw [w1, h1, e1, e2]
  have hrow : ∀ j ∈ List.range (insideExtent img.height y),
      mapRes (fun i => img.read (x * 4 + i) (y * 4 + j)) (List.range (insideExtent img.width x)) =
      .ok ((List.range (insideExtent img.width x)).map (fun i => img.px (x * 4 + i) (y * 4 + j))) := by
    intro j hj
    have hj : j < insideExtent img.height y := List.mem_range.1 hj
    apply mapRes_all_ok
    intro i hi
    have hi : i < insideExtent img.width x := List.mem_range.1 hi
    unfold insideExtent at hi hj
    unfold FImg.read
    rw [if_pos ⟨by omega, by omega⟩]
  rw [mapRes_all_ok (g := fun j => (List.range (insideExtent img.width x)).map
    (fun i => img.px (x * 4 + i) (y * 4 + j))) hrow]
  simp only [Res.ok_bind, Res.pure_eq, croppedBlock, rowMajor, Res.ok.injEq]
  rw [List.flatMap_def]
  congr 1
  apply List.map_congr_left
  intro j _
  rw [List.map_eq_flatMap]

end Cuttlefish
