import Verif.Proofs.SaveDds
/-
What `saveKtx` writes, and that it can be read back.
-/
namespace Cuttlefish
open Spec
variable {Img : Type} {t : Tex Img} {f : Format} {ty : TType} {w h d L : Nat}
  {px : Nat → Nat → Nat → List UInt8}

/-- Cutting into rows and putting them together again. -/
theorem rows_join (r : Nat) (data : List UInt8) : ∀ n, n * r ≤ data.length →
    (List.range n).flatMap (fun y => (data.drop (y * r)).take r) = data.take (n * r) := by
  intro n
  induction n with
  | zero => simp
  | succ n ih =>
    intro hn
    rw [List.range_succ, List.flatMap_append, ih (by rw [Nat.succ_mul] at hn; omega)]
    simp only [List.flatMap_cons, List.flatMap_nil, List.append_nil]
    rw [Nat.succ_mul, List.take_add]

/-- The bytes of one image. -/
def ktxImageData (f : Format) (w h : Nat) (data : List UInt8) : List UInt8 :=
  if blockWidth f = 1 then
    (List.range h).flatMap (fun y => (data.drop (y * (w * blockSize f))).take (w * blockSize f) ++
      List.replicate ((4 - w * blockSize f % 4) % 4) 0)
  else data

theorem flatMap_const_length {α β : Type} (xs : List α) (g : α → List β) (n : Nat)
    (h : ∀ x ∈ xs, (g x).length = n) : (xs.flatMap g).length = xs.length * n := by
  induction xs with
  | nil => simp
  | cons x xs ih =>
    rw [List.flatMap_cons, List.length_append, h x (by simp), ih (fun y hy => h y (by simp [hy])),
      List.length_cons, Nat.succ_mul]
    omega

theorem pad_eq (n : Nat) : n + (4 - n % 4) % 4 = ceilDiv n 4 * 4 := by
  unfold ceilDiv; split <;> omega

theorem ktxImageData_length {data : List UInt8} (hb : blockWidth f = 1 → blockHeight f = 1)
    (hd : data.length = surfaceSize f w h) :
    (ktxImageData f w h data).length = ktxImageBytes f w h := by
  unfold ktxImageData ktxImageBytes
  by_cases h1 : blockWidth f = 1
  · rw [if_pos h1, if_pos h1, flatMap_const_length _ _ (ceilDiv (w * blockSize f) 4 * 4),
      List.length_range, Nat.mul_comm]
    intro y hy
    rw [List.mem_range] at hy
    rw [List.length_append, List.length_replicate, List.length_take, List.length_drop, hd,
      surfaceSize_eq (pvrtc1_wide h1), h1, hb h1]
    have e : ceilDiv w 1 * ceilDiv h 1 * blockSize f = h * (w * blockSize f) := by
      simp only [ceilDiv, Nat.mod_one, Nat.div_one, if_true]; ring
    rw [e, ← Nat.sub_mul, ← pad_eq, Nat.min_eq_left]
    exact Nat.le_mul_of_pos_left _ (by omega)
  · rw [if_neg h1, if_neg h1, hd]

/-- One image is read back. -/
theorem reads_ktxImage {type format internal : Nat} {data : List UInt8}
    (hb : blockWidth f = 1 → blockHeight f = 1) (hd : data.length = surfaceSize f w h)
    (hc : if blockWidth f = 1 then type ≠ 0 ∧ glTexelBytes type format = some (blockSize f)
      else type = 0 ∧ glBlock internal = some (blockWidth f, blockHeight f, blockSize f) ∧
        glLeast internal = leastBlocks f) :
    Reads (ktxImage type format internal w h) (ktxImageData f w h data) data := by
  intro rest
  unfold ktxImage ktxImageData
  by_cases h1 : blockWidth f = 1
  · simp only [if_pos h1] at hc ⊢
    rw [if_neg hc.1, hc.2]
    simp only
    have e : ceilDiv w 1 * ceilDiv h 1 * blockSize f = h * (w * blockSize f) := by
      simp only [ceilDiv, Nat.mod_one, Nat.div_one, if_true]; ring
    rw [surfaceSize_eq (pvrtc1_wide h1), h1, hb h1, e] at hd
    have hrows : Reads (rdFor h (fun _ => ktxRow (w * blockSize f)))
        ((List.range h).flatMap (fun y => (data.drop (y * (w * blockSize f))).take (w * blockSize f) ++
          List.replicate ((4 - w * blockSize f % 4) % 4) 0))
        ((List.range h).map (fun y => (data.drop (y * (w * blockSize f))).take (w * blockSize f))) := by
      refine reads_for (fun y hy => ?_)
      refine reads_then (reads_bytes ?_) (reads_then_pure (reads_bytes (by simp)) (reads_pure _))
      rw [List.length_take, List.length_drop, hd, ← Nat.sub_mul, Nat.min_eq_left]
      exact Nat.le_mul_of_pos_left _ (by omega)
    have hj := rows_join (w * blockSize f) data h (by rw [hd])
    rw [List.take_of_length_le (by omega), List.flatMap_def] at hj
    have := (reads_then_pure (q := fun rows => rdPure rows.flatten) hrows (reads_pure _)) rest
    rw [hj] at this
    exact this
  · simp only [if_neg h1] at hc ⊢
    rw [if_pos hc.1, hc.2.1]
    simp only [hc.2.2]
    exact reads_bytes hd rest

theorem sumSizes_const (x n : Nat) : ∀ acc, acc + n * x < 2 ^ 32 →
    sumSizes (List.replicate n x) acc = acc + n * x := by
  induction n with
  | zero => intro acc _; simp [sumSizes]
  | succ n ih =>
    intro acc h
    rw [Nat.succ_mul] at h
    rw [List.replicate_succ, sumSizes]
    have e : u32 (acc + x) = acc + x := Nat.mod_eq_of_lt (show _ < 2 ^ 32 by omega)
    rw [e, ih _ (by omega), Nat.succ_mul]
    omega

theorem ktxImageBytes_mono {w' h' : Nat} (hb : 0 < blockWidth f ∧ 0 < blockHeight f) (hw : w' ≤ w)
    (hh : h' ≤ h) : ktxImageBytes f w' h' ≤ ktxImageBytes f w h := by
  unfold ktxImageBytes
  split
  · exact Nat.mul_le_mul (Nat.mul_le_mul_right _ (ceilDiv_mono (by norm_num) (Nat.mul_le_mul_right _ hw))) hh
  · exact surfaceSize_mono hb hw hh

/-- The size of a level fits 32 bits. -/
def KtxFits (t : Tex Img) (f : Format) (w h d : Nat) : Prop :=
  depthExtent t.dimension d 0 * (if t.isArray then t.faceCount else 1) * ktxImageBytes f w h < 2 ^ 32

theorem depthExtent_le (hS : Shaped t f ty w h d L px) (m : Nat) :
    depthExtent t.dimension d m ≤ depthExtent t.dimension d 0 := by
  unfold depthExtent
  split_ifs with h3
  · exact extent_le _ _ (hS.dPos h3)
  · exact le_rfl
  · exact le_rfl

theorem depthExtent_pos' (hS : Shaped t f ty w h d L px) (m : Nat) :
    0 < depthExtent t.dimension d m := depthExtent_pos _ _ _ hS.dPos

theorem level_fits (hS : Shaped t f ty w h d L px) (hb : 0 < blockWidth f ∧ 0 < blockHeight f)
    (hk : KtxFits t f w h d) (m : Nat) :
    depthExtent t.dimension d m * (if t.isArray then t.faceCount else 1) *
      ktxImageBytes f (extent w m) (extent h m) < 2 ^ 32 :=
  lt_of_le_of_lt (Nat.mul_le_mul (Nat.mul_le_mul_right _ (depthExtent_le hS m))
    (ktxImageBytes_mono hb (extent_le _ _ hS.wPos) (extent_le _ _ hS.hPos))) hk

theorem faces_pos (hS : Shaped t f ty w h d L px) : 0 < t.faceCount := by
  rw [hS.faces]; split <;> norm_num

theorem image_fits (hS : Shaped t f ty w h d L px) (hb : 0 < blockWidth f ∧ 0 < blockHeight f)
    (hk : KtxFits t f w h d) (m : Nat) :
    depthExtent t.dimension d m * ktxImageBytes f (extent w m) (extent h m) < 2 ^ 32 ∧
    ktxImageBytes f (extent w m) (extent h m) < 2 ^ 32 := by
  have h1 := level_fits hS hb hk m
  have h2 := depthExtent_pos' hS m
  have h3 : 0 < (if t.isArray then t.faceCount else 1) := by
    have := faces_pos hS; split <;> omega
  have h4 : depthExtent t.dimension d m * ktxImageBytes f (extent w m) (extent h m) ≤
      depthExtent t.dimension d m * (if t.isArray then t.faceCount else 1) *
        ktxImageBytes f (extent w m) (extent h m) :=
    Nat.mul_le_mul_right _ (Nat.le_mul_of_pos_right _ h3)
  refine ⟨by omega, lt_of_le_of_lt (Nat.le_mul_of_pos_left _ h2) (by omega)⟩

theorem row_fits (hS : Shaped t f ty w h d L px) (hb : 0 < blockWidth f ∧ 0 < blockHeight f)
    (hk : KtxFits t f w h d) (h1 : blockWidth f = 1) (m : Nat) :
    ceilDiv (extent w m * blockSize f) 4 * 4 < 2 ^ 32 ∧ extent w m * blockSize f + 3 < 2 ^ 32 := by
  have hi := (image_fits hS hb hk m).2
  unfold ktxImageBytes at hi
  rw [if_pos h1] at hi
  have h0 := extent_pos h m hS.hPos
  have h2 : ceilDiv (extent w m * blockSize f) 4 * 4 < 2 ^ 32 :=
    lt_of_le_of_lt (Nat.le_mul_of_pos_right _ h0) hi
  refine ⟨h2, ?_⟩
  rw [← pad_eq] at h2
  generalize extent w m * blockSize f = n at *
  omega

theorem ktx_size (hS : Shaped t f ty w h d L px) (hZ : Sized t f w h d L px)
    (hb : 0 < blockWidth f ∧ 0 < blockHeight f) (hk : KtxFits t f w h d) {m : Nat} (hm : m < L) :
    ktxImageSize t (1 < blockWidth f) (blockSize f) m =
      .ok (depthExtent t.dimension d m * (if t.isArray then t.faceCount else 1) *
        ktxImageBytes f (extent w m) (extent h m)) := by
  have hone : ∀ x ∈ List.range (depthExtent t.dimension d m),
      (if decide (1 < blockWidth f) = true then t.dataSize (some .PosX) m 0
        else do
          let w ← t.widthAt m
          let h ← t.heightAt m
          pure (u32 (u32 (u32 (u32 (w * blockSize f) + 3) / 4 * 4) * h)) : Res Nat) =
        .ok (ktxImageBytes f (extent w m) (extent h m)) := by
    intro _ _
    by_cases h1 : blockWidth f = 1
    · have hd1 : decide (1 < blockWidth f) = false := by simp [h1]
      rw [hd1]
      simp only [Bool.false_eq_true, if_false]
      rw [hS.width m hm, hS.height m hm]
      simp only [Res.ok_bind, Res.pure_eq, Res.ok.injEq]
      obtain ⟨r1, r2⟩ := row_fits hS hb hk h1 m
      have hi := (image_fits hS hb hk m).2
      unfold ktxImageBytes at hi ⊢
      rw [if_pos h1] at hi ⊢
      have e1 : u32 (extent w m * blockSize f) = extent w m * blockSize f :=
        Nat.mod_eq_of_lt (show _ < 2 ^ 32 by omega)
      have e2 : u32 (extent w m * blockSize f + 3) = extent w m * blockSize f + 3 :=
        Nat.mod_eq_of_lt (show _ < 2 ^ 32 by omega)
      have e3 : (extent w m * blockSize f + 3) / 4 = ceilDiv (extent w m * blockSize f) 4 := by
        unfold ceilDiv; split <;> omega
      have e4 : u32 (ceilDiv (extent w m * blockSize f) 4 * 4) =
          ceilDiv (extent w m * blockSize f) 4 * 4 := Nat.mod_eq_of_lt r1
      rw [e1, e2, e3, e4]
      exact Nat.mod_eq_of_lt hi
    · have hd1 : decide (1 < blockWidth f) = true := by simp; omega
      rw [hd1]
      simp only [if_true]
      have hpx := hS.data m 0 0 hm (depthExtent_pos' hS m) (faces_pos hS)
      have hz := hZ m 0 0 hm (depthExtent_pos' hS m) (faces_pos hS)
      unfold Tex.dataSize
      rw [show CubeFace.PosX = CubeFace.ofIndex 0 from rfl, hpx]
      simp only [Res.ok_bind, Res.pure_eq, Res.ok.injEq]
      rw [hz]
      unfold ktxImageBytes
      rw [if_neg h1]
  have hi := (image_fits hS hb hk m).1
  have hl := level_fits hS hb hk m
  unfold ktxImageSize
  rw [hS.depth m hm, Res.ok_bind, mapRes_ok hone, Res.ok_bind]
  rw [List.map_const', List.length_range, sumSizes_const _ _ _ (by omega), Nat.zero_add]
  simp only [Res.pure_eq, Res.ok.injEq]
  by_cases ha : t.isArray = true
  · simp only [ha, if_true] at hl ⊢
    rw [Nat.mul_right_comm (depthExtent t.dimension d m) (ktxImageBytes _ _ _)]
    exact Nat.mod_eq_of_lt hl
  · have ha' : t.isArray = false := by simpa using ha
    simp [ha']

theorem written_replicate (n : Nat) :
    written (List.replicate n (.write [0])) = List.replicate n (0 : UInt8) := by
  induction n with
  | zero => rfl
  | succ n ih => simp [List.replicate_succ, written, ih]

theorem ktx_surface (hS : Shaped t f ty w h d L px) (hZ : Sized t f w h d L px)
    (hb : 0 < blockWidth f ∧ 0 < blockHeight f ∧ (blockWidth f = 1 → blockHeight f = 1))
    (hk : KtxFits t f w h d) {m k fc : Nat} (hm : m < L) (hkd : k < depthExtent t.dimension d m)
    (hf : fc < t.faceCount) :
    ∃ as, ktxSurface t (1 < blockWidth f) (blockSize f) m k fc = .ok as ∧
      written as = ktxImageData f (extent w m) (extent h m) (px m k fc) := by
  unfold ktxSurface ktxImageData
  rw [surfaceBytes_eq hS hm hkd hf, Res.ok_bind]
  by_cases h1 : blockWidth f = 1
  · have hd1 : decide (1 < blockWidth f) = false := by simp [h1]
    rw [hd1, if_pos h1]
    simp only [Bool.false_eq_true, if_false]
    rw [hS.width m hm, hS.height m hm, Res.ok_bind, Res.ok_bind]
    obtain ⟨r1, r2⟩ := row_fits hS ⟨hb.1, hb.2.1⟩ hk h1 m
    have e1 : u32 (extent w m * blockSize f) = extent w m * blockSize f :=
      Nat.mod_eq_of_lt (show _ < 2 ^ 32 by omega)
    have e2 : (if extent w m * blockSize f % 4 ≠ 0 then 4 - extent w m * blockSize f % 4 else 0) =
        (4 - extent w m * blockSize f % 4) % 4 := by split <;> omega
    rw [e1]
    simp only [e2]
    have hz := hZ m k fc hm hkd hf
    rw [surfaceSize_eq (pvrtc1_wide h1)] at hz
    have e : ceilDiv (extent w m) 1 * ceilDiv (extent h m) 1 * blockSize f =
        extent h m * (extent w m * blockSize f) := by
      simp only [ceilDiv, Nat.mod_one, Nat.div_one, if_true]; ring
    rw [h1, hb.2.2 h1, e] at hz
    refine ⟨(List.range (extent h m)).flatMap (fun y =>
      [.write (((px m k fc).drop (y * (extent w m * blockSize f))).take (extent w m * blockSize f))] ++
        List.replicate ((4 - extent w m * blockSize f % 4) % 4) (.write [0]) ++ [.check]),
      actsFor_ok (fun y hy => ?_), ?_⟩
    · rw [List.mem_range] at hy
      rw [if_pos]
      rw [hz]
      exact Nat.mul_le_mul_right _ hy
    · rw [written_flatMap]
      congr 1
      funext y
      simp only [written_append, written_replicate, written, List.append_nil]
  · have hd1 : decide (1 < blockWidth f) = true := by simp; omega
    rw [hd1, if_neg h1]
    simp only [if_true]
    exact ⟨_, rfl, by simp⟩

/-- Existence of operations for every element of a list. -/
theorem actsFor_written {α : Type} {xs : List α} {body : α → Res (List Act)} {g : α → List UInt8}
    (h : ∀ x ∈ xs, ∃ as, body x = .ok as ∧ written as = g x) :
    ∃ as, actsFor xs body = .ok as ∧ written as = xs.flatMap g := by
  induction xs with
  | nil => exact ⟨[], rfl, rfl⟩
  | cons x xs ih =>
    obtain ⟨a, h1, h2⟩ := h x (by simp)
    obtain ⟨as, h3, h4⟩ := ih (fun y hy => h y (by simp [hy]))
    refine ⟨a ++ as, ?_, by rw [written_append, h2, h4, List.flatMap_cons]⟩
    simp only [actsFor, mapRes, Res.bind_eq_ok] at h3 ⊢
    obtain ⟨ys, h5, h6⟩ := h3
    simp only [Res.pure_eq, Res.ok.injEq] at h6
    subst h6
    refine ⟨a :: ys, ?_, by simp⟩
    exact ⟨a, h1, ys, h5, rfl⟩

/-- The bytes of a KTX file. -/
def ktxBytes (t : Tex Img) (f : Format) (w h d L : Nat) (px : Nat → Nat → Nat → List UInt8)
    (info : KtxInfo) (fm : Nat) : List UInt8 :=
  [0xAB, 0x4B, 0x54, 0x58, 0x20, 0x31, 0x31, 0xBB, 0x0D, 0x0A, 0x1A, 0x0A] ++ (leBytes 4 0x04030201 ++
  (leBytes 4 info.type ++ (leBytes 4 info.typeSize ++ (leBytes 4 fm ++ (leBytes 4 info.internalFormat ++
  (leBytes 4 info.baseInternalFormat ++ (leBytes 4 w ++ (leBytes 4 (if t.dimension = .Dim1D then 0 else h) ++
  (leBytes 4 (if t.dimension = .Dim3D then d else 0) ++
  (leBytes 4 (if t.isArray then depthExtent t.dimension d 0 else 0) ++ (leBytes 4 t.faceCount ++
  (leBytes 4 L ++ (leBytes 4 0 ++
  (List.range L).flatMap (fun m =>
    leBytes 4 (depthExtent t.dimension d m * (if t.isArray then t.faceCount else 1) *
        ktxImageBytes f (extent w m) (extent h m)) ++
    (List.range (elementsOf t d)).flatMap (fun e => (List.range t.faceCount).flatMap (fun fc =>
      (List.range (slicesOf t d m)).flatMap (fun s =>
        ktxImageData f (extent w m) (extent h m) (px m (depthIndex t e s) fc))))))))))))))))))

theorem ktx_written (hS : Shaped t f ty w h d L px) (hZ : Sized t f w h d L px)
    (hb : 0 < blockWidth f ∧ 0 < blockHeight f ∧ (blockWidth f = 1 → blockHeight f = 1))
    (hk : KtxFits t f w h d) (info : KtxInfo) (fm : Nat) (hfm : info.format = some fm) :
    ∃ as, ktxActs info t = .ok as ∧ written as = ktxBytes t f w h d L px info fm := by
  have hlev : ∃ as, actsFor (List.range t.mipLevelCount)
      (ktxLevel t (1 < blockWidth t.format) (blockSize t.format)) = .ok as ∧
      written as = (List.range L).flatMap (fun m =>
        leBytes 4 (depthExtent t.dimension d m * (if t.isArray then t.faceCount else 1) *
          ktxImageBytes f (extent w m) (extent h m)) ++
        (List.range (depthExtent t.dimension d m)).flatMap (fun k =>
          (List.range t.faceCount).flatMap (fun fc =>
            ktxImageData f (extent w m) (extent h m) (px m k fc)))) := by
    rw [hS.levels, hS.format]
    refine actsFor_written (fun m hm => ?_)
    rw [List.mem_range] at hm
    obtain ⟨as, h1, h2⟩ : ∃ as, actsFor (List.range (depthExtent t.dimension d m)) (fun k =>
        actsFor (List.range t.faceCount) (fun fc =>
          ktxSurface t (1 < blockWidth f) (blockSize f) m k fc)) = .ok as ∧ written as = _ :=
      actsFor_written (fun k hkd => actsFor_written (fun fc hf => by
        rw [List.mem_range] at hkd hf
        exact ktx_surface hS hZ hb hk hm hkd hf))
    unfold ktxLevel
    rw [ktx_size hS hZ ⟨hb.1, hb.2.1⟩ hk hm, hS.depth m hm, Res.ok_bind, Res.ok_bind, h1]
    refine ⟨_, rfl, ?_⟩
    rw [written_append, written_emit32, h2]
  obtain ⟨as, h1, h2⟩ := hlev
  refine ⟨?as, ?e, ?w⟩
  case e =>
    unfold ktxActs
    rw [hfm, hS.width 0 hS.levelsPos, hS.height 0 hS.levelsPos, hS.depth 0 hS.levelsPos, h1]
    simp only [assigned, Res.ok_bind]
    rfl
  case w =>
    have hd3 : (if t.dimension = .Dim3D then depthExtent t.dimension d 0 else 0) =
        if t.dimension = .Dim3D then d else 0 := by
      unfold depthExtent
      split <;> simp [*, extent]
    simp only [written_append, written_emit32, written_emit, hS.levels, hd3, List.append_assoc, h2]
    have hb := fun m => body_order (α := UInt8) hS m
      (fun k fc => ktxImageData f (extent w m) (extent h m) (px m k fc))
    simp only [hb]
    rfl

/-- Number of surfaces of a level. -/
theorem counts (hS : Shaped t f ty w h d L px) (m : Nat) :
    elementsOf t d * slicesOf t d m = depthExtent t.dimension d m := by
  unfold elementsOf slicesOf depthExtent
  split_ifs <;> simp

/-- The file reads back as the texture. -/
theorem ktx_reads (hS : Shaped t f ty w h d L px) (hZ : Sized t f w h d L px)
    (hb : 0 < blockWidth f ∧ 0 < blockHeight f ∧ (blockWidth f = 1 → blockHeight f = 1))
    (hk : KtxFits t f w h d) (info : KtxInfo) (fm : Nat) (hfm : info.format = some fm)
    (hc : ktxCodesOk f info = true) (h1d : t.dimension = .Dim1D → h = 1) :
    Reads ktxFile (ktxBytes t f w h d L px info fm)
      ⟨info.type, info.typeSize, fm, info.internalFormat, info.baseInternalFormat, w,
        if t.dimension = .Dim1D then 0 else h, if t.dimension = .Dim3D then d else 0,
        if t.isArray then depthExtent t.dimension d 0 else 0, t.faceCount, L, [],
        (List.range L).map (fun m => (List.range (elementsOf t d)).map (fun e =>
          (List.range t.faceCount).map (fun fc => (List.range (slicesOf t d m)).map (fun s =>
            px m (depthIndex t e s) fc))))⟩ := by
  have hl := hS.levelsLt
  have hl0 := hS.levelsPos
  have hw := hS.wLt
  have hh := hS.hLt
  have hd := hS.dLt
  have hde : depthExtent t.dimension d 0 < 2 ^ 32 := by
    unfold depthExtent; split_ifs <;> simp [extent] <;> omega
  have hF : t.faceCount < 2 ^ 32 := by rw [hS.faces]; split_ifs <;> omega
  unfold ktxCodesOk at hc
  rw [hfm] at hc
  simp only [Bool.and_eq_true, decide_eq_true_eq] at hc
  obtain ⟨⟨⟨⟨⟨hcode, c1⟩, c2⟩, c3⟩, c4⟩, c5⟩ := hc
  have hcode' : if blockWidth f = 1 then info.type ≠ 0 ∧ glTexelBytes info.type fm = some (blockSize f)
      else info.type = 0 ∧ glBlock info.internalFormat = some (blockWidth f, blockHeight f, blockSize f) ∧
        glLeast info.internalFormat = leastBlocks f := by
    by_cases h1 : blockWidth f = 1
    · rw [if_pos h1] at hcode ⊢; simpa using hcode
    · rw [if_neg h1] at hcode ⊢; simpa [and_assoc] using hcode
  have h256 : (256 : Nat) ^ 4 = 2 ^ 32 := by norm_num
  unfold ktxBytes
  refine reads_then (reads_bytes rfl) (reads_guard (by decide) ?_)
  refine reads_then (reads_le (by norm_num)) (reads_guard (by decide) ?_)
  refine reads_then (reads_le (by rw [h256]; exact c1)) ?_
  refine reads_then (reads_le (by rw [h256]; exact c2)) ?_
  refine reads_then (reads_le (by rw [h256]; exact c3)) ?_
  refine reads_then (reads_le (by rw [h256]; exact c4)) ?_
  refine reads_then (reads_le (by rw [h256]; exact c5)) ?_
  refine reads_then (reads_le (by rw [h256]; exact hw)) ?_
  refine reads_then (reads_le (by rw [h256]; split_ifs <;> omega)) ?_
  refine reads_then (reads_le (by rw [h256]; split_ifs <;> omega)) ?_
  refine reads_then (reads_le (by rw [h256]; split_ifs <;> omega)) ?_
  refine reads_then (reads_le (by rw [h256]; exact hF)) ?_
  refine reads_then (reads_le (by norm_num; omega)) ?_
  refine reads_then (reads_le (by norm_num)) ?_
  refine (reads_then (b := []) (reads_bytes rfl) ?_ : Reads _ ([] ++ _) _)
  have eL : orOne L = L := by rw [orOne, if_neg (by omega)]
  rw [eL]
  refine reads_then_pure (reads_for (fun m hm => ?_)) (reads_pure _)
  have eE : orOne (if t.isArray then depthExtent t.dimension d 0 else 0) = elementsOf t d := by
    rw [← elementsOf_eq hS]
    have := depthExtent_pos' hS 0
    unfold orOne
    split_ifs <;> omega
  have eS : orOne (if (if t.dimension = .Dim3D then d else 0) = 0 then 0
      else extent (if t.dimension = .Dim3D then d else 0) m) = slicesOf t d m := by
    unfold slicesOf orOne
    by_cases h3 : t.dimension = .Dim3D
    · have := hS.dPos h3
      have := extent_pos d m this
      simp only [h3, if_true]
      rw [if_neg (show ¬ d = 0 by omega), if_neg (by omega)]
    · simp [h3]
  have eH : orOne (if (if t.dimension = .Dim1D then 0 else h) = 0 then 0
      else extent (if t.dimension = .Dim1D then 0 else h) m) = extent h m := by
    unfold orOne
    by_cases h1 : t.dimension = .Dim1D
    · simp [h1, h1d h1, extent_one]
    · have := hS.hPos
      have := extent_pos h m this
      simp only [h1, if_false]
      rw [if_neg (show ¬ h = 0 by omega), if_neg (by omega)]
  have eA : (if t.isArray then depthExtent t.dimension d 0 else 0) = 0 ↔ t.isArray = false := by
    have := depthExtent_pos' hS 0
    by_cases ha : t.isArray = true
    · simp only [ha, if_true]; simp; omega
    · simp [ha]
  unfold ktxLevelImages
  rw [eE, eS, eH]
  have hlv := level_fits hS ⟨hb.1, hb.2.1⟩ hk m
  refine reads_then (reads_le (by rw [h256]; exact hlv)) ?_
  refine reads_within (reads_for (fun e he => reads_for (fun fc hf => reads_for (fun s hs =>
    reads_ktxImage hb.2.2 (hZ m (depthIndex t e s) fc hm (depthIndex_lt he hs) hf) hcode')))) ?_
  rw [flatMap_const_length _ _ (t.faceCount * (slicesOf t d m * ktxImageBytes f (extent w m) (extent h m)))]
  · rw [List.length_range]
    have hc := counts hS m
    have e1 : elementsOf t d * (t.faceCount * (slicesOf t d m * ktxImageBytes f (extent w m) (extent h m))) =
        depthExtent t.dimension d m * t.faceCount * ktxImageBytes f (extent w m) (extent h m) := by
      rw [← hc]; ring
    rw [e1]
    simp only [eA]
    have hfc := hS.faces
    by_cases ha : t.isArray = true
    · simp [ha]
    · have ha' : t.isArray = false := by simpa using ha
      simp only [ha', Bool.false_eq_true, if_false, and_true, Nat.mul_one]
      by_cases hcb : t.dimension = .Cube
      · rw [if_pos hcb] at hfc
        rw [hfc, if_pos rfl]; ring
      · rw [if_neg hcb] at hfc
        rw [hfc]; simp
  · intro e he
    rw [List.mem_range] at he
    rw [flatMap_const_length _ _ (slicesOf t d m * ktxImageBytes f (extent w m) (extent h m)), List.length_range]
    intro fc hf
    rw [List.mem_range] at hf
    rw [flatMap_const_length _ _ (ktxImageBytes f (extent w m) (extent h m)), List.length_range]
    intro s hs
    rw [List.mem_range] at hs
    exact ktxImageData_length hb.2.2 (hZ m (depthIndex t e s) fc hm (depthIndex_lt he hs) hf)

end Cuttlefish
