import Verif.Proofs.BlockJobs
import Verif.Proofs.Bytes
/-
What `encodeImage` produces for each class of formats, in terms of the specification.
-/
namespace Cuttlefish
open Spec

theorem ceilDiv_eq {e b : Nat} (hb : 0 < b) : (e + b - 1) / b = ceilDiv e b := by
  unfold ceilDiv
  have h := Nat.div_add_mod e b
  have hm := Nat.mod_lt e hb
  by_cases h0 : e % b = 0
  · rw [if_pos h0]
    have h1 : e + b - 1 = b * (e / b) + (b - 1) := by omega
    have h2 : (b - 1) / b = 0 := Nat.div_eq_of_lt (by omega)
    rw [h1, Nat.mul_add_div hb, h2, Nat.add_zero]
  · rw [if_neg h0]
    have h1 : e + b - 1 = b * (e / b + 1) + (e % b - 1) := by
      rw [Nat.mul_add]; omega
    have h2 : (e % b - 1) / b = 0 := Nat.div_eq_of_lt (by omega)
    rw [h1, Nat.mul_add_div hb, h2, Nat.add_zero]

/-- The bytes of a defined result. -/
def resVal : Res (List UInt8) → List UInt8
  | .ok bs => bs
  | .ub => []

theorem mapRes_val {α : Type} {f : α → Res (List UInt8)} {as : List α} {bs : List (List UInt8)} :
    mapRes f as = .ok bs ↔ (∀ a ∈ as, f a ≠ .ub) ∧ bs = as.map (fun a => resVal (f a)) := by
  constructor
  · intro h
    have h1 : ∀ a ∈ as, f a ≠ .ub := mapRes_ne_ub.1 (by rw [h]; simp)
    refine ⟨h1, ?_⟩
    rw [mapRes_all_ok (g := fun a => resVal (f a))] at h
    · simpa using h.symm
    · intro a ha
      have := h1 a ha
      cases hf : f a with
      | ub => exact absurd hf this
      | ok b => rfl
  · rintro ⟨h1, rfl⟩
    apply mapRes_all_ok
    intro a ha
    have := h1 a ha
    cases hf : f a with
    | ub => exact absurd hf this
    | ok b => rfl

/-- Converters of the uncompressed formats. -/
theorem conv_std {c : Features} {f : Format} {t : TType} {k : Conv}
    (hk : createConverter c f t = some k) {cs : List (Chan × Nat)} (hl : layout f = some cs) :
    k.isStandard = true ∧ k.texelSize = blockSize f ∧ k.elem.2 = elements cs ∧ 0 < k.elem.2 ∧
    blockWidth f = 1 ∧ blockHeight f = 1 := by
  cases f <;> simp only [layout, Option.some.injEq, reduceCtorEq] at hl <;> subst hl <;>
    cases t <;> simp only [createConverter, ifUNorm, create8, create16, create32, reduceCtorEq,
      if_true, if_false, Option.some.injEq] at hk <;> subst hk <;> decide

/-- Converters of the block formats. -/
theorem conv_block {c : Features} {f : Format} {t : TType} {k : Conv}
    (hk : createConverter c f t = some k) (hl : layout f = none) (hp : isPvrtc f = false) :
    k.isBlock = true ∧ k.blockDims = (blockWidth f, blockHeight f) ∧ k.blockBytes f = blockSize f ∧
    0 < blockWidth f ∧ 0 < blockHeight f ∧ 0 < blockSize f := by
  cases f <;> simp only [layout, reduceCtorEq] at hl <;>
    simp only [isPvrtc, Bool.true_eq_false] at hp <;>
    simp only [createConverter, ifUNorm, createAstc, reduceCtorEq] at hk <;>
    (split at hk <;> [skip; exact absurd hk (by simp)]) <;>
    cases t <;> simp only [reduceCtorEq, or_self, or_true, true_or, if_true, if_false,
      Option.some.injEq] at hk <;> subst hk <;> decide

theorem packed_len (X : Ext) (q : PackedConv) (p : Pixel) (bs : List UInt8)
    (h : packedBytes X q p = .ok bs) : bs.length = (Conv.packed q).texelSize := by
  cases q <;> simp only [packedBytes, Res.bind_eq_ok, Res.pure_eq, Res.ok.injEq] at h
  case B10G11R11UFloat | E5B9G9R9UFloat =>
    subst h; simp [Conv.texelSize, Conv.elem, PackedConv.texelSize, leBytes_length]
  case R4G4 =>
    obtain ⟨_, _, _, _, rfl⟩ := h
    simp [Conv.texelSize, Conv.elem, PackedConv.texelSize, leBytes_length]
  case R5G6B5 | B5G6R5 | B8G8R8 =>
    obtain ⟨_, _, _, _, _, _, rfl⟩ := h
    simp [Conv.texelSize, Conv.elem, PackedConv.texelSize, leBytes_length]
  all_goals
    obtain ⟨_, _, _, _, _, _, _, _, rfl⟩ := h
    simp [Conv.texelSize, Conv.elem, PackedConv.texelSize, leBytes_length]

theorem chan_len (X : Ext) (k : Conv) (hk : k.isStandard = true) (hp : ∀ q, k ≠ .packed q) (v : Nat)
    (bs : List UInt8) (h : chanBytes X k v = .ok bs) : bs.length = k.elem.1 := by
  cases k <;> simp only [chanBytes, Res.bind_eq_ok, Res.pure_eq, Res.ok.injEq] at h
  case unorm | snorm | int => obtain ⟨_, _, rfl⟩ := h; simp [Conv.elem, leBytes_length]
  case half | float => subst h; simp [Conv.elem, leBytes_length]
  case packed q => exact absurd rfl (hp q)
  all_goals simp [Conv.isStandard] at hk

/-- The encoding of a texel has the size of a texel. -/
theorem texel_len (X : Ext) {c : Features} {f : Format} {t : TType} {k : Conv}
    (hk : createConverter c f t = some k) {cs : List (Chan × Nat)} (hl : layout f = some cs)
    (p : Pixel) (bs : List UInt8) (h : texelBytes X k p = .ok bs) : bs.length = k.texelSize := by
  have hs := (conv_std hk hl).1
  by_cases hp : ∃ q, k = .packed q
  · obtain ⟨q, rfl⟩ := hp
    exact packed_len X q p bs h
  · have hp : ∀ q, k ≠ .packed q := fun q hq => hp ⟨q, hq⟩
    have hc : k.channels = k.elem.2 ∧ k.elem.2 ≤ 4 := by
      cases f <;> simp only [layout, Option.some.injEq, reduceCtorEq] at hl <;>
        cases t <;> simp only [createConverter, ifUNorm, create8, create16, create32, reduceCtorEq,
          if_true, if_false, Option.some.injEq] at hk <;> subst hk <;>
        first | decide | exact absurd rfl (hp _)
    have h' : (do
        let bs ← mapRes (chanBytes X k) (p.chans.take k.channels)
        pure bs.flatten) = Res.ok bs := by
      rw [← h]
      cases k <;> first | rfl | exact absurd rfl (hp _)
    rw [Res.bind_eq_ok] at h'
    obtain ⟨ys, h1, h2⟩ := h'
    simp only [Res.pure_eq, Res.ok.injEq] at h2
    subst h2
    rw [flatten_len (s := k.elem.1) (fun b hb => by
      obtain ⟨v, _, hv⟩ := mapRes_mem h1 hb
      exact chan_len X k hs hp v b hv), mapRes_length h1, hc.1]
    simp only [Pixel.chans, List.length_take, List.length_cons, List.length_nil]
    rw [Nat.min_eq_left (by omega)]
    rfl

/-- The encoding of a pixel (nothing if it is undefined). -/
def texelEnc (X : Ext) (k : Conv) (p : Pixel) : List UInt8 := resVal (texelBytes X k p)

theorem grid_forall {w h : Nat} (hw : 0 < w) {P : Nat → Nat → Prop} :
    (∀ i, i < h * w → P (i % w) (i / w)) ↔ ∀ x y, x < w → y < h → P x y := by
  constructor
  · intro H x y hx hy
    have hi : y * w + x < h * w := by
      calc y * w + x < y * w + w := by omega
        _ = (y + 1) * w := by rw [Nat.add_mul]; omega
        _ ≤ h * w := Nat.mul_le_mul_right _ hy
    have := H _ hi
    rwa [Nat.mul_comm y w, Nat.mul_add_mod, Nat.mod_eq_of_lt hx, Nat.mul_add_div hw,
      Nat.div_eq_of_lt hx, Nat.add_zero] at this
  · intro H i hi
    exact H _ _ (Nat.mod_lt _ hw) (by rw [Nat.div_lt_iff_lt_mul hw]; exact hi)

theorem rowMajor_range {α : Type} (w h : Nat) (f : Nat → Nat → List α) :
    rowMajor w h f = (List.range (h * w)).flatMap (fun i => f (i % w) (i / w)) := by
  have := jobList_eq w h
  unfold jobList at this
  unfold rowMajor
  have h2 : (List.range (h * w)).flatMap (fun i => f (i % w) (i / w)) =
      ((List.range (h * w)).map (fun i => (i % w, i / w))).flatMap (fun j => f j.1 j.2) := by
    rw [List.flatMap_map]
  rw [h2, ← this, List.flatMap_assoc]
  congr 1
  funext y
  rw [List.flatMap_map]

theorem rowMajor_length {α : Type} {w h s : Nat} {f : Nat → Nat → List α}
    (hs : ∀ x y, x < w → y < h → (f x y).length = s) : (rowMajor w h f).length = w * h * s := by
  unfold rowMajor
  rw [List.length_flatMap]
  have : (List.range h).map (fun y => ((List.range w).flatMap (fun x => f x y)).length) =
      (List.range h).map (fun _ => w * s) := by
    apply List.map_congr_left
    intro y hy
    rw [List.length_flatMap]
    have : (List.range w).map (fun x => (f x y).length) = (List.range w).map (fun _ => s) :=
      List.map_congr_left (fun x hx => hs x y (List.mem_range.1 hx) (List.mem_range.1 hy))
    rw [this]
    simp
  rw [this]
  simp
  ring

theorem flatMap_slice {α : Type} {s : Nat} {g : Nat → List α} {n i : Nat} (hi : i < n)
    (hg : ∀ j, j < n → (g j).length = s) :
    (((List.range n).flatMap g).drop (i * s)).take s = g i := by
  have hr : List.range n = List.range i ++ [i] ++ (List.range' (i + 1) (n - i - 1)) := by
    rw [← List.range_succ, List.range_eq_range', List.range_eq_range']
    have := List.range'_append_1 (s := 0) (m := i + 1) (n := n - i - 1)
    rw [Nat.zero_add] at this
    rw [Nat.succ_eq_add_one, this]
    congr 1
    omega
  have hl : ((List.range i).flatMap g).length = i * s := by
    rw [List.length_flatMap]
    have : (List.range i).map (fun x => (g x).length) = (List.range i).map (fun _ => s) :=
      List.map_congr_left (fun x hx => hg x (by have := List.mem_range.1 hx; omega))
    rw [this]
    simp
  rw [hr, List.flatMap_append, List.flatMap_append, List.append_assoc, List.drop_left' hl,
    List.flatMap_singleton, List.take_left' (hg i hi)]

theorem rowMajor_slice {w h s x y : Nat} {f : Nat → Nat → List UInt8} (hx : x < w) (hy : y < h)
    (hs : ∀ x y, x < w → y < h → (f x y).length = s) : texelAt (rowMajor w h f) s w x y = f x y := by
  unfold texelAt
  rw [rowMajor_range]
  have hw : 0 < w := by omega
  have hi : y * w + x < h * w := by
    calc y * w + x < y * w + w := by omega
      _ = (y + 1) * w := by rw [Nat.add_mul]; omega
      _ ≤ h * w := Nat.mul_le_mul_right _ hy
  rw [flatMap_slice (g := fun i => f (i % w) (i / w)) hi]
  · show f ((y * w + x) % w) ((y * w + x) / w) = f x y
    rw [Nat.mul_comm y w, Nat.mul_add_mod, Nat.mod_eq_of_lt hx, Nat.mul_add_div hw,
      Nat.div_eq_of_lt hx, Nat.add_zero]
  · intro j hj
    exact hs _ _ (Nat.mod_lt _ hw) (by rw [Nat.div_lt_iff_lt_mul hw]; exact hj)

theorem stdFits_of {c : Features} {f : Format} {t : TType} {k : Conv}
    (hk : createConverter c f t = some k) {cs : List (Chan × Nat)} (hl : layout f = some cs)
    {img : FImg} (hf : Fits f img.width img.height) : StdFits k img := by
  obtain ⟨-, -, h3⟩ := hf
  rw [hl] at h3
  obtain ⟨-, -, h4, h5, -⟩ := conv_std hk hl
  exact ⟨h3.1, by rw [h4]; exact h3.2, h5⟩

/-- An uncompressed conversion is defined exactly when every texel is, and is then the row-major
sequence of the encoded texels. -/
theorem std_surface (X : Ext) {c : Features} {f : Format} {t : TType} {k : Conv}
    (hk : createConverter c f t = some k) {cs : List (Chan × Nat)} (hl : layout f = some cs)
    (a : ConvArgs) (img : FImg) (hf : Fits f img.width img.height) (bytes : List UInt8) :
    encodeImage X k a img = .ok bytes ↔
      (∀ x y, x < img.width → y < img.height → texelBytes X k (img.px x y) ≠ .ub) ∧
      bytes = rowMajor img.width img.height (fun x y => texelEnc X k (img.px x y)) := by
  have hw : 0 < img.width := hf.1
  rw [std_encode X k a img (conv_std hk hl).1 (texel_len X hk hl) (stdFits_of hk hl hf),
    Res.bind_eq_ok, rowMajor_range, Nat.mul_comm img.width img.height]
  simp only [mapRes_val, List.mem_range, Res.pure_eq, Res.ok.injEq]
  rw [← grid_forall (h := img.height) (P := fun x y => texelBytes X k (img.px x y) ≠ .ub) hw]
  constructor
  · rintro ⟨ys, ⟨h1, rfl⟩, rfl⟩
    exact ⟨h1, by rw [List.flatMap_def]; rfl⟩
  · rintro ⟨h1, rfl⟩
    exact ⟨_, ⟨h1, rfl⟩, by rw [List.flatMap_def]; rfl⟩

theorem blockFits_of {c : Features} {f : Format} {t : TType} {k : Conv}
    (hk : createConverter c f t = some k) (hl : layout f = none) (hp : isPvrtc f = false)
    {img : FImg} (hf : Fits f img.width img.height) : BlockFits k f img := by
  obtain ⟨h1, h2, h3⟩ := hf
  rw [hl] at h3
  obtain ⟨-, h4, h5, h6, h7, h8⟩ := conv_block hk hl hp
  exact ⟨h1, h2, by rw [h4]; exact h6, by rw [h4]; exact h7, by rw [h4]; exact h3.1,
    by rw [h4]; exact h3.2.1, by
      rw [h4, h5]
      show (_ + blockWidth f - 1) / blockWidth f * ((_ + blockHeight f - 1) / blockHeight f) * _ < _
      rw [ceilDiv_eq h6, ceilDiv_eq h7]
      exact h3.2.2, by rw [h5]; exact h8⟩

theorem toColorBlock_len {ps : List Pixel} {px : List UInt8} (h : toColorBlock ps = .ok px) :
    px.length = 4 * ps.length := by
  unfold toColorBlock at h
  rw [mapRes_length h, List.length_flatMap]
  simp [Pixel.chans]
  omega

theorem alphaBytes_len (n : Nat) : ∀ (px : List UInt8), px.length = 4 * n → (alphaBytes px).length = n := by
  induction n with
  | zero => intro px h; simp at h; subst h; rfl
  | succ n ih =>
    intro px h
    match px, h with
    | _ :: _ :: _ :: a :: rest, h =>
      simp only [alphaBytes, List.length_cons]
      rw [ih rest (by simp at h; omega)]

theorem packBc2_len (n : Nat) : ∀ (as bs : List UInt8), as.length = 2 * n → packBc2Alpha as = .ok bs →
    bs.length = n := by
  induction n with
  | zero => intro as bs h hb; simp at h; subst h; simp [packBc2Alpha] at hb; subst hb; rfl
  | succ n ih =>
    intro as bs h hb
    match as, h with
    | a0 :: a1 :: rest, h =>
      simp only [packBc2Alpha, Res.bind_eq_ok, Res.pure_eq, Res.ok.injEq] at hb
      obtain ⟨_, _, _, _, ys, hy, rfl⟩ := hb
      simp only [List.length_cons]
      rw [ih rest ys (by simp at h; omega) hy]

theorem gatherClamped_len {img : FImg} {bw bh x y : Nat} {ps : List Pixel}
    (h : gatherClamped img bw bh x y = .ok ps) : ps.length = bw * bh := by
  unfold gatherClamped at h
  rw [Res.bind_eq_ok] at h
  obtain ⟨ys, h1, h2⟩ := h
  simp only [Res.pure_eq, Res.ok.injEq] at h2
  subst h2
  rw [List.length_flatten]
  have : ys.map List.length = ys.map (fun _ => bw) := by
    apply List.map_congr_left
    intro b hb
    obtain ⟨j, _, hj⟩ := mapRes_mem h1 hb
    rw [mapRes_length hj, List.length_range]
  rw [this]
  simp [mapRes_length h1, Nat.mul_comm]

theorem s3tc_len (X : Ext) (hX : CodecSizes X) (s : S3tcConv) (a : ConvArgs) (ps : List Pixel)
    (hps : ps.length = 16) (bs : List UInt8) (h : compressS3tc X s a ps = .ok bs) :
    bs.length = s.blockSize := by
  cases s with
  | Bc1 =>
    simp only [compressS3tc, Res.bind_eq_ok, Res.pure_eq, Res.ok.injEq] at h
    obtain ⟨_, _, rfl⟩ := h
    exact hX _ _ rfl
  | Bc1A =>
    simp only [compressS3tc, Res.bind_eq_ok, Res.pure_eq] at h
    obtain ⟨_, _, h⟩ := h
    split at h <;> (simp only [Res.ok.injEq] at h; subst h; exact hX _ _ rfl)
  | Bc2 =>
    simp only [compressS3tc, Res.bind_eq_ok, Res.pure_eq, Res.ok.injEq] at h
    obtain ⟨px, h1, al, h2, rfl⟩ := h
    have := packBc2_len 8 _ _ (by
      rw [alphaBytes_len 16 px (by rw [toColorBlock_len h1, hps])]) h2
    rw [List.length_append, this, hX _ 8 rfl]
    rfl
  | Bc3 =>
    simp only [compressS3tc, Res.bind_eq_ok, Res.pure_eq] at h
    obtain ⟨_, _, h⟩ := h
    split at h <;> (simp only [Res.ok.injEq] at h; subst h; exact hX _ _ rfl)
  | Bc4 sg =>
    cases sg
    · simp only [compressS3tc, Res.bind_eq_ok, Res.pure_eq] at h
      obtain ⟨_, _, h⟩ := h
      split at h <;> (simp only [Res.ok.injEq] at h; subst h; exact hX _ _ rfl)
    · simp only [compressS3tc, Res.bind_eq_ok, Res.pure_eq, Res.ok.injEq] at h
      obtain ⟨_, _, rfl⟩ := h
      exact hX _ _ rfl
  | Bc5 sg =>
    cases sg
    · simp only [compressS3tc, Res.bind_eq_ok, Res.pure_eq] at h
      obtain ⟨_, _, h⟩ := h
      split at h <;> (simp only [Res.ok.injEq] at h; subst h; exact hX _ _ rfl)
    · simp only [compressS3tc, Res.bind_eq_ok, Res.pure_eq, Res.ok.injEq] at h
      obtain ⟨_, _, _, _, rfl⟩ := h
      exact hX _ _ rfl
  | Bc6H sg =>
    simp only [compressS3tc] at h
    split at h <;> (simp only [Res.ok.injEq] at h; subst h; exact hX _ _ rfl)
  | Bc7 =>
    simp only [compressS3tc, Res.bind_eq_ok, Res.pure_eq] at h
    obtain ⟨_, _, h⟩ := h
    split at h <;> (simp only [Res.ok.injEq] at h; subst h; exact hX _ _ rfl)

/-- Every encoded block has the size of a block. -/
theorem block_len (X : Ext) (hX : CodecSizes X) {k : Conv} (hk : k.isBlock = true)
    (a : ConvArgs) (img : FImg) (j : Nat × Nat)
    (bs : List UInt8) (h : blockEnc X k a img j = .ok bs) : bs.length = k.blockBytes a.format := by
  cases k with
  | s3tc s =>
    simp only [blockEnc, Res.bind_eq_ok] at h
    obtain ⟨ps, h1, h2⟩ := h
    exact s3tc_len X hX s a ps (gatherClamped_len h1) bs h2
  | etc =>
    simp only [blockEnc, etcProcess, Res.bind_eq_ok, Res.pure_eq, Res.ok.injEq] at h
    obtain ⟨ps, h1, rfl⟩ := h
    rw [hX _ _ rfl]
    show _ = etcBlockSize a.format
    cases a.format <;> cases a.type <;> rfl
  | astc bx by_ =>
    simp only [blockEnc, astcProcess, Res.bind_eq_ok, Res.pure_eq, Res.ok.injEq] at h
    obtain ⟨ps, h1, rfl⟩ := h
    exact hX _ _ rfl
  | _ => simp [Conv.isBlock] at hk

/-- A block conversion is defined exactly when every block is, and is then the row-major sequence
of the encoded blocks. -/
theorem block_surface (X : Ext) (hX : CodecSizes X) {c : Features} {f : Format} {t : TType} {k : Conv}
    (hk : createConverter c f t = some k) (hl : layout f = none) (hp : isPvrtc f = false)
    (a : ConvArgs) (ha : a.format = f) (img : FImg) (hf : Fits f img.width img.height)
    (bytes : List UInt8) :
    encodeImage X k a img = .ok bytes ↔
      (∀ x y, x < ceilDiv img.width (blockWidth f) → y < ceilDiv img.height (blockHeight f) →
        blockEnc X k a img (x, y) ≠ .ub) ∧
      bytes = rowMajor (ceilDiv img.width (blockWidth f)) (ceilDiv img.height (blockHeight f))
        (fun x y => resVal (blockEnc X k a img (x, y))) := by
  subst ha
  obtain ⟨h1, h2, h3, h4, h5, h6⟩ := conv_block hk hl hp
  have := (block_encode X k a img h1 (blockFits_of hk hl hp hf)
    (fun j bs h => block_len X hX h1 a img j bs h)).1
  rw [h2, ceilDiv_eq h4, ceilDiv_eq h5, jobList_eq] at this
  have hw : 0 < ceilDiv img.width (blockWidth a.format) := by
    unfold ceilDiv
    have := hf.1
    split
    · rename_i h0
      have := Nat.div_add_mod img.width (blockWidth a.format)
      rcases Nat.eq_zero_or_pos (img.width / blockWidth a.format) with h | h
      · rw [h] at this; simp at this; omega
      · exact h
    · exact Nat.succ_pos _
  rw [this, Res.bind_eq_ok, rowMajor_range]
  simp only [mapRes_val, List.mem_map, List.mem_range, Res.pure_eq, Res.ok.injEq, List.map_map]
  rw [← grid_forall (h := ceilDiv img.height (blockHeight a.format))
    (P := fun x y => blockEnc X k a img (x, y) ≠ .ub) hw]
  constructor
  · rintro ⟨ys, ⟨h1, rfl⟩, rfl⟩
    exact ⟨fun i hi => h1 _ ⟨i, hi, rfl⟩, by rw [List.flatMap_def]; rfl⟩
  · rintro ⟨h1, rfl⟩
    exact ⟨_, ⟨fun j ⟨i, hi, hj⟩ => hj ▸ h1 i hi, rfl⟩, by rw [List.flatMap_def]; rfl⟩

/-- The size of every surface. -/
theorem surface_size (X : Ext) (hX : CodecSizes X) {c : Features} {f : Format} {t : TType} {k : Conv}
    (hk : createConverter c f t = some k) (hp : isPvrtc f = false)
    (a : ConvArgs) (ha : a.format = f) (img : FImg) (hf : Fits f img.width img.height)
    (bytes : List UInt8) (h : encodeImage X k a img = .ok bytes) :
    bytes.length = ceilDiv img.width (blockWidth f) * ceilDiv img.height (blockHeight f) *
      blockSize f := by
  cases hl : layout f with
  | some cs =>
    obtain ⟨h1, rfl⟩ := (std_surface X hk hl a img hf bytes).1 h
    obtain ⟨-, h2, -, -, h3, h4⟩ := conv_std hk hl
    rw [rowMajor_length (s := blockSize f), h3, h4]
    · simp [ceilDiv, Nat.mod_one]
    · intro x y hx hy
      have := h1 x y hx hy
      unfold texelEnc
      cases ht : texelBytes X k (img.px x y) with
      | ub => exact absurd ht this
      | ok bs => rw [← h2]; exact texel_len X hk hl _ _ ht
  | none =>
    obtain ⟨h1, rfl⟩ := (block_surface X hX hk hl hp a ha img hf bytes).1 h
    obtain ⟨h2, -, h3, -⟩ := conv_block hk hl hp
    rw [rowMajor_length (s := blockSize f)]
    intro x y hx hy
    have := h1 x y hx hy
    cases ht : blockEnc X k a img (x, y) with
    | ub => exact absurd ht this
    | ok bs =>
      have := block_len X hX h2 a img _ _ ht
      rw [ha, h3] at this
      exact this

end Cuttlefish
