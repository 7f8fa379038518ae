import Verif.Proofs.TexMips
namespace Cuttlefish
open Spec
variable {Img : Type}

/-- The chain processed before number `n` ends in a custom image with `Once`, so its `prevImage`
is still set when chain `n` starts. -/
def Leak (custom : CustomMips Img) (faces levels n : Nat) : Prop :=
  0 < n ∧ 1 < levels ∧ ∃ c, custOf custom ((n-1) / faces) ((n-1) % faces) (levels - 1) = some c ∧
    c.replacement = .Once

theorem prevAt_last {L : ImageLib Img} {filter : ResizeFilter} {w h : Nat}
    {cust : Nat → Option (CustomMip Img)} {base src0 : Img} {p : Option Img} {k : Nat} (hk : 0 < k)
    {g : Img} (hg : prevAt L filter w h cust base src0 p k = some g) :
    (∃ c, cust k = some c ∧ c.replacement = .Once) ∧
    (chainFrom L filter w h cust base src0 k).2 = some g := by
  cases k with
  | zero => omega
  | succ k =>
    simp only [prevAt] at hg
    cases hc : cust (k+1) with
    | none => simp [hc] at hg
    | some c =>
      simp only [hc] at hg
      split at hg
      · rename_i ho; exact ⟨⟨c, rfl, ho⟩, hg⟩
      · simp at hg

/-- State between chains. -/
structure FlatInv (L : ImageLib Img) (t : TexImpl Img) (filter : ResizeFilter)
    (custom : CustomMips Img) (im0 : Store (Option Img)) (depth n : Nat)
    (st : Store (Option Img) × Option Img) : Prop where
  shape : Shape t st.1 t.mipLevels depth
  keep : ∀ m d f, (m = 0 ∨ ¬ (d * t.faces + f < n) ∨ t.faces ≤ f) → st.1.at? m d f = im0.at? m d f
  done : ∀ d f, f < t.faces → d * t.faces + f < n → ∃ base src0,
    im0.at? 0 d f = some (some base) ∧ L.isRGBAF src0 = true ∧
    (src0 = base ∨ Leak custom t.faces t.mipLevels (d * t.faces + f)) ∧
    ∀ m, 1 ≤ m → m < t.mipLevels → st.1.at? m d f =
      some (chainFrom L filter t.width t.height (custOf custom d f) base src0 m).1
  prev : ∀ g, st.2 = some g → L.isRGBAF g = true ∧ Leak custom t.faces t.mipLevels n

theorem divmod_face {faces d f : Nat} (h : f < faces) :
    (d * faces + f) / faces = d ∧ (d * faces + f) % faces = f := by
  have hp : 0 < faces := by omega
  constructor
  · rw [Nat.mul_comm, Nat.mul_add_div hp, Nat.div_eq_of_lt h]; omega
  · rw [Nat.mul_comm, Nat.mul_add_mod, Nat.mod_eq_of_lt h]

theorem flat_step {L : ImageLib Img} (hL : Lawful L) {t : TexImpl Img} {filter : ResizeFilter}
    {custom : CustomMips Img} (hgood : GoodCustom L filter custom)
    (hw : 0 < t.width) (hh : 0 < t.height) (hl1 : 1 ≤ t.mipLevels) (hl : t.mipLevels ≤ 32)
    {depth : Nat} {im0 : Store (Option Img)}
    (hbase : ∀ d f, d < depth → f < t.faces → ∃ base, im0.at? 0 d f = some (some base) ∧
      L.isRGBAF base = true)
    {d f : Nat} (hd : d < depth) (hf : f < t.faces) {st : Store (Option Img) × Option Img}
    (hi : FlatInv L t filter custom im0 depth (d * t.faces + f) st) :
    ∃ st', forRes (mipRange t.mipLevels)
        (fun mip => genMipStep L t filter custom d f mip (CubeFace.ofIndex f)) st = .ok st' ∧
      FlatInv L t filter custom im0 depth (d * t.faces + f + 1) st' := by
  obtain ⟨im, p⟩ := st
  obtain ⟨base, hb0, hbf⟩ := hbase d f hd hf
  have hb : im.at? 0 d f = some (some base) := by
    have := hi.keep 0 d f (Or.inl rfl)
    rw [← hb0]; exact this
  obtain ⟨st', h1, h2, h3, h4⟩ := genChain hL hgood hw hh hl1 hl hd hf hi.shape hb hbf
    (p := p) (fun g hg => (hi.prev g hg).1)
  have hdm := divmod_face (d := d) hf
  have huniq : ∀ d' f', f' < t.faces → d' * t.faces + f' = d * t.faces + f → d' = d ∧ f' = f := by
    intro d' f' hf' he
    have h' := divmod_face (d := d') hf'
    rw [he] at h'
    exact ⟨by rw [← h'.1, hdm.1], by rw [← h'.2, hdm.2]⟩
  refine ⟨st', h1, h3, ?_, ?_, ?_⟩
  · intro m' d' f' hc
    rw [h2, if_neg]
    · exact hi.keep m' d' f' (by
        rcases hc with h | h | h
        · exact Or.inl h
        · exact Or.inr (Or.inl (by omega))
        · exact Or.inr (Or.inr h))
    · rintro ⟨rfl, rfl, hm, -⟩
      omega
  · intro d' f' hf' hn
    by_cases he : d' * t.faces + f' = d * t.faces + f
    · obtain ⟨rfl, rfl⟩ := huniq d' f' hf' he
      refine ⟨base, p.getD base, hb0, ?_, ?_, ?_⟩
      · cases hp : p with
        | none => exact hbf
        | some g => exact (hi.prev g (by simp [hp])).1
      · cases hp : p with
        | none => left; rfl
        | some g => right; exact (hi.prev g (by simp [hp])).2
      · intro m hm hm'
        rw [h2, if_pos ⟨rfl, rfl, hm, hm'⟩]
    · obtain ⟨b, s, i1, i2, i3, i4⟩ := hi.done d' f' hf' (by omega)
      refine ⟨b, s, i1, i2, i3, fun m hm hm' => ?_⟩
      rw [h2, if_neg]
      · exact i4 m hm hm'
      · rintro ⟨rfl, rfl, -, -⟩; exact he rfl
  · intro g hg
    rw [h4] at hg
    by_cases hl2 : t.mipLevels = 1
    · rw [hl2] at hg
      simp only [Nat.sub_self, prevAt] at hg
      have := (hi.prev g hg).2
      have := this.2.1
      omega
    · have hk : 0 < t.mipLevels - 1 := by omega
      obtain ⟨hc, hsrc⟩ := prevAt_last hk hg
      refine ⟨?_, ?_⟩
      · have hsrc0 : L.isRGBAF (p.getD base) = true := by
          cases hp : p with
          | none => exact hbf
          | some g => exact (hi.prev g (by simp [hp])).1
        obtain ⟨⟨g', hg', hgf⟩, -⟩ := chainFrom_ok hL hw hh
          (cust := custOf custom d f) (base := base) (filter := filter)
          (fun m c hc => hgood _ (find_mem hc)) hsrc0 (t.mipLevels - 1)
        rw [hsrc] at hg'
        simp only [Option.some.injEq] at hg'
        rw [hg']; exact hgf
      · refine ⟨by omega, by omega, ?_⟩
        rw [Nat.add_sub_cancel, hdm.1, hdm.2]
        exact hc

theorem flat_all {L : ImageLib Img} (hL : Lawful L) {t : TexImpl Img} {filter : ResizeFilter}
    {custom : CustomMips Img} (hgood : GoodCustom L filter custom)
    (hw : 0 < t.width) (hh : 0 < t.height) (hl1 : 1 ≤ t.mipLevels) (hl : t.mipLevels ≤ 32)
    {depth : Nat} {im0 : Store (Option Img)} (hs : Shape t im0 t.mipLevels depth)
    (hbase : ∀ d f, d < depth → f < t.faces → ∃ base, im0.at? 0 d f = some (some base) ∧
      L.isRGBAF base = true) :
    ∃ st', forRes (List.range depth) (fun d => forRes (List.range t.faces) (fun f =>
      forRes (mipRange t.mipLevels)
        (fun mip => genMipStep L t filter custom d f mip (CubeFace.ofIndex f))))
        (im0, none) = .ok st' ∧
      FlatInv L t filter custom im0 depth (depth * t.faces) st' := by
  rw [List.range_eq_range' (n := depth)]
  obtain ⟨s, h1, h2⟩ := forRes_range
    (P := fun d st => FlatInv L t filter custom im0 depth (d * t.faces) st)
    (fun d => forRes (List.range t.faces) (fun f =>
      forRes (mipRange t.mipLevels)
        (fun mip => genMipStep L t filter custom d f mip (CubeFace.ofIndex f))))
    depth 0 (im0, none)
    ⟨hs, fun _ _ _ _ => rfl, fun d f _ h => by omega, fun g hg => by simp at hg⟩
    (by
      intro d st _ hd hi
      rw [List.range_eq_range']
      obtain ⟨s', a1, a2⟩ := forRes_range
        (P := fun f st => FlatInv L t filter custom im0 depth (d * t.faces + f) st)
        (fun f => forRes (mipRange t.mipLevels)
          (fun mip => genMipStep L t filter custom d f mip (CubeFace.ofIndex f)))
        t.faces 0 st (by simpa using hi)
        (fun f st _ hf hi => flat_step hL hgood hw hh hl1 hl hbase (by omega) (by omega) hi)
      refine ⟨s', a1, ?_⟩
      rw [Nat.add_mul, Nat.one_mul]
      simpa using a2)
  exact ⟨s, h1, by simpa using h2⟩

theorem vresize_getElem? {α : Type} (l : List α) (n : Nat) (x : α) (k : Nat) :
    (vresize l n x)[k]? = if k < n then some (l[k]?.getD x) else none := by
  unfold vresize
  by_cases hk : k < n
  · rw [if_pos hk]
    by_cases hl : k < l.length
    · rw [List.getElem?_append_left (by simp; omega), List.getElem?_take_of_lt hk,
        List.getElem?_eq_getElem hl]; rfl
    · rw [List.getElem?_append_right (by simp; omega), List.getElem?_replicate,
        List.getElem?_eq_none (by omega)]
      simp only [List.length_take, Option.getD_none]
      rw [if_pos (by omega)]
  · rw [if_neg hk, List.getElem?_eq_none]
    simp; omega

theorem vresize_length {α : Type} (l : List α) (n : Nat) (x : α) : (vresize l n x).length = n := by
  simp [vresize]; omega

theorem depthExtent_flat {dim : Dimension} (h : dim ≠ .Dim3D) (d m : Nat) :
    depthExtent dim d m = max d 1 := by
  unfold depthExtent; rw [if_neg h]; split <;> omega

/-- `genMipsFlat` as a whole. -/
theorem genMipsFlat_ok {L : ImageLib Img} (hL : Lawful L) {i : TexImpl Img} (hI : Inv L i)
    (h3 : i.dimension ≠ .Dim3D)
    {filter : ResizeFilter} {custom : CustomMips Img} (hgood : GoodCustom L filter custom)
    {levels : Nat} (hl1 : 1 ≤ levels)
    (hl : levels ≤ maxMipmapLevels i.dimension i.width i.height i.depth)
    (hbase : ∀ d f, d < max i.depth 1 → f < i.faces → ∃ base, i.images.at? 0 d f = some (some base)) :
    ∃ images, genMipsFlat L { i with mipLevels := levels, images := vresize i.images levels [] }
        filter custom = .ok images ∧
      Shape i images levels (max i.depth 1) ∧
      (∀ d f, images.at? 0 d f = i.images.at? 0 d f) ∧
      ∀ d f, d < max i.depth 1 → f < i.faces → ∃ base src0,
        i.images.at? 0 d f = some (some base) ∧ L.isRGBAF src0 = true ∧
        (src0 = base ∨ Leak custom i.faces levels (d * i.faces + f)) ∧
        ∀ m, 1 ≤ m → m < levels → images.at? m d f =
          some (chainFrom L filter i.width i.height (custOf custom d f) base src0 m).1 := by
  have hm32 := maxMip_le i.dimension i.width i.height i.depth
  have hlen := hI.len
  have hmips := hI.mips.1
  -- the store after the set-up loop
  let im0 : Store (Option Img) := List.mapIdx (fun mip ds => if mip = 0 then ds
    else (vresize ds (max i.depth 1) []).map (fun fs => vresize fs i.faces none))
    (vresize i.images levels [])
  have him0 : ∀ (m : Nat), im0[m]? = if m < levels then
      some (if m = 0 then i.images[0]?.getD []
        else (vresize (i.images[m]?.getD []) (max i.depth 1) []).map
          (fun fs => vresize fs i.faces none)) else none := by
    intro m
    show (List.mapIdx _ _)[m]? = _
    rw [List.getElem?_mapIdx, vresize_getElem?]
    by_cases hm : m < levels
    · by_cases h0 : m = 0
      · subst h0; simp [hm]
      · simp [h0, hm]
    · simp [hm]
  have h0len : 0 < List.length i.images := by omega
  have h00 : i.images[0]? = some (i.images[0]'h0len) := List.getElem?_eq_getElem h0len
  have hd0 := hI.depths 0 _ h00
  have hd0l := hd0.2.1 (Or.inr rfl)
  rw [depthExtent_flat h3] at hd0l
  have him00 : im0[0]? = i.images[0]? := by rw [him0, if_pos (by omega), if_pos rfl, h00]; rfl
  have hat0 : ∀ d f, im0.at? 0 d f = i.images.at? 0 d f := by
    intro d f; unfold Store.at?; rw [him00]
  let i' : TexImpl Img := { i with mipLevels := levels, images := vresize i.images levels [] }
  have hshape : Shape i' im0 levels (max i.depth 1) := by
    refine ⟨?_, ?_, ?_⟩
    · show (List.mapIdx _ _).length = _
      rw [List.length_mapIdx, vresize_length]
    · intro m hm
      rw [him0, if_pos hm]
      by_cases h0 : m = 0
      · subst h0; rw [if_pos rfl, h00]; simp [hd0l]
      · rw [if_neg h0]; simp [vresize_length]
    · intro m d hm hd
      unfold Store.facesAt
      rw [him0, if_pos hm]
      by_cases h0 : m = 0
      · subst h0; rw [if_pos rfl, h00]
        simp only [Option.getD_some, Option.bind_some]
        have hd' : d < (i.images[0]'h0len).length := by omega
        rw [List.getElem?_eq_getElem hd']
        simp only [Option.map_some, Option.some.injEq]
        exact hd0.2.2 _ (List.getElem_mem hd')
      · rw [if_neg h0]
        simp only [Option.bind_some, List.getElem?_map, vresize_getElem?, if_pos hd,
          Option.map_some, vresize_length]
        rfl
  have hbase' : ∀ d f, d < max i.depth 1 → f < i'.faces → ∃ base,
      im0.at? 0 d f = some (some base) ∧ L.isRGBAF base = true := by
    intro d f hd hf
    obtain ⟨base, hb⟩ := hbase d f hd hf
    exact ⟨base, by rw [hat0, hb], (hI.imgs 0 d f base hb).2.2⟩
  obtain ⟨st, a1, a2⟩ := flat_all hL (t := i') hgood hI.w.1 hI.h.1 hl1 (by show levels ≤ 32; omega)
    hshape hbase'
  refine ⟨st.1, ?_, ⟨a2.shape.len, a2.shape.ds, a2.shape.fs⟩, ?_, ?_⟩
  · unfold genMipsFlat
    have a1' := a1
    simp only at a1' ⊢
    show (forRes _ _ (im0, none) >>= _) = _
    rw [show (forRes _ _ (im0, none)) = Res.ok st from a1']; rfl
  · intro d f; rw [a2.keep 0 d f (Or.inl rfl), hat0]
  · intro d f hd hf
    have hn : d * i.faces + f < max i.depth 1 * i.faces := by
      calc d * i.faces + f < d * i.faces + i.faces := by omega
        _ = (d+1) * i.faces := by ring
        _ ≤ _ := Nat.mul_le_mul_right _ (by omega)
    obtain ⟨base, src0, b1, b2, b3, b4⟩ := a2.done d f hf hn
    refine ⟨base, src0, ?_, b2, b3, ?_⟩
    · rw [← hat0]; exact b1
    · intro m hm hm'; exact b4 m hm hm'

end Cuttlefish
