import Verif.Proofs.TexWeak
/-
Memory safety of mip generation and of every call, without assumptions on custom mip images for
textures that are not 3D.
-/
namespace Cuttlefish
open Spec
variable {Img : Type}

/-- Every stored image has the size of its level and is RGBAF. -/
def ImgsOK (L : ImageLib Img) (w h : Nat) (s : Store (Option Img)) : Prop :=
  ∀ m d f g, s.at? m d f = some (some g) →
    L.width g = extent w m ∧ L.height g = extent h m ∧ L.isRGBAF g = true

structure SafeSt (L : ImageLib Img) (t : TexImpl Img) (depth : Nat)
    (st : Store (Option Img) × Option Img) : Prop where
  shape : Shape t st.1 t.mipLevels depth
  imgs : ImgsOK L t.width t.height st.1
  prev : ∀ g, st.2 = some g → L.isRGBAF g = true

theorem shape_set {t : TexImpl Img} {s s' : Store (Option Img)} {levels depth m d f : Nat}
    {a : Option Img} (h : Shape t s levels depth) (hs : s.set m d f a = .ok s')
    (hsome : (s.at? m d f).isSome) : Shape t s' levels depth := by
  obtain ⟨s'', h1, -, h3, h4, h5⟩ := Store.set_ok (a := a) hsome
  rw [h1] at hs; cases hs
  exact ⟨by rw [h3, h.len], fun m hm => by rw [h4]; exact h.ds m hm,
    fun m d hm hd => by rw [h5]; exact h.fs m d hm hd⟩

theorem customResult_ok {L : ImageLib Img} (hL : Lawful L) {c : CustomMip Img} {w h : Nat}
    {filter : ResizeFilter} {g : Img} (hg : customResult L c w h filter = some g) :
    L.width g = w ∧ L.height g = h ∧ L.isRGBAF g = true := by
  rw [customResult_eq] at hg
  unfold fit at hg
  simp only [Option.bind_eq_some_iff] at hg
  obtain ⟨x, -, r, hr, hg⟩ := hg
  have h1 := hL.resize _ _ _ _ _ hr
  split at hg
  · rename_i hf
    simp only [Option.some.injEq] at hg; subst hg
    exact ⟨h1.1, h1.2.1, hf⟩
  · have h2 := hL.toRGBAF _ _ hg
    exact ⟨h2.1.trans h1.1, h2.2.1.trans h1.2.1, h2.2.2⟩

theorem genMipImage_safe {L : ImageLib Img} (hL : Lawful L) {t : TexImpl Img} {depth : Nat}
    {st : Store (Option Img) × Option Img} (hi : SafeSt L t depth st) {d f mip w h : Nat}
    {filter : ResizeFilter} (hm : 1 ≤ mip ∧ mip < t.mipLevels) (hd : d < depth) (hf : f < t.faces) :
    ∃ o, genMipImage L st.1 st.2 d f mip w h filter = .ok o ∧
      ∀ g, o = some g → L.width g = w ∧ L.height g = h ∧ L.isRGBAF g = true := by
  unfold genMipImage
  cases hp : st.2 with
  | some p =>
    refine ⟨_, rfl, ?_⟩
    intro g hg
    have := hL.resize _ _ _ _ _ hg
    exact ⟨this.1, this.2.1, by rw [this.2.2]; exact hi.prev p hp⟩
  | none =>
    have hsome : (st.1.at? (mip-1) d f).isSome :=
      Store.at?_isSome.2 ⟨t.faces, hi.shape.fs _ _ (by omega) hd, hf⟩
    obtain ⟨src, hsrc⟩ := Option.isSome_iff_exists.1 hsome
    refine ⟨L.resizeO src w h filter, ?_, ?_⟩
    · simp only [Store.get_ok.2 hsrc, Res.ok_bind, Res.pure_eq]
    · intro g hg
      cases src with
      | none => simp [ImageLib.resizeO] at hg
      | some s =>
        have := hL.resize _ _ _ _ _ hg
        exact ⟨this.1, this.2.1, by rw [this.2.2]; exact (hi.imgs _ _ _ _ hsrc).2.2⟩

theorem genMipStep_safe {L : ImageLib Img} (hL : Lawful L) {t : TexImpl Img} {depth : Nat}
    {filter : ResizeFilter} {custom : CustomMips Img} {face : CubeFace}
    (hw : 0 < t.width) (hh : 0 < t.height) (hl : t.mipLevels ≤ 32)
    {st : Store (Option Img) × Option Img} (hi : SafeSt L t depth st) {d f mip : Nat}
    (hm : 1 ≤ mip ∧ mip < t.mipLevels) (hd : d < depth) (hf : f < t.faces) :
    ∃ st', genMipStep L t filter custom d f mip face st = .ok st' ∧ SafeSt L t depth st' := by
  have e1 : Tex.widthAt (some t) mip = .ok (extent t.width mip) := by
    unfold Tex.widthAt
    simp only [ge_iff_le, Nat.not_le.2 hm.2, if_false]
    exact mipExtent_ok _ _ hw (by omega)
  have e2 : Tex.heightAt (some t) mip = .ok (extent t.height mip) := by
    unfold Tex.heightAt
    simp only [ge_iff_le, Nat.not_le.2 hm.2, if_false]
    exact mipExtent_ok _ _ hh (by omega)
  have hsome : (st.1.at? mip d f).isSome :=
    Store.at?_isSome.2 ⟨t.faces, hi.shape.fs _ _ hm.2 hd, hf⟩
  have key : ∀ (o : Option Img) (p : Option Img),
      (∀ g, o = some g → L.width g = extent t.width mip ∧ L.height g = extent t.height mip ∧
        L.isRGBAF g = true) → (∀ g, p = some g → L.isRGBAF g = true) →
      ∃ st', (st.1.set mip d f o >>= fun images' => (pure (images', p) : Res _)) = .ok st' ∧
        SafeSt L t depth st' := by
    intro o p ho hp
    obtain ⟨s', h1, h2, -⟩ := Store.set_ok (a := o) hsome
    refine ⟨(s', p), by rw [h1]; rfl, shape_set hi.shape h1 hsome, ?_, hp⟩
    intro m' d' f' g hg
    rw [h2] at hg
    split at hg
    · rename_i he; obtain ⟨rfl, rfl, rfl⟩ := he
      simp only [Option.some.injEq] at hg
      exact ho g hg
    · exact hi.imgs _ _ _ _ hg
  unfold genMipStep
  rw [e1, e2]
  simp only [Res.ok_bind]
  obtain ⟨o, ho1, ho2⟩ := genMipImage_safe hL hi (w := extent t.width mip)
    (h := extent t.height mip) (filter := filter) hm hd hf
  cases hc : CustomMips.find custom ⟨face, mip, d⟩ with
  | none =>
    simp only [ho1, Res.ok_bind]
    exact key _ _ ho2 (by simp)
  | some c =>
    simp only
    split
    · simp only [ho1, Res.ok_bind]
      exact key _ _ (fun g hg => customResult_ok hL hg) (fun g hg => (ho2 g hg).2.2)
    · exact key _ _ (fun g hg => customResult_ok hL hg) (by simp)

theorem flat_safe {L : ImageLib Img} (hL : Lawful L) {t : TexImpl Img} {depth : Nat}
    {filter : ResizeFilter} {custom : CustomMips Img}
    (hw : 0 < t.width) (hh : 0 < t.height) (hl1 : 1 ≤ t.mipLevels) (hl : t.mipLevels ≤ 32)
    {st : Store (Option Img) × Option Img} (hi : SafeSt L t depth st) :
    ∃ st', forRes (List.range depth) (fun d => forRes (List.range t.faces) (fun f =>
      forRes (mipRange t.mipLevels)
        (fun mip => genMipStep L t filter custom d f mip (CubeFace.ofIndex f)))) st = .ok st' ∧
      SafeSt L t depth st' := by
  rw [List.range_eq_range' (n := depth)]
  obtain ⟨s, h1, h2⟩ := forRes_range (P := fun _ st => SafeSt L t depth st)
    (fun d => forRes (List.range t.faces) (fun f =>
      forRes (mipRange t.mipLevels)
        (fun mip => genMipStep L t filter custom d f mip (CubeFace.ofIndex f))))
    depth 0 st hi
    (by
      intro d st _ hd hi
      rw [List.range_eq_range']
      exact forRes_range (P := fun _ st => SafeSt L t depth st)
        (fun f => forRes (mipRange t.mipLevels)
          (fun mip => genMipStep L t filter custom d f mip (CubeFace.ofIndex f)))
        t.faces 0 st hi
        (by
          intro f st _ hf hi
          rw [mipRange_eq]
          exact forRes_range (P := fun _ st => SafeSt L t depth st)
            (fun mip => genMipStep L t filter custom d f mip (CubeFace.ofIndex f))
            (t.mipLevels - 1) 1 st hi
            (by
              intro mip st h1 h2 hi
              exact genMipStep_safe hL hw hh hl hi ⟨h1, by omega⟩ (by omega) (by omega))))
  exact ⟨s, h1, h2⟩

theorem genMipsFlat_safe {L : ImageLib Img} (hL : Lawful L) {i : TexImpl Img} (hI : Inv L i)
    (h3 : i.dimension ≠ .Dim3D) {filter : ResizeFilter} {custom : CustomMips Img}
    {levels : Nat} (hl1 : 1 ≤ levels)
    (hl : levels ≤ maxMipmapLevels i.dimension i.width i.height i.depth) :
    ∃ images, genMipsFlat L { i with mipLevels := levels, images := vresize i.images levels [] }
        filter custom = .ok images ∧
      Shape i images levels (max i.depth 1) ∧ ImgsOK L i.width i.height images := by
  have hm32 := maxMip_le i.dimension i.width i.height i.depth
  have hlen := hI.len
  have hmips := hI.mips.1
  let im0 : Store (Option Img) := List.mapIdx (fun mip ds => if mip = 0 then ds
    else (vresize ds (max i.depth 1) []).map (fun fs => vresize fs i.faces none))
    (vresize i.images levels [])
  have him0 : ∀ (m : Nat), im0[m]? = if m < levels then
      some (if m = 0 then i.images[0]?.getD []
        else (vresize (i.images[m]?.getD []) (max i.depth 1) []).map
          (fun fs => vresize fs i.faces none)) else none := by
    intro m
    show (List.mapIdx _ _)[m]? = _
    rw [List.getElem?_mapIdx, vresize_getElem?]
    by_cases hm : m < levels
    · by_cases h0 : m = 0
      · subst h0; simp [hm]
      · simp [h0, hm]
    · simp [hm]
  obtain ⟨ds0, h00, hd0l, hfs0⟩ := images0 hI
  rw [depthExtent_flat h3] at hd0l
  let i' : TexImpl Img := { i with mipLevels := levels, images := vresize i.images levels [] }
  have hshape : Shape i' im0 levels (max i.depth 1) := by
    refine ⟨?_, ?_, ?_⟩
    · show (List.mapIdx _ _).length = _
      rw [List.length_mapIdx, vresize_length]
    · intro m hm
      rw [him0, if_pos hm]
      by_cases h0 : m = 0
      · subst h0; rw [if_pos rfl, h00]; simp [hd0l]
      · rw [if_neg h0]; simp [vresize_length]
    · intro m d hm hd
      unfold Store.facesAt
      rw [him0, if_pos hm]
      by_cases h0 : m = 0
      · subst h0; rw [if_pos rfl, h00]
        simp only [Option.getD_some, Option.bind_some]
        have hd' : d < ds0.length := by omega
        rw [List.getElem?_eq_getElem hd']
        simp only [Option.map_some, Option.some.injEq]
        exact hfs0 _ (List.getElem_mem hd')
      · rw [if_neg h0]
        simp only [Option.bind_some, List.getElem?_map, vresize_getElem?, if_pos hd,
          Option.map_some, vresize_length]
        rfl
  have himgs : ImgsOK L i.width i.height im0 := by
    intro m d f g hg
    apply hI.imgs m d f g
    unfold Store.at? at hg ⊢
    rw [him0] at hg
    by_cases hm : m < levels
    · rw [if_pos hm] at hg
      by_cases h0 : m = 0
      · subst h0; rw [if_pos rfl, h00] at hg
        rw [h00]; exact hg
      · rw [if_neg h0] at hg
        simp only [Option.bind_some, List.getElem?_map, vresize_getElem?] at hg
        by_cases hd : d < max i.depth 1
        · rw [if_pos hd] at hg
          simp only [Option.map_some, Option.bind_some, vresize_getElem?] at hg
          by_cases hf : f < i.faces
          · rw [if_pos hf] at hg
            cases hx : i.images[m]? with
            | none => simp [hx] at hg
            | some ds =>
              simp only [hx, Option.getD_some, Option.bind_some] at hg ⊢
              cases hy : ds[d]? with
              | none => simp [hy] at hg
              | some fs =>
                simp only [hy, Option.getD_some, Option.bind_some, Option.some.injEq] at hg ⊢
                cases hz : fs[f]? with
                | none => simp [hz] at hg
                | some o => simpa [hz] using hg
          · rw [if_neg hf] at hg; simp at hg
        · rw [if_neg hd] at hg; simp at hg
    · rw [if_neg hm] at hg; simp at hg
  obtain ⟨st, a1, a2⟩ := flat_safe hL (t := i') (depth := max i.depth 1) (filter := filter)
    (custom := custom) (st := (im0, none)) hI.w.1 hI.h.1 hl1
    (by show levels ≤ 32; omega) ⟨hshape, himgs, by simp⟩
  refine ⟨st.1, ?_, ⟨a2.shape.len, a2.shape.ds, a2.shape.fs⟩, a2.imgs⟩
  unfold genMipsFlat
  have a1' := a1
  simp only at a1' ⊢
  show (forRes _ _ (im0, none) >>= _) = _
  rw [show (forRes _ _ (im0, none)) = Res.ok st from a1']; rfl

theorem inv_flat {L : ImageLib Img} {i : TexImpl Img} (hI : Inv L i) {r : Nat}
    (h3 : i.dimension ≠ .Dim3D) (hfit : TexturesFit i (genLevels i r))
    {images : Store (Option Img)} (hs : Shape i images (genLevels i r) (max i.depth 1))
    (hi : ImgsOK L i.width i.height images) :
    Inv L { i with mipLevels := genLevels i r, images } := by
  refine ⟨hI.w, hI.h, hI.d, ⟨genLevels_pos hI r, genLevels_le i r⟩, hI.faces, hs.len, ?_, hi,
    texturesOK_gen hI hfit⟩
  intro m ds hds
  simp only at hds ⊢
  have hm : m < genLevels i r := by
    rw [← hs.len]; exact (List.getElem?_eq_some_iff.1 hds).1
  have hl := hs.ds m hm
  rw [hds] at hl
  simp only [Option.map_some, Option.some.injEq] at hl
  rw [depthExtent_flat h3]
  refine ⟨by omega, fun _ => hl, ?_⟩
  intro fs hfs
  obtain ⟨d, hd, rfl⟩ := List.getElem_of_mem hfs
  have := hs.fs m d hm (by omega)
  unfold Store.facesAt at this
  rw [hds] at this
  simpa [List.getElem?_eq_getElem hd] using this

theorem tinv_gen {L : ImageLib Img} (hL : Lawful L) {t : Tex Img} (hI : TInv L t)
    {filter : ResizeFilter} {r : Nat} {custom : CustomMips Img} (hs : SafeGen L t filter r custom) :
    ∃ b t', Tex.generateMipmaps L t filter r custom = .ok (b, t') ∧ TInv L t' := by
  cases t with
  | none => exact ⟨false, none, rfl, trivial⟩
  | some i =>
    have hI : Inv L i := hI
    by_cases hok : BaseOK i ∧ CustomPtrOK custom
    · obtain ⟨hb, hc⟩ := hok
      by_cases h3 : i.dimension = .Dim3D
      · obtain ⟨hgood, hl⟩ := hs.2 h3
        obtain ⟨base, b1, b2, b3⟩ := base3d hI hb h3
        obtain ⟨ok, images, g1, g2, g3, g4, g5, g6⟩ := gen_3d hL hI (r := r) hgood hb h3 b1 b2 b3
        refine ⟨ok, _, g1, ?_⟩
        refine inv_gen_3d hL hI hgood h3 hs.1 (base := base) g2 g3 ?_
        intro m hm1 hm2
        cases ok with
        | true => exact Or.inl ⟨(g4.1 rfl) m hm1 hm2, g5 rfl m hm2⟩
        | false =>
          obtain ⟨j, j1, j2, j3, j4⟩ := g6 rfl
          by_cases hj : m < j
          · exact Or.inl (j3 m hm1 hj)
          · right
            rcases hl with hl | hl
            · have hm3 : m < List.length i.images := by rw [hI.len]; omega
              rw [j4 m (by omega) hm2, List.getElem?_eq_getElem hm3]; rfl
            · exact absurd (g4.2 hl) (by simp)
      · obtain ⟨images, g1, g2, g3⟩ := genMipsFlat_safe hL hI h3 (filter := filter)
          (custom := custom) (genLevels_pos hI r) (genLevels_le i r)
        refine ⟨true, some { i with mipLevels := genLevels i r, images }, ?_, inv_flat hI h3 hs.1 g2 g3⟩
        rw [gen_accept_flat hI hb hc h3, g1]; rfl
    · exact ⟨false, some i, gen_reject hI hok, hI⟩

theorem tinv_convert {W : World Img} {t : Tex Img} (hI : TInv W.lib t) {f : Format} {ty : TType}
    {q : Quality} {al : Alpha} {m : ColorMask} {th : Nat} (hs : SafeConv W t f ty) :
    ∃ b t', Tex.convert W.feat W.hw W.enc t f ty q al m th = .ok (b, t') ∧ TInv W.lib t' := by
  by_cases h : t.imagesComplete = true ∧ isFormatValid W.feat f ty = true ∧
      (t.colorSpace = .Linear ∨ hasNativeSRGB f ty = true)
  · cases t with
    | none => simp [Tex.imagesComplete] at h
    | some i =>
      obtain ⟨h1, h2, h3⟩ := h
      rw [valid_iff_converter] at h2
      obtain ⟨k, hk⟩ := Option.isSome_iff_exists.1 h2
      obtain ⟨textures, c1, c2, -⟩ := convert_ok (W := W) (q := q) (al := al) (m := m) (th := th)
        h1 hk h3 (by
          intro ds hds fs hfs g hg
          exact hs k _ hk ds hds fs hfs g hg)
      exact ⟨_, _, c1, inv_converted hI c2⟩
  · exact ⟨false, t, convert_reject h, hI⟩

theorem getImage_ok {L : ImageLib Img} {t : Tex Img} (hI : TInv L t) (face : Option CubeFace)
    (m d : Nat) : ∃ g, t.getImage face m d = .ok g := by
  cases t with
  | none => exact ⟨none, getImage_none ..⟩
  | some i =>
    by_cases h : ∃ f, HasSlot i face m d f
    · obtain ⟨f, h⟩ := h
      obtain ⟨g, -, hg⟩ := getImage_slot hI h
      exact ⟨g, hg⟩
    · exact ⟨none, getImage_noSlot hI (fun f hf => h ⟨f, hf⟩)⟩

theorem data_total {L : ImageLib Img} {t : Tex Img} (hI : TInv L t) (face : Option CubeFace)
    (m d : Nat) : ∃ b, t.data face m d = .ok b := by
  cases t with
  | none => exact ⟨none, data_none ..⟩
  | some i =>
    by_cases h : Tex.converted (some i) = true ∧ ∃ f, HasSlot i face m d f
    · obtain ⟨hc, f, h⟩ := h
      obtain ⟨g, -, hg⟩ := data_slot hI hc h
      exact ⟨_, hg⟩
    · refine ⟨none, data_noSlot hI ?_⟩
      by_cases hc : Tex.converted (some i) = true
      · exact Or.inr (fun f hf => h ⟨hc, f, hf⟩)
      · exact Or.inl (by simpa using hc)

/-- A safe call is defined and keeps the invariant. -/
theorem tinv_call {W : World Img} (hL : Lawful W.lib) {t : Tex Img} (hI : TInv W.lib t)
    {o : Op Img} (hs : SafeCall W t o) : ∃ out t', call W t o = .ok (out, t') ∧ TInv W.lib t' := by
  cases o with
  | «initialize» dim w h d m cs =>
    exact ⟨_, _, rfl, inv_initialize t dim w h d m cs hs.1 hs.2.1 hs.2.2⟩
  | reset => exact ⟨_, _, rfl, trivial⟩
  | setImage img mv face m d =>
    obtain ⟨b, t', h1, h2⟩ := tinv_setImage hL hI (img := img) (mv := mv) (face := face) (m := m) (d := d)
    exact ⟨_, t', by simp only [call, h1]; rfl, h2⟩
  | generateMipmaps filter r custom =>
    obtain ⟨b, t', h1, h2⟩ := tinv_gen hL hI hs
    exact ⟨_, t', by simp only [call, h1]; rfl, h2⟩
  | convert f ty q al m th =>
    obtain ⟨b, t', h1, h2⟩ := tinv_convert hI (q := q) (al := al) (m := m) (th := th) hs
    exact ⟨_, t', by simp only [call, h1]; rfl, h2⟩
  | getImage face m d =>
    obtain ⟨g, h1⟩ := getImage_ok hI face m d
    exact ⟨_, t, by simp only [call, h1]; rfl, hI⟩
  | extents m =>
    cases t with
    | none => exact ⟨_, none, rfl, trivial⟩
    | some i =>
      exact ⟨_, some i, by simp only [call, widthAt_eq hI, heightAt_eq hI, depthAt_eq hI]; rfl, hI⟩
  | data face m d =>
    obtain ⟨b, h1⟩ := data_total hI face m d
    exact ⟨_, t, by simp only [call, Tex.dataSize, h1]; rfl, hI⟩

theorem tinv_run {W : World Img} (hL : Lawful W.lib) : ∀ (os : List (Op Img)) {t : Tex Img},
    TInv W.lib t → SafeHist W t os → ∃ outs t', run W t os = .ok (outs, t') ∧ TInv W.lib t'
  | [], t, hI, _ => ⟨[], t, rfl, hI⟩
  | o :: os, t, hI, hs => by
    obtain ⟨out, t', h1, h2⟩ := tinv_call hL hI hs.1
    obtain ⟨outs, t'', h3, h4⟩ := tinv_run hL os h2 (hs.2 out t' h1)
    exact ⟨out :: outs, t'', by simp only [run, h1, Res.ok_bind, h3]; rfl, h4⟩

end Cuttlefish
