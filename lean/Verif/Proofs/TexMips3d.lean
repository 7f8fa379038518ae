import Verif.Proofs.TexMipsFlat
namespace Cuttlefish
open Spec
variable {Img : Type}

theorem scan_absent (custom : CustomMips Img) (mip : Nat) (r : MipReplacement) :
    ∀ n k, 0 < k → (∀ d, k ≤ d → d < k + n → CustomMips.find custom ⟨.PosX, mip, d⟩ = none) →
      customScan3d custom mip (List.range' k n) (false, r) = some (false, r)
  | 0, _, _, _ => rfl
  | n+1, k, hk, h => by
    rw [List.range'_succ]
    simp only [customScan3d, h k (Nat.le_refl k) (by omega), Bool.false_eq_true, if_false]
    exact scan_absent custom mip r n (k+1) (by omega) (fun d h1 h2 => h d (by omega) (by omega))

theorem scan_absent_inv (custom : CustomMips Img) (mip : Nat) (r : MipReplacement) :
    ∀ n k x, 0 < k → customScan3d custom mip (List.range' k n) (false, r) = some x →
      (∀ d, k ≤ d → d < k + n → CustomMips.find custom ⟨.PosX, mip, d⟩ = none)
  | 0, _, _, _, _ => fun d h1 h2 => by omega
  | n+1, k, x, hk, h => by
    rw [List.range'_succ] at h
    simp only [customScan3d] at h
    cases hf : CustomMips.find custom ⟨.PosX, mip, k⟩ with
    | some c =>
      rw [hf] at h
      simp only at h
      rw [if_neg (by omega)] at h
      simp at h
    | none =>
      rw [hf] at h
      simp only [Bool.false_eq_true, if_false] at h
      have ih := scan_absent_inv custom mip r n (k+1) x (by omega) h
      intro d h1 h2
      by_cases hd : d = k
      · subst hd; exact hf
      · exact ih d (by omega) (by omega)

theorem scan_present (custom : CustomMips Img) (mip : Nat) (r : MipReplacement) :
    ∀ n k, 0 < k → (∀ d, k ≤ d → d < k + n →
        ∃ c, CustomMips.find custom ⟨.PosX, mip, d⟩ = some c ∧ c.replacement = r) →
      customScan3d custom mip (List.range' k n) (true, r) = some (true, r)
  | 0, _, _, _ => rfl
  | n+1, k, hk, h => by
    obtain ⟨c, hc, hr⟩ := h k (Nat.le_refl k) (by omega)
    rw [List.range'_succ]
    simp only [customScan3d, hc]
    rw [if_neg (by omega), if_neg (by simp [hr])]
    exact scan_present custom mip r n (k+1) (by omega) (fun d h1 h2 => h d (by omega) (by omega))

theorem scan_present_inv (custom : CustomMips Img) (mip : Nat) (r : MipReplacement) :
    ∀ n k x, 0 < k → customScan3d custom mip (List.range' k n) (true, r) = some x →
      (∀ d, k ≤ d → d < k + n →
        ∃ c, CustomMips.find custom ⟨.PosX, mip, d⟩ = some c ∧ c.replacement = r)
  | 0, _, _, _, _ => fun d h1 h2 => by omega
  | n+1, k, x, hk, h => by
    rw [List.range'_succ] at h
    simp only [customScan3d] at h
    cases hf : CustomMips.find custom ⟨.PosX, mip, k⟩ with
    | none => rw [hf] at h; simp at h
    | some c =>
      rw [hf] at h
      simp only at h
      rw [if_neg (by omega)] at h
      split at h
      · simp at h
      · rename_i hr
        simp only [Bool.not_true, Bool.false_eq_true, ne_eq, false_or, Bool.or_eq_true,
          decide_eq_true_eq, not_not] at hr
        have ih := scan_present_inv custom mip r n (k+1) x (by omega) h
        intro d h1 h2
        by_cases hd : d = k
        · subst hd; exact ⟨c, hf, hr.symm⟩
        · exact ih d (by omega) (by omega)

theorem scan_consistent {custom : CustomMips Img} {mip n : Nat} (hn : 0 < n)
    (h : consistent3d (CustomMips.find custom) mip n) :
    customScan3d custom mip (List.range n) (false, .Once) =
      some (match CustomMips.find custom ⟨.PosX, mip, 0⟩ with
        | none => (false, .Once)
        | some c => (true, c.replacement)) := by
  obtain ⟨n, rfl⟩ : ∃ k, n = k + 1 := ⟨n-1, by omega⟩
  rw [List.range_eq_range', List.range'_succ]
  simp only [customScan3d]
  rcases h with h | ⟨r, h⟩
  · rw [h 0 (by omega)]
    simp only [Bool.false_eq_true, if_false]
    exact scan_absent custom mip _ n 1 (by omega) (fun d h1 h2 => h d (by omega))
  · obtain ⟨c, hc, hr⟩ := h 0 (by omega)
    rw [hc]
    simp only [if_true]
    apply scan_present custom mip _ n 1 (by omega)
    intro d h1 h2
    obtain ⟨c', hc', hr'⟩ := h d (by omega)
    exact ⟨c', hc', by rw [hr', hr]⟩

theorem scan_inconsistent {custom : CustomMips Img} {mip n : Nat} (hn : 0 < n)
    (h : ¬ consistent3d (CustomMips.find custom) mip n) :
    customScan3d custom mip (List.range n) (false, .Once) = none := by
  by_contra hne
  obtain ⟨x, hx⟩ := Option.ne_none_iff_exists'.1 hne
  apply h
  obtain ⟨n, rfl⟩ : ∃ k, n = k + 1 := ⟨n-1, by omega⟩
  rw [List.range_eq_range', List.range'_succ] at hx
  simp only [customScan3d] at hx
  cases hf : CustomMips.find custom ⟨.PosX, mip, 0⟩ with
  | none =>
    rw [hf] at hx
    simp only [Bool.false_eq_true, if_false] at hx
    have := scan_absent_inv custom mip _ n 1 x (by omega) hx
    left
    intro d hd
    by_cases h0 : d = 0
    · subst h0; exact hf
    · exact this d (by omega) (by omega)
  | some c =>
    rw [hf] at hx
    simp only [if_true] at hx
    have := scan_present_inv custom mip _ n 1 x (by omega) hx
    right
    refine ⟨c.replacement, ?_⟩
    intro d hd
    by_cases h0 : d = 0
    · subst h0; exact ⟨c, hf, rfl⟩
    · exact this d (by omega) (by omega)

/-- A list of valid RGBAF images. -/
def AllRGBAF (L : ImageLib Img) (l : List (Option Img)) : Prop :=
  ∀ o ∈ l, ∃ g, o = some g ∧ L.isRGBAF g = true

/-- A level's slices: right number, right size. -/
def SlicesOK (L : ImageLib Img) (w h d : Nat) (l : List (Option Img)) : Prop :=
  l.length = d ∧ ∀ o ∈ l, ImgOK L w h o

theorem gen3d_ok {L : ImageLib Img} (hL : Lawful L) (filter : ResizeFilter) (cs : ColorSpace)
    (w h d : Nat) (src : List (Option Img)) : SlicesOK L w h d (gen3d L filter cs w h d src) := by
  refine ⟨by simp [gen3d], ?_⟩
  intro o ho
  simp only [gen3d, List.mem_map] at ho
  obtain ⟨i, -, rfl⟩ := ho
  exact ⟨_, rfl, hL.mip3d _ _ _ _ _ _ _⟩

theorem SlicesOK.all {L : ImageLib Img} {w h d : Nat} {l : List (Option Img)}
    (hs : SlicesOK L w h d l) : AllRGBAF L l := by
  intro o ho
  obtain ⟨g, h1, -, -, h4⟩ := hs.2 o ho
  exact ⟨g, h1, h4⟩

theorem chain3d_ok {L : ImageLib Img} (hL : Lawful L) {filter : ResizeFilter} {cs : ColorSpace}
    {w h d : Nat} (hw : 0 < w) (hh : 0 < h) (hd : 0 < d) {custom : CustomMips Img}
    (hgood : GoodCustom L filter custom) {base : List Img} :
    ∀ m, 1 ≤ m → consistent3d (CustomMips.find custom) m (extent d m) →
      SlicesOK L (extent w m) (extent h m) (extent d m)
        (chain3d L filter cs w h d (CustomMips.find custom) base m).1 ∧
      SlicesOK L (extent w m) (extent h m) (extent d m)
        (chain3d L filter cs w h d (CustomMips.find custom) base m).2
  | 0, hm, _ => by omega
  | m+1, _, hc => by
    have hg := gen3d_ok hL filter cs (extent w (m+1)) (extent h (m+1)) (extent d (m+1))
      (chain3d L filter cs w h d (CustomMips.find custom) base m).2
    simp only [chain3d, pick3d]
    cases hf : CustomMips.find custom ⟨.PosX, m+1, 0⟩ with
    | none => exact ⟨hg, hg⟩
    | some c =>
      simp only
      have hs : SlicesOK L (extent w (m+1)) (extent h (m+1)) (extent d (m+1))
          ((List.range (extent d (m+1))).map fun i =>
            (CustomMips.find custom ⟨.PosX, m+1, i⟩).bind fun c =>
              fit L filter c (extent w (m+1)) (extent h (m+1))) := by
        refine ⟨by simp, ?_⟩
        intro o ho
        simp only [List.mem_map, List.mem_range] at ho
        obtain ⟨i, hi, rfl⟩ := ho
        rcases hc with hc | ⟨r, hc⟩
        · rw [hc 0 (extent_pos d (m+1) hd)] at hf; simp at hf
        · obtain ⟨c', hc', -⟩ := hc i hi
          rw [hc']
          obtain ⟨g, hg⟩ := Option.isSome_iff_exists.1 (hgood _ (find_mem hc') (extent w (m+1))
            (extent h (m+1)) (extent_pos _ _ hw) (extent_pos _ _ hh))
          exact ⟨g, by simpa using hg, fit_ok hL hg⟩
      refine ⟨hs, ?_⟩
      split
      · exact hg
      · exact hs

theorem mapRes_ok {α β : Type} {f : α → Res β} {g : α → β} :
    ∀ l : List α, (∀ x ∈ l, f x = .ok (g x)) → mapRes f l = .ok (l.map g)
  | [], _ => rfl
  | x :: xs, h => by
    simp only [mapRes, h x (by simp), Res.ok_bind, mapRes_ok xs (fun y hy => h y (by simp [hy])),
      Res.pure_eq, List.map_cons]

/-- Reduction of valid source slices. -/
theorem generate_ok {L : ImageLib Img} (hL : Lawful L) {filter : ResizeFilter} {cs : ColorSpace}
    {w h d : Nat} (hw : 0 < w) (hh : 0 < h) {src : List (Option Img)} (hs : AllRGBAF L src)
    (hne : src ≠ []) :
    generateMips3d L (src.map (fun i => L.resizeO i w h filter)) w h d cs filter =
      .ok (gen3d L filter cs w h d src) := by
  unfold generateMips3d
  rw [if_pos]
  · unfold gen3d
    have : (src.map (fun i => L.resizeO i w h filter)).filterMap id =
        src.filterMap fun g => g.bind fun g => L.resize g w h filter := by
      rw [List.filterMap_map]
      congr 1
      funext o
      cases o <;> simp [ImageLib.resizeO]
    rw [this]
  · refine ⟨?_, by simpa using hne⟩
    simp only [List.all_map, List.all_eq_true, Function.comp]
    intro o ho
    obtain ⟨g, rfl, hg⟩ := hs o ho
    exact hL.resize_total g w h filter hg hw hh

/-- Loop invariant of the 3D branch before level `k`. -/
structure Inv3d (L : ImageLib Img) (t : TexImpl Img) (filter : ResizeFilter)
    (custom : CustomMips Img) (base : List Img) (im0 : Store (Option Img)) (k : Nat)
    (images : Store (Option Img)) (inputs : List (Option Img)) : Prop where
  len : images.length = t.mipLevels
  low : ∀ m, m < k → images[m]? = some ((chain3d L filter t.colorSpace t.width t.height t.depth
    (CustomMips.find custom) base m).1.map (fun i => [i]))
  high : ∀ (m : Nat), k ≤ m → images[m]? = im0[m]?
  inp : inputs = (chain3d L filter t.colorSpace t.width t.height t.depth
      (CustomMips.find custom) base (k-1)).2 ∨ (inputs = [] ∧ ((chain3d L filter t.colorSpace
      t.width t.height t.depth (CustomMips.find custom) base (k-1)).1 =
      (chain3d L filter t.colorSpace t.width t.height t.depth (CustomMips.find custom) base (k-1)).2
      ∨ k = t.mipLevels))

theorem step3d {L : ImageLib Img} (hL : Lawful L) {t : TexImpl Img} {filter : ResizeFilter}
    {custom : CustomMips Img} (hgood : GoodCustom L filter custom) (hdim : t.dimension = .Dim3D)
    (hw : 0 < t.width) (hh : 0 < t.height) (hd : 0 < t.depth) (hl : t.mipLevels ≤ 32)
    {base : List Img} {im0 images : Store (Option Img)} {inputs : List (Option Img)} {k : Nat}
    (hk : k + 1 < t.mipLevels)
    (hi : Inv3d L t filter custom base im0 (k+1) images inputs)
    (hsrc : AllRGBAF L (chain3d L filter t.colorSpace t.width t.height t.depth
      (CustomMips.find custom) base k).2)
    (hne : (chain3d L filter t.colorSpace t.width t.height t.depth
      (CustomMips.find custom) base k).2 ≠ []) :
    (consistent3d (CustomMips.find custom) (k+1) (extent t.depth (k+1)) →
      ∃ images' inputs', genMip3dStep L t filter custom (k+1) images inputs =
        .ok (some (images', inputs')) ∧ Inv3d L t filter custom base im0 (k+2) images' inputs') ∧
    (¬ consistent3d (CustomMips.find custom) (k+1) (extent t.depth (k+1)) →
      genMip3dStep L t filter custom (k+1) images inputs = .ok none) := by
  have hew : Tex.widthAt (some t) (k+1) = .ok (extent t.width (k+1)) := by
    simp only [Tex.widthAt, ge_iff_le, Nat.not_le.2 hk, if_false]
    exact mipExtent_ok _ _ hw (by omega)
  have heh : Tex.heightAt (some t) (k+1) = .ok (extent t.height (k+1)) := by
    simp only [Tex.heightAt, ge_iff_le, Nat.not_le.2 hk, if_false]
    exact mipExtent_ok _ _ hh (by omega)
  have hed : Tex.depthAt (some t) (k+1) = .ok (extent t.depth (k+1)) := by
    simp only [Tex.depthAt, ge_iff_le, Nat.not_le.2 hk, if_false, hdim, if_true]
    exact mipExtent_ok _ _ hd (by omega)
  have hpd := extent_pos t.depth (k+1) hd
  have hpw := extent_pos t.width (k+1) hw
  have hph := extent_pos t.height (k+1) hh
  unfold genMip3dStep
  simp only [hew, heh, hed, Res.ok_bind]
  constructor
  · intro hc
    rw [scan_consistent hpd hc]
    -- the generated slices
    have hgen : genSlices3d L t images inputs (k+1) (extent t.width (k+1)) (extent t.height (k+1))
        (extent t.depth (k+1)) filter = .ok (gen3d L filter t.colorSpace (extent t.width (k+1))
          (extent t.height (k+1)) (extent t.depth (k+1)) (chain3d L filter t.colorSpace t.width
          t.height t.depth (CustomMips.find custom) base k).2) := by
      unfold genSlices3d
      have hin : inputs3d L images inputs (k+1) (extent t.width (k+1)) (extent t.height (k+1))
          filter = .ok ((chain3d L filter t.colorSpace t.width
          t.height t.depth (CustomMips.find custom) base k).2.map (fun i => L.resizeO i
            (extent t.width (k+1)) (extent t.height (k+1)) filter)) := by
        unfold inputs3d
        have hinp := hi.inp
        simp only [Nat.add_sub_cancel] at hinp
        rcases hinp with hinp | ⟨rfl, hinp⟩
        · rw [if_neg (by rw [hinp]; simpa using hne), hinp]
        · have hinp := hinp.resolve_right (by omega)
          simp only [List.isEmpty_nil, if_true, Nat.add_sub_cancel]
          rw [hi.low k (by omega)]
          simp only
          rw [← hinp]
          rw [mapRes_ok (g := fun fs => L.resizeO ((fs.head?).join) (extent t.width (k+1))
            (extent t.height (k+1)) filter)]
          · simp [List.map_map, Function.comp_def]
          · intro fs hfs
            simp only [List.mem_map] at hfs
            obtain ⟨i, -, rfl⟩ := hfs
            simp
      rw [hin]
      simp only [Res.ok_bind]
      exact generate_ok hL hpw hph hsrc hne
    have hput : ∀ slices inputs', (chain3d L filter t.colorSpace t.width t.height t.depth
          (CustomMips.find custom) base (k+1)).1 = slices →
        (inputs' = (chain3d L filter t.colorSpace t.width t.height t.depth
          (CustomMips.find custom) base (k+1)).2 ∨ (inputs' = [] ∧ ((chain3d L filter t.colorSpace
          t.width t.height t.depth (CustomMips.find custom) base (k+1)).1 =
          (chain3d L filter t.colorSpace t.width t.height t.depth (CustomMips.find custom) base
            (k+1)).2 ∨ k + 2 = t.mipLevels))) →
        ∃ images' inputs'', (putSlices3d images (k+1) slices >>= fun images' =>
            pure (some (images', inputs'))) = Res.ok (some (images', inputs'')) ∧
          Inv3d L t filter custom base im0 (k+2) images' inputs'' := by
      rintro slices inputs' rfl hinp
      refine ⟨List.set images (k+1) (List.map (fun i => [i]) (chain3d L filter t.colorSpace t.width
        t.height t.depth (CustomMips.find custom) base (k+1)).1), inputs', ?_, ?_⟩
      · unfold putSlices3d
        rw [if_pos (by rw [hi.len]; exact hk)]; rfl
      · refine ⟨by rw [List.length_set, hi.len], ?_, ?_, hinp⟩
        · intro m hm
          by_cases he : m = k+1
          · subst he
            rw [List.getElem?_set_self (by rw [hi.len]; exact hk)]
          · rw [List.getElem?_set_ne (Ne.symm he)]
            exact hi.low m (by omega)
        · intro m hm
          rw [List.getElem?_set_ne (by omega)]
          exact hi.high m (by omega)
    cases hf : CustomMips.find custom ⟨.PosX, k+1, 0⟩ with
    | none =>
      simp only [hgen, Res.ok_bind]
      apply hput
      · simp only [chain3d, pick3d, hf]
      · right; refine ⟨rfl, Or.inl ?_⟩; simp only [chain3d, pick3d, hf]
    | some c =>
      have hcus : customSlices3d L custom (k+1) (extent t.width (k+1)) (extent t.height (k+1))
          (extent t.depth (k+1)) filter = .ok (chain3d L filter t.colorSpace t.width t.height
          t.depth (CustomMips.find custom) base (k+1)).1 := by
        unfold customSlices3d
        rw [mapRes_ok (g := fun i => (CustomMips.find custom ⟨.PosX, k+1, i⟩).bind fun c =>
              fit L filter c (extent t.width (k+1)) (extent t.height (k+1)))]
        · simp only [chain3d, pick3d, hf]
        · intro i hi
          rcases hc with hc | ⟨r, hc⟩
          · rw [hc 0 hpd] at hf; simp at hf
          · obtain ⟨c', hc', -⟩ := hc i (by simpa using hi)
            simp only [hc', customResult_eq, Option.bind_some]
      by_cases ho : c.replacement = .Once
      · by_cases hlast : k + 1 < t.mipLevels - 1
        · simp only [ho, true_and, if_pos hlast, hgen, Res.ok_bind, hcus]
          refine hput _ _ rfl (Or.inl ?_)
          simp only [chain3d, pick3d, hf, if_pos ho]
        · simp only [ho, true_and, if_neg hlast, Res.ok_bind, hcus]
          exact hput _ _ rfl (Or.inr ⟨rfl, Or.inr (by omega)⟩)
      · simp only [ho, false_and, if_false, Res.ok_bind, hcus]
        refine hput _ _ rfl (Or.inr ⟨rfl, Or.inl ?_⟩)
        simp only [chain3d, pick3d, hf, if_neg ho]
  · intro hc
    rw [scan_inconsistent hpd hc]; rfl

/-- The whole loop: success when all levels are consistent, otherwise `false` at the first level
that is not. -/
theorem loop3d {L : ImageLib Img} (hL : Lawful L) {t : TexImpl Img} {filter : ResizeFilter}
    {custom : CustomMips Img} (hgood : GoodCustom L filter custom) (hdim : t.dimension = .Dim3D)
    (hw : 0 < t.width) (hh : 0 < t.height) (hd : 0 < t.depth) (hl : t.mipLevels ≤ 32)
    {base : List Img} {im0 : Store (Option Img)} :
    ∀ n k images inputs, k + 1 + n = t.mipLevels →
    Inv3d L t filter custom base im0 (k+1) images inputs →
    AllRGBAF L (chain3d L filter t.colorSpace t.width t.height t.depth
      (CustomMips.find custom) base k).2 →
    (chain3d L filter t.colorSpace t.width t.height t.depth
      (CustomMips.find custom) base k).2 ≠ [] →
    ∃ ok images', genMips3dLoop L t filter custom (List.range' (k+1) n) images inputs =
        .ok (ok, images') ∧
      (ok = true → (∀ m, k + 1 ≤ m → m < t.mipLevels →
          consistent3d (CustomMips.find custom) m (extent t.depth m)) ∧
        ∃ inputs', Inv3d L t filter custom base im0 t.mipLevels images' inputs') ∧
      (ok = false → ∃ j, k + 1 ≤ j ∧ j < t.mipLevels ∧
        ¬ consistent3d (CustomMips.find custom) j (extent t.depth j) ∧
        (∀ m, k + 1 ≤ m → m < j → consistent3d (CustomMips.find custom) m (extent t.depth m)) ∧
        ∃ inputs', Inv3d L t filter custom base im0 j images' inputs')
  | 0, k, images, inputs, hkn, hi, _, _ => by
    refine ⟨true, images, rfl, fun _ => ⟨fun m h1 h2 => by omega, inputs, ?_⟩, by simp⟩
    rw [← hkn]; exact hi
  | n+1, k, images, inputs, hkn, hi, hsrc, hne => by
    have hstep := step3d hL hgood hdim hw hh hd hl (k := k) (by omega) hi hsrc hne
    rw [List.range'_succ]
    simp only [genMips3dLoop]
    by_cases hc : consistent3d (CustomMips.find custom) (k+1) (extent t.depth (k+1))
    · obtain ⟨im', in', h1, h2⟩ := hstep.1 hc
      rw [h1]
      simp only [Res.ok_bind]
      have hok := chain3d_ok hL (cs := t.colorSpace) (base := base) hw hh hd hgood (k+1) (by omega) hc
      obtain ⟨ok, im'', a1, a2, a3⟩ := loop3d hL hgood hdim hw hh hd hl (base := base) (im0 := im0)
        n (k+1) im' in' (by omega) h2 hok.2.all
        (by
          intro he
          have := hok.2.1
          rw [he] at this
          have := extent_pos t.depth (k+1) hd
          simp at *
          omega)
      refine ⟨ok, im'', a1, ?_, ?_⟩
      · intro h
        obtain ⟨b1, b2⟩ := a2 h
        refine ⟨?_, b2⟩
        intro m h1 h2
        by_cases he : m = k+1
        · subst he; exact hc
        · exact b1 m (by omega) h2
      · intro h
        obtain ⟨j, b1, b2, b3, b4, b5⟩ := a3 h
        refine ⟨j, by omega, b2, b3, ?_, b5⟩
        intro m h1 h2
        by_cases he : m = k+1
        · subst he; exact hc
        · exact b4 m (by omega) h2
    · rw [hstep.2 hc]
      refine ⟨false, images, rfl, by simp, fun _ => ⟨k+1, by omega, by omega, hc,
        fun m h1 h2 => by omega, inputs, hi⟩⟩

end Cuttlefish
