import Verif.Spec.Job
import Verif.Proofs.SaveRun
import Verif.Proofs.TexWeak
import Verif.Proofs.FileTables
import Verif.Props.C33
/-
The main program of the tool as a history of calls.
-/
namespace Cuttlefish
open Spec
variable {Img H σ : Type}

theorem store_set_length {α : Type} {s s' : Store α} {m d f : ℕ} {a : α} (h : s.set m d f a = .ok s') :
    s'.length = s.length := by
  unfold Store.set at h
  split at h
  · simp at h
  split at h
  · simp at h
  split at h
  · simp only [Res.ok.injEq] at h
    rw [← h, List.length_set]
  · simp at h

theorem forRes_keeps {α τ : Type} {P : τ → Prop} {body : α → τ → Res τ}
    (hb : ∀ x s s', P s → body x s = .ok s' → P s') : ∀ (xs : List α) (s s' : τ), P s →
    forRes xs body s = .ok s' → P s'
  | [], s, s', hP, h => by
    simp only [forRes, Res.ok.injEq] at h
    exact h ▸ hP
  | x :: xs, s, s', hP, h => by
    simp only [forRes, Res.bind_eq_ok] at h
    obtain ⟨s1, h1, h2⟩ := h
    exact forRes_keeps hb xs s1 s' (hb x s s1 hP h1) h2

theorem genMipStep_length {L : ImageLib Img} {t : TexImpl Img} {filter : ResizeFilter}
    {custom : CustomMips Img} {d f m : ℕ} {face : CubeFace} {st st' : Store (Option Img) × Option Img}
    (h : genMipStep L t filter custom d f m face st = .ok st') : st'.1.length = st.1.length := by
  unfold genMipStep at h
  simp only [Res.bind_eq_ok] at h
  obtain ⟨w, -, hh, -, h⟩ := h
  split at h
  · simp only [Res.bind_eq_ok] at h
    obtain ⟨g, -, im, h1, h2⟩ := h
    simp only [Res.pure_eq, Res.ok.injEq] at h2
    rw [← h2]
    exact store_set_length h1
  · split at h
    · simp only [Res.bind_eq_ok] at h
      obtain ⟨g, -, im, h1, h2⟩ := h
      simp only [Res.pure_eq, Res.ok.injEq] at h2
      rw [← h2]
      exact store_set_length h1
    · simp only [Res.bind_eq_ok] at h
      obtain ⟨im, h1, h2⟩ := h
      simp only [Res.pure_eq, Res.ok.injEq] at h2
      rw [← h2]
      exact store_set_length h1

theorem genMipsFlat_length {L : ImageLib Img} {t : TexImpl Img} {filter : ResizeFilter}
    {custom : CustomMips Img} {r : Store (Option Img)} (h : genMipsFlat L t filter custom = .ok r) :
    r.length = t.images.length := by
  unfold genMipsFlat at h
  simp only [Res.bind_eq_ok] at h
  obtain ⟨st, h1, h2⟩ := h
  simp only [Res.pure_eq, Res.ok.injEq] at h2
  rw [← h2]
  refine forRes_keeps (P := fun st => st.1.length = t.images.length) ?_ _ _ _ ?_ h1
  · intro d s s' hs hb
    refine forRes_keeps (P := fun st => st.1.length = t.images.length) ?_ _ _ _ hs hb
    intro f s s' hs hb
    refine forRes_keeps (P := fun st => st.1.length = t.images.length) ?_ _ _ _ hs hb
    intro m s s' hs hb
    exact (genMipStep_length hb).trans hs
  · simp

theorem putSlices3d_length {images r : Store (Option Img)} {m : ℕ} {s : List (Option Img)}
    (h : putSlices3d images m s = .ok r) : r.length = images.length := by
  unfold putSlices3d at h
  split at h
  · simp only [Res.ok.injEq] at h
    rw [← h, List.length_set]
  · simp at h

theorem genMip3dStep_length {L : ImageLib Img} {t : TexImpl Img} {filter : ResizeFilter}
    {custom : CustomMips Img} {m : ℕ} {images : Store (Option Img)} {inputs : List (Option Img)}
    {r : Store (Option Img) × List (Option Img)}
    (h : genMip3dStep L t filter custom m images inputs = .ok (some r)) : r.1.length = images.length := by
  unfold genMip3dStep at h
  simp only [Res.bind_eq_ok] at h
  obtain ⟨w, -, hh, -, d, -, h⟩ := h
  split at h
  · simp at h
  · simp only [Res.bind_eq_ok] at h
    obtain ⟨g, -, im, h1, h2⟩ := h
    simp only [Res.pure_eq, Res.ok.injEq, Option.some.injEq] at h2
    rw [← h2]
    exact putSlices3d_length h1
  · split at h
    all_goals
      simp only [Res.bind_eq_ok] at h
      obtain ⟨g, -, sl, -, im, h1, h2⟩ := h
      simp only [Res.pure_eq, Res.ok.injEq, Option.some.injEq] at h2
      rw [← h2]
      exact putSlices3d_length h1

theorem genMips3dLoop_length {L : ImageLib Img} {t : TexImpl Img} {filter : ResizeFilter}
    {custom : CustomMips Img} : ∀ (ms : List ℕ) (images : Store (Option Img)) (inputs : List (Option Img))
    (r : Bool × Store (Option Img)), genMips3dLoop L t filter custom ms images inputs = .ok r →
    r.2.length = images.length
  | [], images, inputs, r, h => by
    simp only [genMips3dLoop, Res.ok.injEq] at h
    rw [← h]
  | m :: ms, images, inputs, r, h => by
    simp only [genMips3dLoop, Res.bind_eq_ok] at h
    obtain ⟨o, h1, h2⟩ := h
    split at h2
    · simp only [Res.pure_eq, Res.ok.injEq] at h2
      rw [← h2]
    · rename_i images' inputs'
      rw [genMips3dLoop_length ms images' inputs' r h2]
      exact genMip3dStep_length h1

/-- Textures have levels as long as they have extents. -/
def HasLevels (t : Tex Img) : Prop :=
  ∀ i, t = some i → WInv i i.dimension i.colorSpace i.width i.height i.depth ∧ i.images ≠ []

theorem levels_set {L : ImageLib Img} {t t' : Tex Img} {img : Option Img} {mv : Bool}
    {face : Option CubeFace} {m d : ℕ} {b : Bool} (ht : HasLevels t)
    (h : t.setImage L img mv face m d = .ok (b, t')) : HasLevels t' := by
  cases t with
  | none =>
    unfold Tex.setImage Tex.depthAt at h
    simp only [Res.ok_bind] at h
    rw [if_pos (Nat.zero_le _)] at h
    simp only [Res.pure_eq, Res.ok.injEq, Prod.mk.injEq] at h
    rw [← h.2]
    exact ht
  | some i =>
    obtain ⟨hI, hn⟩ := ht i rfl
    obtain ⟨im, e⟩ := set_weak h
    intro i' hi'
    rw [e] at hi'
    simp only [Option.some.injEq] at hi'
    refine ⟨?_, ?_⟩
    · rw [← hi']
      exact ⟨hI.pw, hI.ph, hI.pd, hI.mips, hI.faces, rfl, rfl, rfl, rfl, rfl⟩
    · have hl : i'.images.length = i.images.length := by
        unfold Tex.setImage at h
        rw [Res.bind_eq_ok] at h
        obtain ⟨d', -, h⟩ := h
        split at h
        · simp only [Res.pure_eq, Res.ok.injEq, Prod.mk.injEq] at h
          have : i = i' := by rw [← h.2] at e; simpa [hi'] using e
          rw [this]
        rw [Res.bind_eq_ok] at h
        obtain ⟨w', -, h⟩ := h
        rw [Res.bind_eq_ok] at h
        obtain ⟨h', -, h⟩ := h
        split at h
        · simp only [Res.pure_eq, Res.ok.injEq, Prod.mk.injEq] at h
          have : i = i' := by rw [← h.2] at e; simpa [hi'] using e
          rw [this]
        simp only at h
        split at h
        · simp only [Res.pure_eq, Res.ok.injEq, Prod.mk.injEq] at h
          have : i = i' := by rw [← h.2] at e; simpa [hi'] using e
          rw [this]
        rw [Res.bind_eq_ok] at h
        obtain ⟨im2, h2, h⟩ := h
        simp only [Res.pure_eq, Res.ok.injEq, Prod.mk.injEq] at h
        have : ({ i with images := im2 } : TexImpl Img) = i' := by
          rw [← h.2] at e
          simp only [Option.some.injEq] at e
          rw [← hi', e]
        rw [← this]
        exact store_set_length h2
      intro h0
      rw [h0] at hl
      exact hn (List.length_eq_zero_iff.1 hl.symm)

theorem levels_gen {L : ImageLib Img} {t t' : Tex Img} {filter : ResizeFilter} {r : ℕ}
    {custom : CustomMips Img} {b : Bool} (ht : HasLevels t)
    (h : t.generateMipmaps L filter r custom = .ok (b, t')) : HasLevels t' := by
  cases t with
  | none =>
    simp only [Tex.generateMipmaps, Res.ok.injEq, Prod.mk.injEq] at h
    rw [← h.2]
    exact ht
  | some i =>
    obtain ⟨hI, hn⟩ := ht i rfl
    have hw := gen_weak hI h
    rcases hw with ⟨e, -⟩ | ⟨im, e⟩
    · rw [e]; exact ht
    have hpos := maxMip_pos i.dimension i.width i.height i.depth hI.pw.1 hI.pw.2 hI.ph.1 hI.ph.2
      (fun h3 => ⟨hI.pd.2 h3, hI.pd.1⟩)
    have hlen : im.length = min (max r 1) (maxMipmapLevels i.dimension i.width i.height i.depth) ∨ im = i.images := by
      unfold Tex.generateMipmaps at h
      simp only at h
      split at h
      · simp at h
      split at h
      · simp only [Res.ok.injEq, Prod.mk.injEq] at h
        rw [e] at h
        simp only [Option.some.injEq] at h
        right
        exact (congrArg TexImpl.images h.2).symm
      split at h
      · simp only [Res.ok.injEq, Prod.mk.injEq] at h
        rw [e] at h
        simp only [Option.some.injEq] at h
        right
        exact (congrArg TexImpl.images h.2).symm
      left
      simp only [Res.bind_eq_ok] at h
      obtain ⟨w, hw, hh, hhh, d, hd, h⟩ := h
      split at h
      · simp only [Res.bind_eq_ok] at h
        obtain ⟨p, h1, h2⟩ := h
        simp only [Res.pure_eq, Res.ok.injEq, Prod.mk.injEq] at h2
        rw [e] at h2
        simp only [Option.some.injEq] at h2
        have e1 := congrArg TexImpl.images h2.2
        have e2 := congrArg TexImpl.mipLevels h2.2
        simp only at e1 e2
        rw [← e2, ← e1, genMips3dLoop_length _ _ _ _ h1]
        simp [vresize]
        omega
      · simp only [Res.bind_eq_ok] at h
        obtain ⟨p, h1, h2⟩ := h
        simp only [Res.pure_eq, Res.ok.injEq, Prod.mk.injEq] at h2
        rw [e] at h2
        simp only [Option.some.injEq] at h2
        have e1 := congrArg TexImpl.images h2.2
        have e2 := congrArg TexImpl.mipLevels h2.2
        simp only at e1 e2
        rw [← e2, ← e1, genMipsFlat_length h1]
        simp [vresize]
        omega
    intro i' hi'
    rw [e] at hi'
    simp only [Option.some.injEq] at hi'
    rw [← hi']
    refine ⟨⟨hI.pw, hI.ph, hI.pd, ⟨by simp only; omega, by simp only; omega⟩, hI.faces, rfl, rfl, rfl, rfl, rfl⟩, ?_⟩
    simp only
    rcases hlen with hl | hl
    · intro h0
      rw [h0, List.length_nil] at hl
      omega
    · rw [hl]; exact hn

theorem put_run {E : ToolEnv Img H σ} {k : ImageType} : ∀ (gs : List (Option Img)) (i : ℕ) (t t' : Tex Img),
    putImages E k i gs t = .ok t' → HasLevels t →
    (∃ outs, run E.world t ((gs.zipIdx i).map fun g =>
      .setImage g.1 true (toolPlace k g.2).1 (toolPlace k g.2).2.1 (toolPlace k g.2).2.2) = .ok (outs, t')) ∧
    HasLevels t'
  | [], i, t, t', h, ht => by
    simp only [putImages, Res.ok.injEq] at h
    exact ⟨⟨[], by rw [h]; rfl⟩, h ▸ ht⟩
  | g :: gs, i, t, t', h, ht => by
    simp only [putImages, Res.bind_eq_ok] at h
    obtain ⟨r, h1, h2⟩ := h
    obtain ⟨⟨outs, ho⟩, hl⟩ := put_run gs (i + 1) r.2 t' h2 (levels_set (b := r.1) ht h1)
    refine ⟨⟨.bool r.1 :: outs, ?_⟩, hl⟩
    simp only [List.zipIdx_cons, List.map_cons, run, call]
    rw [h1]
    simp only [Res.ok_bind, Res.pure_eq]
    rw [ho]
    rfl

theorem mips_run {E : ToolEnv Img H σ} {c : Cmd H} {custom : CustomMips Img} {t t' : Tex Img}
    (h : toolMips E c custom t = .ok t') (ht : HasLevels t) :
    (∃ outs, run E.world t (if 1 < c.mipLevels then [.generateMipmaps c.mipFilter c.mipLevels custom] else []) =
      .ok (outs, t')) ∧ HasLevels t' := by
  unfold toolMips at h
  split at h
  · rename_i hm
    rw [Res.bind_eq_ok] at h
    obtain ⟨r, h1, h2⟩ := h
    simp only [Res.ok.injEq] at h2
    subst h2
    refine ⟨⟨[.bool r.1], ?_⟩, levels_gen (b := r.1) ht h1⟩
    rw [if_pos hm]
    simp only [run, call]
    rw [h1]
    rfl
  · rename_i hm
    simp only [Res.ok.injEq] at h
    subst h
    exact ⟨⟨[], by rw [if_neg hm]; rfl⟩, ht⟩

theorem convMips_length {c : Features} {enc : Encoder Img} {a : ConvArgs} : ∀ {s : Store (Option Img)}
    {r : Store (Option Img) × Store (List UInt8)}, convMips c enc a s = .ok (true, r) → r.2.length = s.length
  | [], r, h => by
    simp only [convMips, Res.ok.injEq, Prod.mk.injEq, true_and] at h
    rw [← h]
    rfl
  | ds :: ms, r, h => by
    simp only [convMips, Res.bind_eq_ok] at h
    obtain ⟨⟨ok, ds', bs⟩, -, h⟩ := h
    dsimp only at h
    split at h
    · rw [Res.bind_eq_ok] at h
      obtain ⟨⟨ok', ms', bss⟩, h1, h⟩ := h
      simp only [Res.pure_eq, Res.ok.injEq, Prod.mk.injEq] at h
      obtain ⟨rfl, rfl⟩ := h
      simp only [if_true, List.length_cons]
      rw [convMips_length h1]
    · simp at h

/-- A successful conversion of a texture with levels. -/
theorem convert_done {c : Features} {hw : ℕ} {enc : Encoder Img} {t t' : Tex Img} {f : Format} {ty : TType}
    {q : Quality} {al : Alpha} {m : ColorMask} {th : ℕ} (h : t.convert c hw enc f ty q al m th = .ok (true, t')) :
    (HasLevels t → t'.converted = true) ∧ t'.format = f ∧ t'.type = ty ∧ t'.alphaType = al ∧
      t'.colorMask = m ∧ t'.dimension = t.dimension ∧ t'.colorSpace = t.colorSpace := by
  unfold Tex.convert at h
  split at h
  · simp at h
  split at h
  · simp at h
  rename_i i _
  split at h
  · simp at h
  simp only [Res.bind_eq_ok] at h
  obtain ⟨⟨ok, images, textures⟩, h1, h⟩ := h
  dsimp only at h
  split at h
  · rename_i hok
    simp only [Res.pure_eq, Res.ok.injEq, Prod.mk.injEq, true_and] at h
    subst h
    subst hok
    refine ⟨fun ht => ?_, rfl, rfl, rfl, rfl, rfl, rfl⟩
    have hl := convMips_length h1
    unfold Tex.converted
    cases textures with
    | nil => exact absurd (List.length_eq_zero_iff.1 hl.symm) (ht i rfl).2
    | cons => rfl
  · simp at h

/-- One attempt to save. -/
theorem once_written {E : ToolEnv Img H σ} {c : Cmd H} {t : Tex Img} {s : σ} {r : SaveResult × σ} {out : Str}
    (h : saveOnce E c t s = .ok r) (ho : c.output = some out) (hc : t.converted = true)
    (hft : c.fileType ≠ .Auto) (hv : isFormatValidFile E.cmd.feat t.format t.type c.fileType = true)
    (hclose : ∀ s bytes, E.disk.close s bytes = bytes.length) :
    (r.1 = .Success ∧ Written E.disk t c.fileType out s true r.2) ∨
    (r.1 = .WriteError ∧ Written E.disk t c.fileType out s false r.2) := by
  unfold saveOnce at h
  rw [ho] at h
  simp only [Option.getD_some, Res.bind_eq_ok] at h
  obtain ⟨p, hp, h⟩ := h
  unfold Tex.saveFile at hp
  simp only [hc, Bool.not_true, Bool.false_eq_true, if_false, if_neg hft] at hp
  by_cases hop : E.disk.opens s out = true
  · rw [hop] at hp
    simp only [Bool.not_true, Bool.false_eq_true, if_false, Res.bind_eq_ok] at hp
    obtain ⟨w, hw, hp⟩ := hp
    simp only [Res.pure_eq, Res.ok.injEq] at hp
    subst hp
    simp only [Res.ok.injEq] at h
    subst h
    dsimp only
    rw [hclose, List.take_length]
    have hacts : ∃ as, saveActs t c.fileType = some as := by
      unfold isFormatValidFile at hv
      split at hv
      · simp at hv
      cases hf : c.fileType <;> rw [hf] at hv <;> simp only [saveActs] <;> dsimp only at hv
      · exact absurd hf hft
      · rw [if_neg ((dds_valid _ _ _).2 hv)]; exact ⟨_, rfl⟩
      · rw [← ktx_valid _ _ t.colorSpace] at hv
        obtain ⟨i, hi⟩ := Option.isSome_iff_exists.1 hv
        rw [hi]; exact ⟨_, rfl⟩
      · rw [← pvr_valid _ _ t.alphaType] at hv
        obtain ⟨i, hi⟩ := Option.isSome_iff_exists.1 hv
        rw [hi]; exact ⟨_, rfl⟩
    obtain ⟨as, ha⟩ := hacts
    rw [save_eq, hc, ha] at hw
    simp only [Bool.true_eq_false, if_false, Res.bind_eq_ok, Res.ok.injEq] at hw
    obtain ⟨as', rfl, hw⟩ := hw
    have hfull : FullFile t c.fileType (written as') := by
      unfold FullFile
      rw [save_run hc ha, runActs_perfect]
      simp
    rcases runActs_any (E.disk.dev s) as' [] with h1 | ⟨-, ⟨q, h2, h3⟩, h4⟩
    · rw [h1] at hw
      rw [← hw]
      exact .inl ⟨rfl, .complete s _ hop hfull⟩
    · rw [hw] at h3 h4
      rw [h3]
      exact .inr ⟨h4 (checked_save ha), .broken s _ q hop hfull h2⟩
  · rw [Bool.not_eq_true] at hop
    rw [hop] at hp
    simp only [Bool.not_false, if_true, Res.ok.injEq] at hp
    subst hp
    simp only [Res.ok.injEq] at h
    subst h
    exact .inr ⟨rfl, .closed s hop⟩

theorem all_saved {E : ToolEnv Img H σ} {c : Cmd H} {t : Tex Img} {s : σ} {r : Bool × σ} {out : Str}
    (h : saveAll E c t s = .ok r) (ho : c.output = some out) (hc : t.converted = true)
    (hft : c.fileType ≠ .Auto) (hv : isFormatValidFile E.cmd.feat t.format t.type c.fileType = true)
    (hclose : ∀ s bytes, E.disk.close s bytes = bytes.length) :
    Saved E.disk t c.fileType out c.createOutputDir s r.1 r.2 := by
  unfold saveAll at h
  rw [Res.bind_eq_ok] at h
  obtain ⟨p, hp, h⟩ := h
  rcases once_written hp ho hc hft hv hclose with ⟨e, hw⟩ | ⟨e, hw⟩
  · rw [e] at h
    simp only [Res.ok.injEq] at h
    subst h
    exact .first s _ hw
  · rw [e] at h
    dsimp only at h
    unfold saveAgain at h
    split at h
    · rename_i hcr
      rw [ho] at h
      simp only [Option.getD_some, Res.bind_eq_ok] at h
      obtain ⟨d, hd, h⟩ := h
      obtain ⟨db, ds⟩ := d
      dsimp only at h
      cases db with
      | true =>
        simp only [if_true, Res.bind_eq_ok] at h
        obtain ⟨q, hq, h⟩ := h
        simp only [Res.ok.injEq] at h
        subst h
        rcases once_written hq ho hc hft hv hclose with ⟨e2, hw2⟩ | ⟨e2, hw2⟩
        · rw [e2]
          exact .again s _ _ _ _ hcr hw hd hw2
        · rw [e2]
          exact .again s _ _ _ _ hcr hw hd hw2
      | false =>
        simp only [Bool.false_eq_true, if_false, Res.ok.injEq] at h
        subst h
        exact .noDirectory s _ _ hcr hw hd
    · rename_i hcr
      simp only [Res.ok.injEq] at h
      subst h
      exact .failed s _ (by simpa using hcr) hw

theorem loadMain_length {E : ToolEnv Img H σ} {c : Cmd H} : ∀ {ps : List Str} {w h : ℕ}
    {r : List (Option Img) × ℕ × ℕ}, loadMain E c ps w h = .ok (some r) → r.1.length = ps.length
  | [], w, h, r, hr => by
    simp only [loadMain, Res.ok.injEq, Option.some.injEq] at hr
    rw [← hr]; rfl
  | p :: ps, w, h, r, hr => by
    simp only [loadMain, Res.bind_eq_ok] at hr
    obtain ⟨o, -, hr⟩ := hr
    cases o with
    | none => simp at hr
    | some o =>
      simp only [Res.bind_eq_ok] at hr
      obtain ⟨q, hq, hr⟩ := hr
      cases q with
      | none => simp at hr
      | some q =>
        simp only [Res.ok.injEq, Option.some.injEq] at hr
        rw [← hr]
        simp only [List.length_cons]
        rw [loadMain_length hq]

theorem loadImages_size {E : ToolEnv Img H σ} (hs : LoadsSmall E) {c : Cmd H}
    {r : List (Option Img) × CustomMips Img} (h : loadImages E c = .ok (some r)) :
    E.world.lib.widthO r.1.head?.join < 2 ^ 32 ∧ E.world.lib.heightO r.1.head?.join < 2 ^ 32 := by
  have key : ∀ (ps : List Str) (r : List (Option Img) × ℕ × ℕ), loadMain E c ps unset unset = .ok (some r) →
      E.world.lib.widthO r.1.head?.join < 2 ^ 32 ∧ E.world.lib.heightO r.1.head?.join < 2 ^ 32 := by
    intro ps r hr
    cases ps with
    | nil =>
      simp only [loadMain, Res.ok.injEq, Option.some.injEq] at hr
      rw [← hr]
      simp [ImageLib.widthO, ImageLib.heightO]
    | cons p ps =>
      simp only [loadMain, Res.bind_eq_ok] at hr
      obtain ⟨o, ho, hr⟩ := hr
      cases o with
      | none => simp at hr
      | some o =>
        simp only [Res.bind_eq_ok] at hr
        obtain ⟨q, -, hr⟩ := hr
        cases q with
        | none => simp at hr
        | some q =>
          simp only [Res.ok.injEq, Option.some.injEq] at hr
          rw [← hr]
          obtain ⟨g, w', h'⟩ := o
          cases g with
          | none => simp [ImageLib.widthO, ImageLib.heightO]
          | some g => exact hs _ _ _ _ _ _ ho
  unfold loadImages at h
  rw [Res.bind_eq_ok] at h
  obtain ⟨o, ho, h⟩ := h
  cases o with
  | none => simp at h
  | some o =>
    simp only [Res.bind_eq_ok] at h
    obtain ⟨q, -, h⟩ := h
    cases q with
    | none => simp at h
    | some q =>
      simp only [Res.ok.injEq, Option.some.injEq] at h
      rw [← h]
      exact key _ _ ho

theorem loadImages_length {E : ToolEnv Img H σ} {c : Cmd H} {r : List (Option Img) × CustomMips Img}
    (h : loadImages E c = .ok (some r)) : r.1.length = c.images.length := by
  unfold loadImages at h
  rw [Res.bind_eq_ok] at h
  obtain ⟨o, ho, h⟩ := h
  cases o with
  | none => simp at h
  | some o =>
    simp only [Res.bind_eq_ok] at h
    obtain ⟨q, -, h⟩ := h
    cases q with
    | none => simp at h
    | some q =>
      simp only [Res.ok.injEq, Option.some.injEq] at h
      rw [← h]
      exact loadMain_length ho

theorem face_order (i : ℕ) (h : i < 6) : some (CubeFace.ofIndex i) = faceOrder[i]? := by
  have key : ∀ i < 6, some (CubeFace.ofIndex i) = faceOrder[i]? := by decide
  exact key i h

theorem jobOps_eq {L : ImageLib Img} {c : Cmd H} {first : Option Img} {rest : List (Option Img)}
    {custom : CustomMips Img} (hn : (first :: rest).length < 2 ^ 32)
    (hcube : c.imageType = .Cube → (first :: rest).length = 6)
    (hone : c.imageType = .Image → (first :: rest).length = 1) :
    jobOps L c (first :: rest) custom =
      .initialize c.dimension (L.widthO first) (L.heightO first)
        (toolDepth c.imageType (first :: rest).length) 1 c.textureColorSpace ::
      (((first :: rest).zipIdx 0).map fun g => .setImage g.1 true (toolPlace c.imageType g.2).1
        (toolPlace c.imageType g.2).2.1 (toolPlace c.imageType g.2).2.2) ++
      (if 1 < c.mipLevels then [.generateMipmaps c.mipFilter c.mipLevels custom] else []) ++
      [.convert c.format c.type c.quality c.alpha c.colorMask c.jobs] := by
  unfold jobOps
  congr 2
  congr 1
  · congr 1
    unfold layers toolDepth
    cases c.imageType <;> simp only [u32, pow32] <;> omega
  · refine List.map_congr_left ?_
    intro g hg
    have hlt : g.2 < (first :: rest).length := by
      have := List.mem_zipIdx hg
      omega
    unfold slot toolPlace
    cases hk : c.imageType with
    | Image => rfl
    | Array => rfl
    | Cube =>
      dsimp only
      rw [face_order _ (by rw [hcube hk] at hlt; exact hlt)]
    | CubeArray =>
      dsimp only
      rw [face_order _ (Nat.mod_lt _ (by omega))]

/-- Making, converting and saving the texture. -/
theorem save_texture {E : ToolEnv Img H σ} {c : Cmd H} {images : List (Option Img)} {custom : CustomMips Img}
    {s : σ} {r : Bool × σ} (h : saveTexture E c images custom s = .ok r) (hv : ValidJob E.cmd.feat c)
    (hl : images.length = c.images.length) (hn : c.images.length < 2 ^ 32)
    (hsize : E.world.lib.widthO images.head?.join < 2 ^ 32 ∧ E.world.lib.heightO images.head?.join < 2 ^ 32)
    (hclose : ∀ s bytes, E.disk.close s bytes = bytes.length) :
    (∃ outs t, run E.world none (jobOps E.world.lib c images custom) = .ok (outs ++ [.bool false], t) ∧
      r = (false, s)) ∨
    (∃ outs t out, run E.world none (jobOps E.world.lib c images custom) = .ok (outs ++ [.bool true], t) ∧
      c.output = some out ∧ Saved E.disk t c.fileType out c.createOutputDir s r.1 r.2) := by
  cases images with
  | nil => simp [saveTexture] at h
  | cons first rest =>
    simp only [saveTexture, Res.bind_eq_ok] at h
    obtain ⟨t1, h1, t2, h2, ⟨cv, t3⟩, h3, h4⟩ := h
    have hw : E.world.lib.widthO first < pow32 ∧ E.world.lib.heightO first < pow32 := by
      simpa using hsize
    have hd : toolDepth c.imageType (first :: rest).length < pow32 := by
      unfold toolDepth
      cases c.imageType <;> simp only [u32] <;> first | exact Nat.mod_lt _ (by unfold pow32; omega) | (unfold pow32; omega)
    have hinit : HasLevels (Tex.initialize none c.dimension (E.world.lib.widthO first)
        (E.world.lib.heightO first) (toolDepth c.imageType (first :: rest).length) 1 c.textureColorSpace :
          Bool × Tex Img).2 := by
      rcases winv_init (none : Tex Img) (dim := c.dimension) (m := 1) (cs := c.textureColorSpace)
        hw.1 hw.2 hd with ⟨i, e, hI, -, -, -, -, -, him⟩ | ⟨e, -⟩
      · rw [e]
        intro j hj
        simp only [Option.some.injEq] at hj
        subst hj
        refine ⟨?_, ?_⟩
        · rw [hI.edim, hI.ecs, hI.ew, hI.eh, hI.ed]
          exact hI
        · have := hI.mips
          rw [him]
          intro h0
          have := congrArg List.length h0
          simp only [List.length_replicate, List.length_nil] at this
          omega
      · rw [e]
        intro j hj
        simp at hj
    obtain ⟨⟨o1, r1⟩, l1⟩ := put_run _ _ _ _ h1 hinit
    obtain ⟨⟨o2, r2⟩, l2⟩ := mips_run h2 l1
    have hrun : ∃ outs, run E.world none (jobOps E.world.lib c (first :: rest) custom) =
        .ok (outs ++ [.bool cv], t3) := by
      rw [jobOps_eq (by rw [hl]; exact hn) (fun e => hl.trans (hv.cube e)) (fun e => hl.trans (hv.one e))]
      refine ⟨.bool (Tex.initialize none c.dimension (E.world.lib.widthO first)
        (E.world.lib.heightO first) (toolDepth c.imageType (first :: rest).length) 1 c.textureColorSpace :
          Bool × Tex Img).1 :: (o1 ++ o2), ?_⟩
      rw [List.cons_append, List.cons_append]
      simp only [run, call, Res.ok_bind]
      rw [run_append, run_append, r1]
      simp only [Res.ok_bind]
      rw [r2]
      simp only [Res.ok_bind, run, call]
      rw [h3]
      simp
    obtain ⟨outs, hrun⟩ := hrun
    cases cv with
    | false =>
      simp only [Bool.false_eq_true, if_false, Res.ok.injEq] at h4
      exact .inl ⟨outs, t3, hrun, h4.symm⟩
    | true =>
      simp only [if_true] at h4
      obtain ⟨out, ho⟩ := hv.output
      obtain ⟨hc, hf, hty, -⟩ := convert_done h3
      have hc := hc l2
      exact .inr ⟨outs, t3, out, hrun, ho, all_saved h4 ho hc hv.file (by rw [hf, hty]; exact hv.supported) hclose⟩

end Cuttlefish
