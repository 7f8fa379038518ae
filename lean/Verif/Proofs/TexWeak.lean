import Verif.Proofs.TexHist
/-
Facts about every history, including those that leave the texture storage inconsistent: kind,
extents and level count.
-/
namespace Cuttlefish
open Spec
variable {Img : Type}

/-- The fixed part of a texture, valid in every state. -/
structure WInv (i : TexImpl Img) (dim : Dimension) (cs : ColorSpace) (w h d : Nat) : Prop where
  pw : 0 < w ∧ w < pow32
  ph : 0 < h ∧ h < pow32
  pd : d < pow32 ∧ (dim = .Dim3D → 0 < d)
  mips : 1 ≤ i.mipLevels ∧ i.mipLevels ≤ maxMipmapLevels dim w h d
  faces : i.faces = if dim = .Cube then 6 else 1
  edim : i.dimension = dim
  ecs : i.colorSpace = cs
  ew : i.width = w
  eh : i.height = h
  ed : i.depth = d

def TWInv : Tex Img → Prop
  | none => True
  | some i => WInv i i.dimension i.colorSpace i.width i.height i.depth

theorem wAt {i : TexImpl Img} {dim cs w h d} (hI : WInv i dim cs w h d) (m : Nat) :
    Tex.widthAt (some i) m = .ok (if m < i.mipLevels then extent w m else 0) ∧
    Tex.heightAt (some i) m = .ok (if m < i.mipLevels then extent h m else 0) ∧
    Tex.depthAt (some i) m = .ok (if m < i.mipLevels then depthExtent dim d m else 0) := by
  have h32 := maxMip_le dim w h d
  have := hI.mips
  unfold Tex.widthAt Tex.heightAt Tex.depthAt depthExtent
  simp only [hI.edim, hI.ew, hI.eh, hI.ed]
  by_cases hm : m < i.mipLevels
  · have hm32 : m < 32 := by omega
    simp only [ge_iff_le, Nat.not_le.2 hm, hm, if_false, if_true,
      mipExtent_ok _ _ hI.pw.1 hm32, mipExtent_ok _ _ hI.ph.1 hm32, true_and]
    split
    · rename_i h3; rw [mipExtent_ok _ _ (hI.pd.2 h3) hm32]
    · split
      · simp [*]
      · congr 1; omega
  · simp [Nat.le_of_not_lt hm, hm]

theorem winv_init (old : Tex Img) {dim : Dimension} {w h d m : Nat} {cs : ColorSpace}
    (hw : w < pow32) (hh : h < pow32) (hd : d < pow32) :
    (∃ i, Tex.initialize old dim w h d m cs = (true, some i) ∧ WInv i dim cs w h d ∧
      i.mipLevels = min (max m 1) (maxMipmapLevels dim w h d) ∧
      0 < w ∧ 0 < h ∧ (dim = .Dim3D → 0 < d) ∧ i.textures = [] ∧
      i.images = List.replicate i.mipLevels (List.replicate (max d 1) (List.replicate i.faces none)))
    ∨ (Tex.initialize old dim w h d m cs = (false, none) ∧
        (w = 0 ∨ h = 0 ∨ (dim = .Dim3D ∧ d = 0))) := by
  unfold Tex.initialize
  by_cases hc : w = 0 ∨ h = 0 ∨ (dim = .Dim3D ∧ d = 0)
  · exact Or.inr ⟨by rw [if_pos hc], hc⟩
  · left
    rw [if_neg hc]
    have hcc := hc
    rw [not_or, not_or] at hcc
    have hd0 : dim = .Dim3D → 0 < d := fun h3 => by
      have := hcc.2.2; simp only [h3, true_and] at this; omega
    have hpos := maxMip_pos dim w h d (by omega) hw (by omega) hh (fun h3 => ⟨hd0 h3, hd⟩)
    exact ⟨_, rfl, ⟨⟨by omega, hw⟩, ⟨by omega, hh⟩, ⟨hd, hd0⟩,
      ⟨by simp only; omega, by simp only; omega⟩, rfl, rfl, rfl, rfl, rfl, rfl⟩, rfl, by omega, by omega, hd0, rfl, rfl⟩

theorem gen_weak {L : ImageLib Img} {i : TexImpl Img} {dim cs w h d} (hI : WInv i dim cs w h d)
    {filter : ResizeFilter} {r : Nat} {custom : CustomMips Img} {b : Bool} {t : Tex Img}
    (hr : Tex.generateMipmaps L (some i) filter r custom = .ok (b, t)) :
    (t = some i ∧ b = false) ∨ ∃ images : Store (Option Img), t = some { i with
      mipLevels := min (max r 1) (maxMipmapLevels dim w h d), images } := by
  unfold Tex.generateMipmaps at hr
  simp only at hr
  · split at hr
    · simp at hr
    · split at hr
      · simp at hr; left; exact ⟨hr.2.symm, hr.1⟩
      · split at hr
        · simp at hr; left; exact ⟨hr.2.symm, hr.1⟩
        · obtain ⟨hw, hh, hd⟩ := wAt hI 0
          have h0 : 0 < i.mipLevels := hI.mips.1
          have hmm : maxMipmapLevels i.dimension w h (depthExtent dim d 0) =
              maxMipmapLevels dim w h d := by
            rw [hI.edim]
            unfold maxMipmapLevels depthExtent
            by_cases h3 : dim = .Dim3D
            · simp only [h3, if_true]; rfl
            · simp only [h3, if_false]
          rw [hw, hh, hd] at hr
          simp only [Res.ok_bind, if_pos h0] at hr
          rw [show extent w 0 = w from rfl, show extent h 0 = h from rfl] at hr
          split at hr
          · rw [Res.bind_eq_ok] at hr
            obtain ⟨p, -, hp⟩ := hr
            simp only [Res.pure_eq, Res.ok.injEq, Prod.mk.injEq] at hp
            right; refine ⟨p.2, ?_⟩; rw [← hp.2, ← hmm]
          · rw [Res.bind_eq_ok] at hr
            obtain ⟨p, -, hp⟩ := hr
            simp only [Res.pure_eq, Res.ok.injEq, Prod.mk.injEq] at hp
            right; refine ⟨p, ?_⟩; rw [← hp.2, ← hmm]

theorem set_weak {L : ImageLib Img} {i : TexImpl Img} {img : Option Img} {mv : Bool}
    {face : Option CubeFace} {m d : Nat} {b : Bool} {t : Tex Img}
    (hr : Tex.setImage L (some i) img mv face m d = .ok (b, t)) :
    ∃ images : Store (Option Img), t = some { i with images } := by
  unfold Tex.setImage at hr
  rw [Res.bind_eq_ok] at hr
  obtain ⟨d', -, hr⟩ := hr
  split at hr
  · simp at hr; exact ⟨i.images, hr.2.symm⟩
  · rw [Res.bind_eq_ok] at hr
    obtain ⟨w', -, hr⟩ := hr
    rw [Res.bind_eq_ok] at hr
    obtain ⟨h', -, hr⟩ := hr
    split at hr
    · simp at hr; exact ⟨i.images, hr.2.symm⟩
    · simp only at hr
      split at hr
      · simp at hr; exact ⟨i.images, hr.2.symm⟩
      · rw [Res.bind_eq_ok] at hr
        obtain ⟨im, -, hr⟩ := hr
        simp at hr; exact ⟨im, hr.2.symm⟩

theorem convert_weak {c : Features} {hw : Nat} {enc : Encoder Img} {i : TexImpl Img}
    {f : Format} {ty : TType} {q : Quality} {al : Alpha} {m : ColorMask} {th : Nat} {b : Bool}
    {t : Tex Img} (hr : Tex.convert c hw enc (some i) f ty q al m th = .ok (b, t)) :
    ∃ f' ty' al' m' images textures, t = some { i with
      format := f', type := ty', alphaType := al', colorMask := m', images, textures } := by
  unfold Tex.convert at hr
  split at hr
  · simp at hr; exact ⟨_, _, _, _, _, _, hr.2.symm⟩
  · simp only at hr
    split at hr
    · simp at hr; exact ⟨_, _, _, _, _, _, hr.2.symm⟩
    · rw [Res.bind_eq_ok] at hr
      obtain ⟨p, -, hr⟩ := hr
      split at hr
      · simp at hr; exact ⟨_, _, _, _, _, _, hr.2.symm⟩
      · simp at hr; exact ⟨_, _, _, _, _, _, hr.2.symm⟩

theorem call_weak {W : World Img} {i : TexImpl Img} {dim cs w h d} (hI : WInv i dim cs w h d)
    {o : Op Img} (ho : keepsShape o) {out : Out Img} {t : Tex Img} (hr : call W (some i) o = .ok (out, t)) :
    ∃ i', t = some i' ∧ WInv i' dim cs w h d := by
  cases o with
  | «initialize» => exact absurd ho (by simp [keepsShape])
  | reset => exact absurd ho (by simp [keepsShape])
  | setImage img mv face m d =>
    simp only [call, Res.bind_eq_ok] at hr
    obtain ⟨⟨b, t'⟩, h1, h2⟩ := hr
    simp only [Res.pure_eq, Res.ok.injEq, Prod.mk.injEq] at h2
    obtain ⟨im, h3⟩ := set_weak h1
    rw [← h2.2, h3]
    exact ⟨_, rfl, ⟨hI.pw, hI.ph, hI.pd, hI.mips, hI.faces, hI.edim, hI.ecs, hI.ew, hI.eh, hI.ed⟩⟩
  | generateMipmaps filter r custom =>
    simp only [call, Res.bind_eq_ok] at hr
    obtain ⟨⟨b, t'⟩, h1, h2⟩ := hr
    simp only [Res.pure_eq, Res.ok.injEq, Prod.mk.injEq] at h2
    rcases gen_weak hI h1 with ⟨h3, -⟩ | ⟨im, h3⟩
    · rw [← h2.2, h3]; exact ⟨_, rfl, hI⟩
    · rw [← h2.2, h3]
      have hpos := hI.mips
      exact ⟨_, rfl, ⟨hI.pw, hI.ph, hI.pd, ⟨by simp only; omega, by simp only; omega⟩, hI.faces,
        hI.edim, hI.ecs, hI.ew, hI.eh, hI.ed⟩⟩
  | convert f ty q al m th =>
    simp only [call, Res.bind_eq_ok] at hr
    obtain ⟨⟨b, t'⟩, h1, h2⟩ := hr
    simp only [Res.pure_eq, Res.ok.injEq, Prod.mk.injEq] at h2
    obtain ⟨_, _, _, _, _, _, h3⟩ := convert_weak h1
    rw [← h2.2, h3]
    exact ⟨_, rfl, ⟨hI.pw, hI.ph, hI.pd, hI.mips, hI.faces, hI.edim, hI.ecs, hI.ew, hI.eh, hI.ed⟩⟩
  | getImage face m d =>
    simp only [call, Res.bind_eq_ok] at hr
    obtain ⟨_, -, h2⟩ := hr
    simp only [Res.pure_eq, Res.ok.injEq, Prod.mk.injEq] at h2
    exact ⟨i, h2.2.symm, hI⟩
  | extents m =>
    simp only [call, Res.bind_eq_ok] at hr
    obtain ⟨_, -, _, -, _, -, h2⟩ := hr
    simp only [Res.pure_eq, Res.ok.injEq, Prod.mk.injEq] at h2
    exact ⟨i, h2.2.symm, hI⟩
  | data face m d =>
    simp only [call, Res.bind_eq_ok] at hr
    obtain ⟨_, -, _, -, h2⟩ := hr
    simp only [Res.pure_eq, Res.ok.injEq, Prod.mk.injEq] at h2
    exact ⟨i, h2.2.symm, hI⟩

theorem run_weak {W : World Img} {dim cs w h d} : ∀ (os : List (Op Img)) {i : TexImpl Img},
    WInv i dim cs w h d → (∀ o ∈ os, keepsShape o) → ∀ {outs : List (Out Img)} {t : Tex Img},
    run W (some i) os = .ok (outs, t) → ∃ i', t = some i' ∧ WInv i' dim cs w h d
  | [], i, hI, _, outs, t, hr => by
    simp [run] at hr; exact ⟨i, hr.2.symm, hI⟩
  | o :: os, i, hI, ho, outs, t, hr => by
    simp only [run, Res.bind_eq_ok] at hr
    obtain ⟨⟨o1, t1⟩, h1, ⟨o2, t2⟩, h2, h3⟩ := hr
    simp only [Res.pure_eq, Res.ok.injEq, Prod.mk.injEq] at h3
    obtain ⟨i', rfl, hI'⟩ := call_weak hI (ho o (by simp)) h1
    obtain ⟨i'', h4, hI''⟩ := run_weak os hI' (fun o ho' => ho o (by simp [ho'])) h2
    exact ⟨i'', by rw [← h3.2]; exact h4, hI''⟩

theorem run_append {W : World Img} : ∀ (os os' : List (Op Img)) (t : Tex Img),
    run W t (os ++ os') = run W t os >>= fun r => run W r.2 os' >>= fun r' =>
      .ok (r.1 ++ r'.1, r'.2)
  | [], os', t => by
    simp only [List.nil_append, run, Res.ok_bind]
    cases run W t os' <;> simp
  | o :: os, os', t => by
    simp only [List.cons_append, run]
    cases call W t o with
    | ub => simp
    | ok r =>
      simp only [Res.ok_bind, run_append os os' r.2]
      cases run W r.2 os with
      | ub => simp
      | ok r1 =>
        simp only [Res.ok_bind, Res.pure_eq]
        cases run W r1.2 os' <;> simp

end Cuttlefish
