import Verif.Proofs.Process
/-
Images stay valid while there is memory.
-/
namespace Cuttlefish
open Spec
variable {N : Type} {A : Arith N} {FI : FreeImage N}

theorem new_alive (M : EnoughMemory FI) {f : IFormat} (hf : f ≠ .Invalid) (w h : ℕ) (cs : ColorSpace) :
    ∃ i, Image.new FI f w h cs = some i := by
  unfold Image.new
  rw [if_neg hf]
  obtain ⟨b, hb⟩ := Option.ne_none_iff_exists'.1 (M.1 f w h hf)
  rw [hb]
  exact ⟨_, rfl⟩

theorem copy_alive (M : EnoughMemory FI) (i : Image N) : ∃ j, i.copy FI = some j := by
  unfold Image.copy
  obtain ⟨b, hb⟩ := Option.ne_none_iff_exists'.1 (M.2 i.bmp)
  rw [hb]
  exact ⟨_, rfl⟩

theorem onValid_alive {f : Image N → Res (Img? N)} (hf : ∀ i r, f i = .ok r → r ≠ none) {o r : Img? N} (ho : o ≠ none)
    (e : onValid f o = .ok r) : r ≠ none := by
  cases o with
  | none => exact absurd rfl ho
  | some i => exact hf i r e

theorem onPixels_alive {f : Image N → Res (Image N)} {o r : Img? N} (ho : o ≠ none) (e : onPixels f o = .ok r) :
    r ≠ none := by
  refine onValid_alive (fun i r e => ?_) ho e
  obtain ⟨k, -, e⟩ := Res.bind_eq_ok.1 e
  cases e
  simp

theorem whenAsked_alive {asked : Bool} {f : Img? N → Res (Img? N)} {o r : Img? N} (ho : o ≠ none)
    (hf : f o = .ok r → r ≠ none) (e : whenAsked asked f o = .ok r) : r ≠ none := by
  unfold whenAsked at e
  split at e
  · exact hf e
  · cases e
    exact ho

theorem convert_alive (M : EnoughMemory FI) (i : Image N) (r : Img? N) (e : i.convert A FI .RGBAF true = .ok r) :
    r ≠ none := by
  unfold Image.convert at e
  split at e
  · cases e
    obtain ⟨j, hj⟩ := copy_alive M i
    rw [hj]
    simp
  · rw [if_neg (by simp)] at e
    dsimp only at e
    split at e
    · cases e
      simp
    · obtain ⟨n, hn⟩ := new_alive M (f := .RGBAF) (by simp) i.bmp.width i.bmp.height i.colorSpace
      rw [hn] at e
      obtain ⟨k, -, e⟩ := Res.bind_eq_ok.1 e
      cases e
      simp

theorem resizeLinear_alive (M : EnoughMemory FI) {filter : ResizeFilter} (C : CanResize FI filter) {i : Image N}
    (hp : 0 < i.bmp.width ∧ 0 < i.bmp.height)
    (hf : i.format = .RGBF ∨ i.format = .RGBAF) {w h : ℕ} {r : Img? N} (e : resizeLinear A FI i w h filter = .ok r) :
    r ≠ none := by
  have valid : i.format ≠ .Invalid := by rcases hf with h | h <;> rw [h] <;> simp
  have hr : rescales i.format = true := by rcases hf with h | h <;> rw [h] <;> rfl
  unfold resizeLinear at e
  rw [if_pos hr] at e
  split at e
  · cases e
    simp
  · rename_i hb
    obtain ⟨n, hn⟩ := new_alive M valid w h i.colorSpace
    rw [hn] at e
    rcases C with rfl | rfl | C
    · obtain ⟨k, -, e⟩ := Res.bind_eq_ok.1 e
      cases e
      simp
    · obtain ⟨k, -, e⟩ := Res.bind_eq_ok.1 e
      cases e
      simp
    · exact absurd hb (C _ _ _ hp.1 hp.2)

theorem resize_alive (L : LawfulArith A) (M : EnoughMemory FI) (F : LawfulFI A FI) {filter : ResizeFilter}
    (C : CanResize FI filter) {i : Image N} (hi : ImgOk A i) (hp : 0 < i.bmp.width ∧ 0 < i.bmp.height)
    (hf : i.format = .RGBF ∨ i.format = .RGBAF) {w h : ℕ} (hw : 0 < w) (hh : 0 < h) {r : Img? N} (e : i.resize A FI w h filter = .ok r) : r ≠ none := by
  unfold Image.resize at e
  rw [if_neg (by omega)] at e
  obtain ⟨j, hj⟩ := copy_alive M i
  rw [hj] at e
  split at e
  · cases e
    simp
  · split at e
    · cases copy_keep F hj
      obtain ⟨k, ek, e⟩ := Res.bind_eq_ok.1 e
      obtain ⟨k1, k2, -, k4, k5⟩ := changeColorSpace_keep L hi ek
      obtain ⟨m, em, e⟩ := Res.bind_eq_ok.1 e
      have := resizeLinear_alive M C (by rw [k4, k5]; exact hp) (by rw [k2]; exact hf) em
      cases m with
      | none => exact absurd rfl this
      | some m =>
        obtain ⟨n, -, e⟩ := Res.bind_eq_ok.1 e
        cases e
        simp
    · exact resizeLinear_alive M C hp hf e

theorem rotate_alive (M : EnoughMemory FI) {i : Image N} (hf : i.format ≠ .Invalid) {a : RotateAngle} {r : Img? N}
    (e : i.rotate A FI a = .ok r) : r ≠ none := by
  have new (w h : ℕ) := new_alive M hf w h i.colorSpace
  unfold Image.rotate at e
  split at e
  · cases e
    simp
  · dsimp only at e
    split at e
    · rename_i hn
      split at hn
      · obtain ⟨j, hj⟩ := new i.bmp.width i.bmp.height
        rw [hj] at hn
        cases hn
      · obtain ⟨j, hj⟩ := new i.bmp.width i.bmp.height
        rw [hj] at hn
        cases hn
      · obtain ⟨j, hj⟩ := new i.bmp.height i.bmp.width
        rw [hj] at hn
        cases hn
    · obtain ⟨k, -, e⟩ := Res.bind_eq_ok.1 e
      cases e
      simp

theorem normal_alive (M : EnoughMemory FI) (i : Image N) (o : NormalOptions) (height : N) (r : Img? N)
    (e : i.createNormalMap A FI o height .RGBF = .ok r) : r ≠ none := by
  unfold Image.createNormalMap at e
  obtain ⟨n, hn⟩ := new_alive M (f := .RGBF) (by simp) i.bmp.width i.bmp.height i.colorSpace
  rw [hn] at e
  obtain ⟨k, -, e⟩ := Res.bind_eq_ok.1 e
  cases e
  simp

theorem adjust_alive {i : Image N} (hf : i.format ∈ floats) {type : TType} {orig : IFormat} {r : Img? N}
    (e : adjustImageValueRange A FI i type orig = .ok r) : r ≠ none := by
  unfold adjustImageValueRange at e
  dsimp only at e
  generalize (if orig = IFormat.Invalid then i.format else orig) = orig' at e
  split at e
  · have : ∃ f, adjustedFormat i.format = some f ∧ adjustConverts i.format = false := by
      simp only [floats, List.mem_cons, List.not_mem_nil, or_false] at hf
      rcases hf with h | h | h <;> rw [h] <;> exact ⟨_, rfl, rfl⟩
    obtain ⟨f, ef, ec⟩ := this
    rw [ef] at e
    dsimp only [adjustSource] at e
    rw [ec] at e
    simp only [Bool.false_eq_true, if_false, Res.ok_bind, adjustAll] at e
    obtain ⟨k, ek, e⟩ := Res.bind_eq_ok.1 e
    cases e
    simp
  · cases e
    simp

theorem turned_pos {c : Cmd N} {s : ℕ × ℕ} (h : 0 < s.1 ∧ 0 < s.2) : 0 < (turnedSize c s).1 ∧ 0 < (turnedSize c s).2 := by
  unfold turnedSize
  split
  · cases c.rotateAngle <;> simp only [Move.place, quarter] <;> first | exact h | exact h.symm
  · exact h

/-- With enough memory there is an image. -/
theorem processLoaded_alive (L : LawfulArith A) (F : LawfulFI A FI) (M : EnoughMemory FI) {c : Cmd N}
    (C : CanResize FI c.resizeFilter) {i : Image N} {w h l : ℕ} (hi : ImgOk A i)
    (hcs : i.colorSpace = c.imageColorSpace) (hpos : 0 < i.bmp.width ∧ 0 < i.bmp.height)
    (hw : c.normalMap = true → 0 < w ∧ 0 < h) {r : Img? N} (e : processLoaded A FI c i w h l = .ok r) : r ≠ none := by
  unfold processLoaded at e
  obtain ⟨o1, e1, e⟩ := Res.bind_eq_ok.1 e
  obtain ⟨o2, e2, e⟩ := Res.bind_eq_ok.1 e
  obtain ⟨tw, ew, e⟩ := Res.bind_eq_ok.1 e
  obtain ⟨th, eh, e⟩ := Res.bind_eq_ok.1 e
  obtain ⟨hl, rfl⟩ := thisSize_eq ew
  obtain ⟨-, rfl⟩ := thisSize_eq eh
  obtain ⟨o3, e3, e⟩ := Res.bind_eq_ok.1 e
  obtain ⟨o4, e4, e⟩ := Res.bind_eq_ok.1 e
  obtain ⟨o5, e5, e⟩ := Res.bind_eq_ok.1 e
  obtain ⟨n, e6, e⟩ := Res.bind_eq_ok.1 e
  obtain ⟨o7, e7, e⟩ := Res.bind_eq_ok.1 e
  obtain ⟨o8, e8, e⟩ := Res.bind_eq_ok.1 e
  obtain ⟨o9, e9, e⟩ := Res.bind_eq_ok.1 e
  obtain ⟨o10, e10, e⟩ := Res.bind_eq_ok.1 e
  have h1 := convertF_keep L F hi e1
  rw [hcs] at h1
  have h2 := changeF_keep L h1 e2
  have h3 := resizeTo_keep L F hpos h2 e3
  have hsize : (if c.normalMap = true then (w, h) else (max (w / 2 ^ l) 1, max (h / 2 ^ l) 1)) =
      firstSize c (w, h) l := rfl
  have fpos : 0 < (firstSize c (w, h) l).1 ∧ 0 < (firstSize c (w, h) l).2 := by
    unfold firstSize levelSize
    split
    · rename_i hn
      exact hw hn
    · exact ⟨by dsimp only; omega, by dsimp only; omega⟩
  rw [hsize] at e3 e6
  rw [Prod.mk.eta, hsize] at h3
  have h3' : Holds (Looks A .RGBAF c.textureColorSpace (firstSize c (w, h) l)) o3 := fun i hi => (h3 i hi).1
  have h4 : Holds (Looks A .RGBAF c.textureColorSpace (turnedSize c (firstSize c (w, h) l))) o4 := by
    unfold turnedSize
    refine whenAsked_holds (fun hr r er => ?_) (fun hr i hi => ?_) h3' e4
    · rw [if_pos hr]
      exact onValid_holds (fun i j hi e => rotate_keep L F hi e) h3' er
    · rw [if_neg (by simp [hr])]
      exact hi
  have h5 : Holds (Looks A .RGBAF c.textureColorSpace (turnedSize c (firstSize c (w, h) l))) o5 :=
    whenAsked_holds (fun hr r er => onPixels_holds (fun i j hi e => (mapPixels_keep L hi.ok e).looks hi) h4 er)
      (fun _ _ hi => hi) h4 e5
  have h6 := normal_keep L F h5 e6
  generalize (if c.normalMap = true ∧ firstSize c (w, h) l ≠ (max (w / 2 ^ l) 1, max (h / 2 ^ l) 1) then
      (max (w / 2 ^ l) 1, max (h / 2 ^ l) 1) else turnedSize c (firstSize c (w, h) l)) = t at h6
  have h7 : Holds (Looks A (lastFormat c) c.textureColorSpace t) o7 :=
    whenAsked_holds (fun _ r er => onPixels_holds (fun i j hi e => by
      cases e; exact (flipHorizontal_keep F hi.ok).looks hi) h6 er) (fun _ _ hi => hi) h6 e7
  have h8 : Holds (Looks A (lastFormat c) c.textureColorSpace t) o8 :=
    whenAsked_holds (fun _ r er => onPixels_holds (fun i j hi e => by
      cases e; exact (flipVertical_keep F hi.ok).looks hi) h7 er) (fun _ _ hi => hi) h7 e8
  have h9 : Holds (Looks A (lastFormat c) c.textureColorSpace t) o9 :=
    whenAsked_holds (fun _ r er => onPixels_holds (fun i j hi e => (mapPixels_keep L hi.ok e).looks hi) h8 er)
      (fun _ _ hi => hi) h8 e9
  have h10 : Holds (Looks A (lastFormat c) c.textureColorSpace t) o10 :=
    whenAsked_holds (fun _ r er => onPixels_holds (fun i j hi e => (preMultiplyAlpha_keep L hi.ok e).looks hi) h9 er)
      (fun _ _ hi => hi) h9 e10
  have lf : lastFormat c ∈ floats := by
    unfold lastFormat
    split <;> simp [floats]
  have v1 : o1 ≠ none := whenAsked_alive (by simp) (fun e => onValid_alive (convert_alive M) (by simp) e) e1
  have v2 : o2 ≠ none := whenAsked_alive v1 (onPixels_alive v1) e2
  have v3 : o3 ≠ none := by
    unfold resizeTo at e3
    split at e3
    · cases o2 with
      | none => exact absurd rfl v2
      | some k => exact resize_alive L M F C (h2 k rfl).ok (by
        have := (h2 k rfl).size
        simp only [Prod.mk.injEq] at this
        rw [this.1, this.2]
        exact hpos) (Or.inr (h2 k rfl).format) fpos.1 fpos.2 e3
    · cases e3
      exact v2
  have v4 : o4 ≠ none := whenAsked_alive v3 (fun e => by
    cases o3 with
    | none => exact absurd rfl v3
    | some k => exact rotate_alive M (by rw [(h3' k rfl).format]; simp) e) e4
  have v5 : o5 ≠ none := whenAsked_alive v4 (onPixels_alive v4) e5
  have v6 : n.1 ≠ none := by
    unfold toolNormalMap at e6
    split at e6
    · dsimp only at e6
      obtain ⟨a, ea, e6⟩ := Res.bind_eq_ok.1 e6
      obtain ⟨b, eb, e6⟩ := Res.bind_eq_ok.1 e6
      cases e6
      have va := onValid_alive (fun i r e => normal_alive M i _ _ r e) v5 ea
      refine whenAsked_alive va (fun e => ?_) eb
      cases a with
      | none => exact absurd rfl va
      | some k =>
        have tpos := turned_pos (c := c) fpos
        have hk : ImgOk A k ∧ k.format = .RGBF ∧ 0 < k.bmp.width ∧ 0 < k.bmp.height := by
          refine (onValid_holds (Q := fun k => ImgOk A k ∧ k.format = .RGBF ∧ 0 < k.bmp.width ∧ 0 < k.bmp.height)
            (fun i j hi e => ?_) h5 ea) k rfl
          obtain ⟨h1, h2, -, h4, h5⟩ := createNormalMap_keep F L e
          rw [← hi.size] at tpos
          exact ⟨h1, h2, by rw [h4]; exact tpos.1, by rw [h5]; exact tpos.2⟩
        exact resize_alive L M F C hk.1 hk.2.2 (Or.inl hk.2.1) (by omega) (by omega) e
    · cases e6
      exact v5
  have v7 : o7 ≠ none := whenAsked_alive v6 (onPixels_alive v6) e7
  have v8 : o8 ≠ none := whenAsked_alive v7 (onPixels_alive v7) e8
  have v9 : o9 ≠ none := whenAsked_alive v8 (onPixels_alive v8) e9
  have v10 : o10 ≠ none := whenAsked_alive v9 (onPixels_alive v9) e10
  cases o10 with
  | none => exact absurd rfl v10
  | some k => exact adjust_alive (by rw [(h10 k rfl).format]; exact lf) e

end Cuttlefish
