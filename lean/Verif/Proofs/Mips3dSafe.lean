import Verif.Model.Mips3d
import Verif.Proofs.WindowIeee
import Verif.Proofs.ResizeSafe
import Verif.Proofs.TextureImages
/-
The reduction of 3D textures along the depth is defined in IEEE arithmetic.
-/
namespace Cuttlefish
open Spec
variable {Lm : Libm}

theorem loop_defined {S : Type} {f : ℕ → S → Res S} {is : List ℕ} (h : ∀ i ∈ is, ∀ s, ∃ s', f i s = .ok s') (s : S) :
    ∃ s', loop is f s = .ok s' := by
  induction is generalizing s with
  | nil => exact ⟨s, rfl⟩
  | cons i is ih =>
    obtain ⟨s1, e⟩ := h i (by simp) s
    obtain ⟨s2, e2⟩ := ih (fun j hj => h j (List.mem_cons_of_mem _ hj)) s1
    exact ⟨s2, by rw [loop, e, Res.ok_bind, e2]⟩

theorem stored_single {N : Type} {A : Arith N} (L : LawfulArith A) (cs : ColorSpace) (c : Color N) :
    PxOk A .RGBAF (.nums [(storedResult A cs c).r, (storedResult A cs c).g, (storedResult A cs c).b,
      (storedResult A cs c).a]) := by
  cases cs <;> simp [storedResult, PxOk, L.single]

/-- A pixel of an output slice is defined and made of floats. -/
theorem pixel3d_ieee {prev : List (Image Dbl)} (hne : prev ≠ []) (hlen : prev.length < 2 ^ 31) {depth d y x : ℕ}
    (hd : d < depth) (hdep : depth < 2 ^ 32)
    (hok : ∀ i ∈ prev, ImgOk (Arith.ieee Lm) i ∧ y < i.bmp.height ∧ x < i.bmp.width) (cs : ColorSpace)
    (filter : ResizeFilter) :
    ∃ c, pixel3d (Arith.ieee Lm) prev depth cs filter d y x = .ok c ∧
      PxOk (Arith.ieee Lm) .RGBAF (.nums [c.r, c.g, c.b, c.a]) := by
  have hn : 0 < prev.length := List.length_pos_iff.2 hne
  obtain ⟨c, o, s, hc, c0, c1, -, o0, o1, -, s0, s1, e1, e2, e3⟩ := ieee_axis (Lm := Lm) hn hlen hd hdep
  obtain ⟨lo, hi, ew, -, -, w3⟩ := ieee_window (Lm := Lm) hlen hc c0 c1 (by linarith) o1
  have src (k : ℕ) (hk : k < prev.length) : ∃ c, sliceSource (Arith.ieee Lm) prev cs y x k = .ok c := by
    obtain ⟨h1, h2, h3⟩ := hok prev[k] (List.getElem_mem hk)
    obtain ⟨c, e, -⟩ := Image.get_ok h1 (show prev[k].bmp.height - y - 1 < prev[k].bmp.height by omega) h3
    refine ⟨linearSource (Arith.ieee Lm) cs c, ?_⟩
    unfold sliceSource
    rw [List.getElem?_eq_getElem hk]
    simp only [Image.scan, if_pos h2, e, Res.ok_bind]
  have inside {k : ℕ} (hk : k ∈ steps lo hi) : k < prev.length := by
    simp only [steps, List.mem_range'_1] at hk
    omega
  generalize hax : axis (Arith.ieee Lm) prev.length depth = ax at e1 e2 e3
  obtain ⟨inv, off, scale⟩ := ax
  simp only at e1 e2 e3
  subst e2 e3
  unfold pixel3d
  split
  · unfold boxPixel3d
    obtain ⟨⟨col, tot⟩, e⟩ := loop_defined (is := steps lo hi) (f := fun i (s' : Color Dbl × ℕ) =>
      if (Arith.ieee Lm).lt ((Arith.ieee Lm).lit 0.5) (distanceTo (Arith.ieee Lm) i (.fin c) (.fin s)) then .ok s'
      else do
        let c ← sliceSource (Arith.ieee Lm) prev cs y x i
        .ok (addColor (Arith.ieee Lm) s'.1 c, u32 (s'.2 + 1))) (by
        intro k hk s'
        obtain ⟨c', e⟩ := src k (inside hk)
        split
        · exact ⟨_, rfl⟩
        · rw [e]; exact ⟨_, rfl⟩) (zeroColor (Arith.ieee Lm), 0)
    refine ⟨_, ?_, stored_single (lawful_ieee Lm) cs (divColor (Arith.ieee Lm) col ((Arith.ieee Lm).lit tot))⟩
    simp only [hax, e1, ew, Res.ok_bind, e]
  · unfold linearPixel3d
    obtain ⟨⟨col, tot⟩, e⟩ := loop_defined (is := steps lo hi) (f := fun i (s' : Color Dbl × Dbl) =>
      let w := (Arith.ieee Lm).max ((Arith.ieee Lm).sub ((Arith.ieee Lm).lit 1)
        (distanceTo (Arith.ieee Lm) i (.fin c) (.fin s))) ((Arith.ieee Lm).lit 0)
      if (Arith.ieee Lm).eq w ((Arith.ieee Lm).lit 0) then .ok s'
      else do
        let c ← sliceSource (Arith.ieee Lm) prev cs y x i
        .ok (addScaled (Arith.ieee Lm) s'.1 c w, (Arith.ieee Lm).add s'.2 w)) (by
        intro k hk s'
        obtain ⟨c', e⟩ := src k (inside hk)
        dsimp only
        split
        · exact ⟨_, rfl⟩
        · rw [e]; exact ⟨_, rfl⟩) (zeroColor (Arith.ieee Lm), (Arith.ieee Lm).lit 0)
    refine ⟨_, ?_, stored_single (lawful_ieee Lm) cs (divColor (Arith.ieee Lm) col tot)⟩
    simp only at e
    simp only [hax, e1, ew, Res.ok_bind, e]

/-- An output slice is defined if it can be allocated. -/
theorem mipSlice3d_ieee {FI : FreeImage Dbl} (F : LawfulFI (Arith.ieee Lm) FI) (M : EnoughMemory FI)
    {prev : List (Image Dbl)} (hne : prev ≠ []) (hlen : prev.length < 2 ^ 31) {w h depth d : ℕ}
    (hd : d < depth) (hdep : depth < 2 ^ 32)
    (hok : ∀ i ∈ prev, ImgOk (Arith.ieee Lm) i ∧ i.bmp.width = w ∧ i.bmp.height = h) (cs : ColorSpace)
    (filter : ResizeFilter) :
    ∃ j, mipSlice3d (Arith.ieee Lm) FI prev w h depth cs filter d = .ok j ∧ ImgOk (Arith.ieee Lm) j ∧
      j.format = .RGBAF ∧ j.bmp.width = w ∧ j.bmp.height = h := by
  unfold mipSlice3d
  cases hn : Image.new FI .RGBAF w h cs with
  | none =>
    unfold Image.new at hn
    rw [if_neg (by simp), Option.map_eq_none_iff] at hn
    exact absurd hn (M.1 _ _ _ (by simp))
  | some dst =>
    obtain ⟨n1, n2, n3, n4, -⟩ := new_ok F hn
    obtain ⟨j, e, h1, h2, h3, h4, h5⟩ := write_grid (dst := dst) (h := h) (w := w)
      (q := fun y x => (h - y - 1, x)) (P := fun _ _ p => PxOk (Arith.ieee Lm) .RGBAF p)
      (body := fun y x dst => do
        let c ← pixel3d (Arith.ieee Lm) prev depth cs filter d y x
        dst.put (dst.bmp.height - y - 1) x (.nums [c.r, c.g, c.b, c.a])) (by
        intro y hy x hx D df dw dh dp
        obtain ⟨c, ec, b⟩ := pixel3d_ieee (Lm := Lm) hne hlen hd hdep (y := y) (x := x) (fun i hi => by
          obtain ⟨a, b, c⟩ := hok i hi
          exact ⟨a, by omega, by omega⟩) cs filter
        refine ⟨_, b, ?_⟩
        rw [ec, Res.ok_bind, dh, n4]
        exact Image.put_ok (i := D) (y := h - y - 1) (x := x) (by omega) (by omega) _)
      (by
        intro y hy x hx y' hy' x' hx' h
        simp only [Prod.mk.injEq] at h
        omega)
    refine ⟨j, e, ?_, h1.trans n1, h3.trans n3, h4.trans n4⟩
    intro y x hy hx
    have := h5 (h - y - 1) (by omega) x (by omega)
    dsimp only at this
    rwa [show h - (h - y - 1) - 1 = y by omega, ← n1, ← h1] at this

end Cuttlefish
