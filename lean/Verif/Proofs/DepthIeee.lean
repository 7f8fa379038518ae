import Verif.Proofs.LinearIeee
import Verif.Proofs.UnitMips3d
/-
The reduction of a 3D texture along its depth in IEEE arithmetic: the range of the slices is kept exactly.
-/
namespace Cuttlefish
open Spec
variable {Lm : Libm} {FI : FreeImage Dbl}

/-- Finitely many single precision numbers have a smallest and a largest one. -/
theorem family_bounds {n : ℕ} (hn : 0 < n) {ch : Color Dbl → Dbl} {f : ℕ → Color Dbl}
    (hs : ∀ k < n, Dbl.single (ch (f k)) = ch (f k)) (hfin : ∀ k < n, ∃ q : ℚ, ch (f k) = .fin q) :
    ∃ lo hi : ℚ, SingleBound lo ∧ SingleBound hi ∧ (∃ k < n, ch (f k) = .fin lo) ∧ (∃ k < n, ch (f k) = .fin hi) ∧
      ∀ k < n, Ranged lo hi (ch (f k)) := by
  have hc (k : ℕ) : ∃ q : ℚ, k < n → ch (f k) = .fin q ∧ SingleBound q := by
    by_cases h : k < n
    · obtain ⟨q, e⟩ := hfin k h
      have := hs k h
      rw [e] at this
      exact ⟨q, fun _ => ⟨e, single_bound this⟩⟩
    · exact ⟨0, fun h' => absurd h' h⟩
  choose val hval using hc
  have hne : (Finset.range n).Nonempty := ⟨0, by simpa using hn⟩
  obtain ⟨p, hp, pmin⟩ := Finset.exists_min_image _ val hne
  obtain ⟨q, hq, qmax⟩ := Finset.exists_max_image _ val hne
  rw [Finset.mem_range] at hp hq
  exact ⟨val p, val q, (hval p hp).2, (hval q hq).2, ⟨p, hp, (hval p hp).1⟩, ⟨q, hq, (hval q hq).1⟩,
    fun k hk => ⟨val k, (hval k hk).1, pmin k (by simpa using hk), qmax k (by simpa using hk)⟩⟩

/-- A pixel of an output slice, from linear colours of single precision, rounded to single precision. -/
theorem pixel3d_rounded {prev : List (Image Dbl)} (hne : prev ≠ []) (hlen : prev.length ≤ 2 ^ 24) {depth d y x : ℕ}
    (hd : d < depth) (hdep : depth < 2 ^ 32) (cs : ColorSpace) (filter : ResizeFilter) {lo hi : Color ℚ}
    (hlo : AllBounds SingleBound lo) (hhi : AllBounds SingleBound hi)
    (src : ∀ k < prev.length, ∃ c, sliceSource (Arith.ieee Lm) prev cs y x k = .ok c ∧ RangedColor lo hi c) :
    ∃ c, pixel3d (Arith.ieee Lm) prev depth cs filter d y x = .ok (storedResult (Arith.ieee Lm) cs c) ∧
      RoundedColor lo hi c := by
  obtain ⟨c, e, k⟩ := pixel3d_steps hne (by omega) hd hdep cs filter (RangedColor lo hi) src
    (fun n s => RangedColor (timesColor lo n) (timesColor hi n) s) (by simpa using ranged_zero lo hi)
    (fun n s c hn hs hc => rangedColor_add (m := prev.length) (hlo.imp fun b h => h.box (by omega))
      (hhi.imp fun b h => h.box (by omega)) hn (by omega) hs hc)
    (NearColor lo hi) (fun n => by
      obtain ⟨h1, h2, h3, h4⟩ := near_start (Lm := Lm) lo hi
      exact ⟨h1.more le_rfl (by omega), h2.more le_rfl (by omega), h3.more le_rfl (by omega), h4.more le_rfl (by omega)⟩)
    (fun n t s ⟨h1, h2, h3, h4⟩ t0 => ⟨h1.more t0 (by omega), h2.more t0 (by omega), h3.more t0 (by omega),
      h4.more t0 (by omega)⟩)
    (fun n t s v c hn t0 tn v0 v1 rv ⟨h1, h2, h3, h4⟩ ⟨c1, c2, c3, c4⟩ =>
      ⟨h1.step hlo.1 hhi.1 (by omega) t0 tn v0 v1 c1, h2.step hlo.2.1 hhi.2.1 (by omega) t0 tn v0 v1 c2,
        h3.step hlo.2.2.1 hhi.2.2.1 (by omega) t0 tn v0 v1 c3, h4.step hlo.2.2.2 hhi.2.2.2 (by omega) t0 tn v0 v1 c4⟩)
  refine ⟨_, e, ?_⟩
  rcases k with ⟨s, n, rfl, n0, -, hs⟩ | ⟨s, t, n, rfl, t0, tn, hn, k1, k2, k3, k4⟩
  · refine rounded_ranged hlo hhi (rangedColor_div (hlo.imp fun b h => ?_) (hhi.imp fun b h => ?_)
      (by exact_mod_cast n0) hs)
    · exact ⟨(h.box (m := 0) (by omega)).1, (h.box (m := 0) (by omega)).2.1⟩
    · exact ⟨(h.box (m := 0) (by omega)).1, (h.box (m := 0) (by omega)).2.1⟩
  · exact ⟨k1.quotient (Lm := Lm) hlo.1 hhi.1 (by omega) t0 tn, k2.quotient (Lm := Lm) hlo.2.1 hhi.2.1 (by omega) t0 tn,
      k3.quotient (Lm := Lm) hlo.2.2.1 hhi.2.2.1 (by omega) t0 tn,
      k4.quotient (Lm := Lm) hlo.2.2.2 hhi.2.2.2 (by omega) t0 tn⟩

/-- What is stored is of single precision. -/
theorem result_single (cs : ColorSpace) (c : Color Dbl) :
    PxOk (Arith.ieee Lm) .RGBAF (.nums [(storedResult (Arith.ieee Lm) cs c).r, (storedResult (Arith.ieee Lm) cs c).g,
      (storedResult (Arith.ieee Lm) cs c).b, (storedResult (Arith.ieee Lm) cs c).a]) := by
  unfold storedResult
  split
  · exact ⟨(lawful_ieee Lm).single _, (lawful_ieee Lm).single _, (lawful_ieee Lm).single _, (lawful_ieee Lm).single _⟩
  · exact ⟨(lawful_ieee Lm).single _, (lawful_ieee Lm).single _, (lawful_ieee Lm).single _, (lawful_ieee Lm).single _⟩

/-- The linear colours of a source slice are of single precision. -/
theorem source_single (cs : ColorSpace) {c : Color Dbl} (h : ∀ ch ∈ doubleChannels, Dbl.single (ch c) = ch c) :
    ∀ ch ∈ doubleChannels, Dbl.single (ch (linearSource (Arith.ieee Lm) cs c)) = ch (linearSource (Arith.ieee Lm) cs c) := by
  unfold linearSource
  split
  · simp only [doubleChannels, List.forall_mem_cons, List.not_mem_nil, IsEmpty.forall_iff, implies_true, and_true]
    exact ⟨(lawful_ieee Lm).single _, (lawful_ieee Lm).single _, (lawful_ieee Lm).single _, h Color.a (by simp [doubleChannels])⟩
  · exact h

/-- The linear colours of all slices at a position. -/
def SliceLinear (Lm : Libm) (cs : ColorSpace) (prev : List (Image Dbl)) (y x : ℕ) (d : Color Dbl) : Prop :=
  ∃ c, SliceDoubles Lm prev y x c ∧ d = linearSource (Arith.ieee Lm) cs c

/-- A colour rounded to single precision. -/
def singles (c : Color Dbl) : Color Dbl := ⟨c.r.single, c.g.single, c.b.single, c.a.single⟩

/-- A slice of a mipmap of a 3D texture. -/
theorem mipSlice3d_rounded (F : LawfulFI (Arith.ieee Lm) FI) {prev : List (Image Dbl)} (hne : prev ≠ [])
    (hlen : prev.length ≤ 2 ^ 24) {w h depth d : ℕ} (hd : d < depth) (hdep : depth < 2 ^ 32)
    (hok : ∀ i ∈ prev, ImgOk (Arith.ieee Lm) i ∧ i.format = .RGBAF ∧ w ≤ i.bmp.width ∧ h ≤ i.bmp.height)
    (cs : ColorSpace) (hfin : ∀ i ∈ prev, ∀ c, DoubleColors Lm i c → FiniteColor (linearSource (Arith.ieee Lm) cs c))
    (filter : ResizeFilter) (hmem : FI.alloc .RGBAF w h ≠ none) :
    ∃ j, mipSlice3d (Arith.ieee Lm) FI prev w h depth cs filter d = .ok j ∧ ImgOk (Arith.ieee Lm) j ∧ j.format = .RGBAF ∧
      j.colorSpace = cs ∧ j.bmp.width = w ∧ j.bmp.height = h ∧
      ∀ x y c, j.getPixel (Arith.ieee Lm) x y = .ok (some c) → ∃ q, BetweenDoubles (SliceLinear Lm cs prev y x) (singles q) ∧
        c = storedResult (Arith.ieee Lm) cs q := by
  unfold mipSlice3d
  cases hn : Image.new FI .RGBAF w h cs with
  | none =>
    unfold Image.new at hn
    rw [if_neg (by simp), Option.map_eq_none_iff] at hn
    exact absurd hn hmem
  | some dst =>
    obtain ⟨n1, n2, n3, n4, -⟩ := new_ok F hn
    have px (y x : ℕ) (hy : y < h) (hx : x < w) : ∃ c : Color Dbl,
        pixel3d (Arith.ieee Lm) prev depth cs filter d y x = .ok (storedResult (Arith.ieee Lm) cs c) ∧
          BetweenDoubles (SliceLinear Lm cs prev y x) (singles c) := by
      have hc (k : ℕ) : ∃ c : Color Dbl, ∀ hk : k < prev.length, prev[k].get (Arith.ieee Lm) (prev[k].bmp.height - y - 1) x = .ok c ∧
          prev[k].getPixel (Arith.ieee Lm) x y = .ok (some c) ∧ ∀ ch ∈ doubleChannels, Dbl.single (ch c) = ch c := by
        by_cases hk : k < prev.length
        · obtain ⟨k1, k2, k3, k4⟩ := hok prev[k] (List.getElem_mem hk)
          obtain ⟨c, ec, ec'⟩ := Image.get_ok k1 (show prev[k].bmp.height - y - 1 < prev[k].bmp.height by omega)
            (show x < prev[k].bmp.width by omega)
          have hpx := k1 (prev[k].bmp.height - y - 1) x (by omega) (by omega)
          refine ⟨c, fun _ => ⟨ec, ?_, px_single (.inl k2) hpx ec'⟩⟩
          rw [getPixel_in (by omega) (by omega), ec']
          rfl
        · exact ⟨zeroColor (Arith.ieee Lm), fun h => absurd h hk⟩
      choose f hf using hc
      have mem {ch : Color Dbl → Dbl} (hch : ch ∈ doubleChannels) := family_bounds (ch := ch)
        (f := fun k => linearSource (Arith.ieee Lm) cs (f k))
        (List.length_pos_iff.2 hne) (fun k hk => source_single cs (hf k hk).2.2 ch hch)
        (fun k hk => hfin prev[k] (List.getElem_mem hk) _ ⟨x, y, (hf k hk).2.1⟩ ch hch)
      obtain ⟨r1, r2, r3, r4, r5, r6, r7⟩ := mem (ch := Color.r) (by simp [doubleChannels])
      obtain ⟨g1, g2, g3, g4, g5, g6, g7⟩ := mem (ch := Color.g) (by simp [doubleChannels])
      obtain ⟨b1, b2, b3, b4, b5, b6, b7⟩ := mem (ch := Color.b) (by simp [doubleChannels])
      obtain ⟨a1, a2, a3, a4, a5, a6, a7⟩ := mem (ch := Color.a) (by simp [doubleChannels])
      have hlo : AllBounds SingleBound ⟨r1, g1, b1, a1⟩ := ⟨r3, g3, b3, a3⟩
      have hhi : AllBounds SingleBound ⟨r2, g2, b2, a2⟩ := ⟨r4, g4, b4, a4⟩
      obtain ⟨c, ec, ⟨q1, e1, l1, u1⟩, ⟨q2, e2, l2, u2⟩, ⟨q3, e3, l3, u3⟩, q4, e4, l4, u4⟩ :=
        pixel3d_rounded (Lm := Lm) hne hlen hd hdep (y := y) (x := x) cs filter hlo hhi (by
          intro k hk
          obtain ⟨-, -, -, k4⟩ := hok prev[k] (List.getElem_mem hk)
          refine ⟨linearSource (Arith.ieee Lm) cs (f k), ?_, r7 k hk, g7 k hk, b7 k hk, a7 k hk⟩
          unfold sliceSource
          rw [List.getElem?_eq_getElem hk]
          simp only [Image.scan, if_pos (show y < prev[k].bmp.height by omega), (hf k hk).1, Res.ok_bind])
      refine ⟨c, ec, ?_⟩
      have at' {ch : Color Dbl → Dbl} {q : ℚ} (h : ∃ k < prev.length, ch (linearSource (Arith.ieee Lm) cs (f k)) = .fin q) :
          ∃ c, SliceLinear Lm cs prev y x c ∧ ch c = .fin q := by
        obtain ⟨k, hk, e⟩ := h
        exact ⟨_, ⟨f k, ⟨prev[k], List.getElem_mem hk, (hf k hk).2.1⟩, rfl⟩, e⟩
      simp only [BetweenDoubles, doubleChannels, List.forall_mem_cons, List.not_mem_nil, IsEmpty.forall_iff, implies_true,
        and_true]
      exact ⟨⟨r1, r2, q1, e1, l1, u1, at' r5, at' r6⟩, ⟨g1, g2, q2, e2, l2, u2, at' g5, at' g6⟩,
        ⟨b1, b2, q3, e3, l3, u3, at' b5, at' b6⟩, a1, a2, q4, e4, l4, u4, at' a5, at' a6⟩
    obtain ⟨j, e, h1, h2, h3, h4, h5⟩ := write_grid (dst := dst) (h := h) (w := w)
      (q := fun y x => (h - y - 1, x))
      (P := fun y x p => ∃ c q : Color Dbl, p = .nums [c.r, c.g, c.b, c.a] ∧ BetweenDoubles (SliceLinear Lm cs prev y x) (singles q) ∧
        c = storedResult (Arith.ieee Lm) cs q ∧ PxOk (Arith.ieee Lm) .RGBAF p)
      (body := fun y x dst => do
        let c ← pixel3d (Arith.ieee Lm) prev depth cs filter d y x
        dst.put (dst.bmp.height - y - 1) x (.nums [c.r, c.g, c.b, c.a])) (by
        intro y hy x hx D df dw dh dp
        obtain ⟨c, ec, b⟩ := px y x hy hx
        refine ⟨_, ⟨_, c, rfl, b, rfl, result_single cs c⟩, ?_⟩
        rw [ec, Res.ok_bind, dh, n4]
        exact Image.put_ok (i := D) (y := h - y - 1) (x := x) (by omega) (by omega) _)
      (by
        intro y hy x hx y' hy' x' hx' h
        simp only [Prod.mk.injEq] at h
        omega)
    refine ⟨j, e, ?_, h1.trans n1, h2.trans n2, h3.trans n3, h4.trans n4, ?_⟩
    · intro y x hy hx
      obtain ⟨-, -, -, -, -, k⟩ := h5 (h - y - 1) (by omega) x (by omega)
      rw [show h - (h - y - 1) - 1 = y by omega] at k
      rw [h1, n1]
      exact k
    intro x y c hc
    obtain ⟨g1, g2, g3⟩ := getPixel_some hc
    obtain ⟨c', q, ec, b, eq, -⟩ := h5 y (by omega) x (by omega)
    rw [show j.bmp.height - y - 1 = h - y - 1 by omega, h1, n1, ec] at g3
    cases g3
    exact ⟨q, b, eq⟩

/-- A slice of a mipmap of a linear 3D texture. -/
theorem mipSlice3d_between (F : LawfulFI (Arith.ieee Lm) FI) {prev : List (Image Dbl)} (hne : prev ≠ [])
    (hlen : prev.length ≤ 2 ^ 24) {w h depth d : ℕ} (hd : d < depth) (hdep : depth < 2 ^ 32)
    (hok : ∀ i ∈ prev, ImgOk (Arith.ieee Lm) i ∧ i.format = .RGBAF ∧ w ≤ i.bmp.width ∧ h ≤ i.bmp.height)
    (hfin : ∀ i ∈ prev, ∀ c, DoubleColors Lm i c → FiniteColor c) (filter : ResizeFilter)
    (hmem : FI.alloc .RGBAF w h ≠ none) :
    ∃ j, mipSlice3d (Arith.ieee Lm) FI prev w h depth .Linear filter d = .ok j ∧ ImgOk (Arith.ieee Lm) j ∧ j.format = .RGBAF ∧
      j.colorSpace = .Linear ∧ j.bmp.width = w ∧ j.bmp.height = h ∧
      ∀ x y c, j.getPixel (Arith.ieee Lm) x y = .ok (some c) → BetweenDoubles (SliceDoubles Lm prev y x) c := by
  obtain ⟨j, e, h1, h2, h3, h4, h5, h6⟩ := mipSlice3d_rounded F hne hlen hd hdep hok .Linear hfin filter hmem
  refine ⟨j, e, h1, h2, h3, h4, h5, fun x y c hc => ?_⟩
  obtain ⟨q, b, rfl⟩ := h6 x y c hc
  intro ch hch
  obtain ⟨lo, hi, v, e, h1, h2, ⟨c, ⟨s, hs, es⟩, ec⟩, c', ⟨s', hs', es'⟩, ec'⟩ := b ch hch
  rw [es] at ec
  rw [es'] at ec'
  exact ⟨lo, hi, v, e, h1, h2, ⟨s, hs, ec⟩, s', hs', ec'⟩

end Cuttlefish
