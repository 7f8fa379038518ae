import Verif.Proofs.Blocks
/-
What the PVRTC encoder hands to its library.
-/
namespace Cuttlefish
open Spec
variable {f : Format} {ty : TType} {img : FImg}

theorem pvrtc_conv {c : Features} {k : Conv} (hk : createConverter c f ty = some k) (hp : isPvrtc f = true) :
    k = .pvrtc := by
  cases f <;> simp only [isPvrtc, Bool.false_eq_true] at hp <;>
    simp only [createConverter, ifUNorm] at hk <;>
    (repeat' split at hk) <;> simp only [reduceCtorEq, Option.some.injEq] at hk <;> exact hk.symm

theorem pvrtc_layout (hp : isPvrtc f = true) : layout f = none := by
  cases f <;> simp only [isPvrtc, Bool.false_eq_true] at hp <;> rfl

theorem read_px {x y : ℕ} (hx : x < img.width) (hy : y < img.height) : img.read x y = .ok (img.px x y) :=
  if_pos ⟨hy, hx⟩

theorem flatten_forall2 {α β γ : Type} {P : β → γ → Prop} {f : α → List β} {g : α → Res (List γ)} :
    ∀ {l : List α} {rows : List (List γ)}, (∀ a ∈ l, ∀ r, g a = .ok r → List.Forall₂ P (f a) r) →
      mapRes g l = .ok rows → List.Forall₂ P (l.flatMap f) rows.flatten
  | [], rows, _, h => by
    simp only [mapRes, Res.ok.injEq] at h
    subst h
    exact .nil
  | a :: l, rows, hg, h => by
    simp only [mapRes, Res.bind_eq_ok, Res.pure_eq, Res.ok.injEq] at h
    obtain ⟨r, h1, rs, h2, rfl⟩ := h
    rw [List.flatMap_cons, List.flatten_cons]
    exact List.rel_append (hg a (by simp) r h1)
      (flatten_forall2 (fun b hb => hg b (List.mem_cons_of_mem _ hb)) h2)

/-- The pixels are the quantised channels of the image, row by row. -/
theorem pvrtcPixels_ok {px : List UInt8} (h : pvrtcPixels img = .ok px) :
    UNormBytes (allChannels (rowMajor img.width img.height (fun x y => [img.px x y]))) px := by
  unfold pvrtcPixels at h
  split at h
  · simp at h
  · simp only [Res.bind_eq_ok, Res.pure_eq, Res.ok.injEq] at h
    obtain ⟨rows, h1, rfl⟩ := h
    have e : allChannels (rowMajor img.width img.height (fun x y => [img.px x y])) =
        (List.range img.height).flatMap (fun y => allChannels ((List.range img.width).map (fun x => img.px x y))) := by
      simp only [allChannels, rowMajor, List.flatMap_assoc]
      congr 1
      funext y
      rw [List.flatMap_map]
      simp
    rw [e]
    refine flatten_forall2 (g := fun y => do
      let ps ← mapRes (fun x => img.read x y) (List.range img.width)
      toColorBlock ps) (fun y hy r hr => ?_) h1
    rw [List.mem_range] at hy
    have e : mapRes (fun x => img.read x y) (List.range img.width) =
        .ok ((List.range img.width).map (fun x => img.px x y)) :=
      mapRes_all_ok (fun x hx => read_px (List.mem_range.1 hx) hy)
    simp only [e, Res.ok_bind] at hr
    exact toColorBlock_ok hr

end Cuttlefish
