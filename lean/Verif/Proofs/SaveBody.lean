import Verif.Proofs.Shaped
import Verif.Proofs.SaveRun
import Verif.Proofs.Bin
import Verif.Spec.File
/-
The surfaces of a saved texture, in the order of the files.
-/
namespace Cuttlefish
open Spec
variable {Img : Type} {t : Tex Img} {f : Format} {ty : TType} {w h d L : Nat}
  {px : Nat → Nat → Nat → List UInt8}

theorem extent_one (m : Nat) : extent 1 m = 1 := by
  induction m with
  | zero => rfl
  | succ m ih => simp [extent, ih, halve]

/-- Array elements of a texture. -/
def elementsOf (t : Tex Img) (d : Nat) : Nat := if t.dimension = .Dim3D then 1 else if d = 0 then 1 else d

/-- Slices of a level. -/
def slicesOf (t : Tex Img) (d m : Nat) : Nat := if t.dimension = .Dim3D then extent d m else 1

/-- The depth index of a slice of an array element. -/
def depthIndex (t : Tex Img) (e s : Nat) : Nat := if t.dimension = .Dim3D then s else e

theorem depthIndex_lt {e s m : Nat} (he : e < elementsOf t d) (hs : s < slicesOf t d m) :
    depthIndex t e s < depthExtent t.dimension d m := by
  unfold depthIndex depthExtent
  unfold elementsOf at he
  unfold slicesOf at hs
  by_cases h3 : t.dimension = .Dim3D
  · simp only [h3, if_true] at *; exact hs
  · simp only [h3, if_false] at *; exact he

/-- The order of the savers (depth, face) is the order element, face, slice. -/
theorem body_order {α : Type} (hS : Shaped t f ty w h d L px) (m : Nat) (g : Nat → Nat → List α) :
    (List.range (depthExtent t.dimension d m)).flatMap (fun k =>
      (List.range t.faceCount).flatMap (fun fc => g k fc)) =
    (List.range (elementsOf t d)).flatMap (fun e => (List.range t.faceCount).flatMap (fun fc =>
      (List.range (slicesOf t d m)).flatMap (fun s => g (depthIndex t e s) fc))) := by
  unfold elementsOf slicesOf depthIndex depthExtent
  by_cases h3 : t.dimension = .Dim3D
  · have hf : t.faceCount = 1 := by rw [hS.faces, h3]; rfl
    simp [h3, hf]
  · simp [h3]

/-- Nested readers of the images. -/
theorem reads_images {p : Nat → Rd (List UInt8)} {E F : Nat} {S : Nat → Nat}
    {v : Nat → Nat → Nat → Nat → List UInt8} {b : Nat → Nat → Nat → Nat → List UInt8}
    (hr : ∀ m e fc s, m < L → e < E → fc < F → s < S m → Reads (p m) (b m e fc s) (v m e fc s)) :
    Reads (rdFor L (fun m => rdFor E (fun _ => rdFor F (fun _ => rdFor (S m) (fun _ => p m)))))
      ((List.range L).flatMap (fun m => (List.range E).flatMap (fun e => (List.range F).flatMap (fun fc =>
        (List.range (S m)).flatMap (fun s => b m e fc s)))))
      ((List.range L).map (fun m => (List.range E).map (fun e => (List.range F).map (fun fc =>
        (List.range (S m)).map (fun s => v m e fc s))))) :=
  reads_for (fun m hm => reads_for (fun e he => reads_for (fun fc hf => reads_for (fun s hs =>
    hr m e fc s hm he hf hs))))

theorem image_get {L E F : Nat} {S : Nat → Nat} {v : Nat → Nat → Nat → Nat → List UInt8} {m e fc s : Nat}
    (hm : m < L) (he : e < E) (hf : fc < F) (hs : s < S m) :
    (((List.range L).map (fun m => (List.range E).map (fun e => (List.range F).map (fun fc =>
        (List.range (S m)).map (fun s => v m e fc s)))))[m]?).bind (fun l => (l[e]?).bind (fun e =>
          (e[fc]?).bind (fun f => f[s]?))) = some (v m e fc s) := by
  simp [List.getElem?_map, List.getElem?_range, hm, he, hf, hs]

theorem addressable_data (hS : Shaped t f ty w h d L px) {face : Option CubeFace} {m k : Nat}
    (ha : Addressable t face m k) :
    m < L ∧ k < depthExtent t.dimension d m ∧ faceNumber face < t.faceCount ∧
      t.data face m k = .ok (some (px m k (faceNumber face))) := by
  obtain ⟨h1, ⟨n, hn, h2⟩, h3⟩ := ha
  rw [hS.levels] at h1
  rw [hS.depth m h1] at hn
  simp only [Res.ok.injEq] at hn
  subst hn
  have hf : faceNumber face < t.faceCount ∧
      t.data face m k = t.data (some (CubeFace.ofIndex (faceNumber face))) m k := by
    have hfc := hS.faces
    unfold addressed at h3
    cases face with
    | none =>
      have hc : t.dimension ≠ .Cube := by
        intro hc; simp [hc] at h3
      rw [if_neg hc] at hfc
      refine ⟨by rw [hfc]; decide, ?_⟩
      unfold Tex.data
      cases t with
      | none => simp [Tex.depthAt]
      | some i =>
        have hfc : i.faces = 1 := hfc
        simp [faceNumber, CubeFace.ofIndex, faceIndex, hfc, CubeFace.toNat]
    | some c =>
      have hof : CubeFace.ofIndex (faceNumber (some c)) = c := by cases c <;> rfl
      rw [hof]
      refine ⟨?_, rfl⟩
      by_cases hc : t.dimension = .Cube
      · rw [if_pos hc] at hfc; rw [hfc]; cases c <;> decide
      · simp only [hc, false_or] at h3
        by_cases hx : c = .PosX
        · subst hx; rw [hfc, if_neg hc]; decide
        · simp [hx] at h3
  refine ⟨h1, h2, hf.1, ?_⟩
  rw [hf.2]
  exact hS.data m k _ h1 h2 hf.1

theorem surfaceBytes_eq (hS : Shaped t f ty w h d L px) {m k fc : Nat} (hm : m < L)
    (hk : k < depthExtent t.dimension d m) (hf : fc < t.faceCount) :
    surfaceBytes t fc m k = .ok (px m k fc) := by
  unfold surfaceBytes
  rw [hS.data m k fc hm hk hf]
  rfl

/-- The element and slice an API call addresses. -/
theorem address_split (t : Tex Img) {k m : Nat} (hk : k < depthExtent t.dimension d m) :
    (if t.dimension = .Dim3D then 0 else k) < elementsOf t d ∧
    (if t.dimension = .Dim3D then k else 0) < slicesOf t d m ∧
    depthIndex t (if t.dimension = .Dim3D then 0 else k) (if t.dimension = .Dim3D then k else 0) = k := by
  unfold elementsOf slicesOf depthIndex
  unfold depthExtent at hk
  by_cases h3 : t.dimension = .Dim3D
  · simp only [h3, if_true] at *; simp [hk]
  · simp only [h3, if_false] at *; simp [hk]

end Cuttlefish
