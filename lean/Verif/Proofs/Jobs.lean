import Verif.Model.Encode
import Verif.Proofs.Basic
import Mathlib.Data.List.Basic
/-
Jobs that fill consecutive parts of the surface.
-/
namespace Cuttlefish

theorem writesAt_append (o : Nat) (as bs : List UInt8) :
    writesAt o (as ++ bs) = writesAt o as ++ writesAt (o + as.length) bs := by
  induction as generalizing o with
  | nil => simp [writesAt]
  | cons a as ih => simp [writesAt, ih, Nat.add_assoc, Nat.add_comm 1]

@[simp] theorem writesAt_length (o : Nat) (bs : List UInt8) : (writesAt o bs).length = bs.length := by
  induction bs generalizing o with
  | nil => rfl
  | cons b bs ih => simp [writesAt, ih]

theorem writesAt_fst (o : Nat) (bs : List UInt8) :
    (writesAt o bs).map Prod.fst = List.range' o bs.length := by
  induction bs generalizing o with
  | nil => rfl
  | cons b bs ih => simp [writesAt, ih, List.range'_succ]

theorem mem_writesAt {o p : Nat} {b : UInt8} {bs : List UInt8} :
    (p, b) ∈ writesAt o bs ↔ o ≤ p ∧ bs[p - o]? = some b := by
  induction bs generalizing o with
  | nil => simp [writesAt]
  | cons c cs ih =>
    simp only [writesAt, List.mem_cons, Prod.mk.injEq, ih]
    constructor
    · rintro (⟨rfl, rfl⟩ | ⟨h1, h2⟩)
      · simp
      · refine ⟨by omega, ?_⟩
        rw [show p - o = (p - (o + 1)) + 1 by omega]
        simpa using h2
    · rintro ⟨h1, h2⟩
      by_cases h : p = o
      · subst h; left; simpa [eq_comm] using h2
      · right
        refine ⟨by omega, ?_⟩
        rw [show p - o = (p - (o + 1)) + 1 by omega] at h2
        simpa using h2

theorem applyWrites_append (d : List UInt8) (as bs : List Write) :
    applyWrites d (as ++ bs) = (do let d' ← applyWrites d as; applyWrites d' bs) := by
  induction as generalizing d with
  | nil => rfl
  | cons w ws ih =>
    obtain ⟨o, b⟩ := w
    simp only [List.cons_append, applyWrites]
    split
    · exact ih _
    · rfl

/-- Storing consecutive bytes in bounds replaces exactly these bytes. -/
theorem applyWrites_writesAt (pre bs rest : List UInt8) (h : bs.length ≤ rest.length) :
    applyWrites (pre ++ rest) (writesAt pre.length bs) = .ok (pre ++ bs ++ rest.drop bs.length) := by
  induction bs generalizing pre rest with
  | nil => simp [writesAt, applyWrites]
  | cons b bs ih =>
    cases rest with
    | nil => simp at h
    | cons r rest =>
      simp only [writesAt, applyWrites]
      rw [if_pos (by simp)]
      have hset : (pre ++ r :: rest).set pre.length b = (pre ++ [b]) ++ rest := by
        rw [List.set_append_right _ _ (le_refl _)]; simp
      have hlen : pre.length + 1 = (pre ++ [b]).length := by simp
      rw [hset, hlen, ih (pre ++ [b]) rest (by simpa using h)]
      simp

theorem mapRes_append {α β : Type} (f : α → Res β) (as bs : List α) :
    mapRes f (as ++ bs) = (do
      let x ← mapRes f as
      let y ← mapRes f bs
      pure (x ++ y)) := by
  induction as with
  | nil =>
    simp only [List.nil_append, mapRes, Res.ok_bind]
    cases mapRes f bs <;> rfl
  | cons a as ih =>
    simp only [List.cons_append, mapRes, ih]
    cases f a with
    | ub => rfl
    | ok y =>
      simp only [Res.ok_bind]
      cases mapRes f as with
      | ub => rfl
      | ok ys =>
        simp only [Res.ok_bind]
        cases mapRes f bs <;> rfl

theorem mapRes_map {α β γ : Type} (f : β → Res γ) (g : α → β) (as : List α) :
    mapRes f (as.map g) = mapRes (fun a => f (g a)) as := by
  induction as with
  | nil => rfl
  | cons a as ih => simp only [List.map_cons, mapRes, ih]

theorem mapRes_congr {α β : Type} {f g : α → Res β} {as : List α} (h : ∀ a ∈ as, f a = g a) :
    mapRes f as = mapRes g as := by
  induction as with
  | nil => rfl
  | cons a as ih =>
    simp only [mapRes]
    rw [h a List.mem_cons_self, ih (fun a ha => h a (List.mem_cons_of_mem _ ha))]

theorem mapRes_ok_iff {α β : Type} {f : α → Res β} {as : List α} {bs : List β} :
    mapRes f as = .ok bs ↔ as.length = bs.length ∧
      ∀ (i : Nat) (a : α) (b : β), as[i]? = some a → bs[i]? = some b → f a = .ok b := by
  induction as generalizing bs with
  | nil =>
    simp only [mapRes, Res.ok.injEq]
    constructor
    · rintro rfl; simp
    · rintro ⟨h, -⟩; exact (List.length_eq_zero_iff.1 h.symm).symm
  | cons a as ih =>
    simp only [mapRes]
    rw [Res.bind_eq_ok]
    constructor
    · rintro ⟨b, hb, h⟩
      rw [Res.bind_eq_ok] at h
      obtain ⟨ys, h1, h2⟩ := h
      simp only [Res.pure_eq, Res.ok.injEq] at h2
      subst h2
      obtain ⟨hl, hi⟩ := ih.1 h1
      refine ⟨by simp [hl], ?_⟩
      intro i a' b' ha hb'
      cases i with
      | zero => simp at ha hb'; subst ha hb'; exact hb
      | succ i => simp at ha hb'; exact hi i a' b' ha hb'
    · rintro ⟨hl, hi⟩
      cases bs with
      | nil => simp at hl
      | cons b bs =>
        refine ⟨b, hi 0 a b rfl rfl, ?_⟩
        rw [ih.2 ⟨by simpa using hl, fun i a' b' ha hb => hi (i + 1) a' b' (by simpa using ha)
          (by simpa using hb)⟩]
        rfl

theorem mapRes_all_ok {α β : Type} {f : α → Res β} {g : α → β} {as : List α}
    (h : ∀ a ∈ as, f a = .ok (g a)) : mapRes f as = .ok (as.map g) := by
  induction as with
  | nil => rfl
  | cons a as ih =>
    simp only [mapRes, h a List.mem_cons_self, ih (fun a ha => h a (List.mem_cons_of_mem _ ha)),
      Res.ok_bind, Res.pure_eq, List.map_cons]

theorem mapRes_ne_ub {α β : Type} {f : α → Res β} {as : List α} :
    mapRes f as ≠ .ub ↔ ∀ a ∈ as, f a ≠ .ub := by
  induction as with
  | nil => simp [mapRes]
  | cons a as ih =>
    simp only [mapRes, List.mem_cons, forall_eq_or_imp]
    rw [Res.bind_ne_ub]
    constructor
    · rintro ⟨b, hb, h⟩
      rw [Res.bind_ne_ub] at h
      obtain ⟨ys, h1, -⟩ := h
      exact ⟨by rw [hb]; simp, ih.1 (by rw [h1]; simp)⟩
    · rintro ⟨h1, h2⟩
      cases hf : f a with
      | ub => exact absurd hf h1
      | ok b =>
        refine ⟨b, rfl, ?_⟩
        cases hm : mapRes f as with
        | ub => exact absurd hm (ih.2 h2)
        | ok ys => simp

/-- The jobs `js` store the results of `enc` one after the other from offset `o`. -/
def Consec (proc : Nat → Nat → Res (List Write)) (enc : Nat × Nat → Res (List UInt8))
    (size : Nat × Nat → Nat) : Nat → List (Nat × Nat) → Prop
  | _, [] => True
  | o, j :: js =>
    proc j.1 j.2 = (do let bs ← enc j; pure (writesAt o bs)) ∧
    (∀ bs, enc j = .ok bs → bs.length = size j) ∧ Consec proc enc size (o + size j) js

theorem runJobs_consec {proc : Nat → Nat → Res (List Write)} {enc : Nat × Nat → Res (List UInt8)}
    {size : Nat × Nat → Nat} (js : List (Nat × Nat)) (pre rest : List UInt8)
    (h : Consec proc enc size pre.length js) (hs : (js.map size).sum ≤ rest.length) :
    runJobs proc js (pre ++ rest) = (do
      let bs ← mapRes enc js
      pure (pre ++ bs.flatten ++ rest.drop (js.map size).sum)) := by
  induction js generalizing pre rest with
  | nil => simp [runJobs, mapRes]
  | cons j js ih =>
    obtain ⟨h1, h2, h3⟩ := h
    simp only [runJobs, h1, mapRes]
    cases he : enc j with
    | ub => rfl
    | ok bs =>
      have hb := h2 bs he
      simp only [List.map_cons, List.sum_cons] at hs
      simp only [Res.ok_bind, Res.pure_eq]
      rw [applyWrites_writesAt pre bs rest (by omega)]
      simp only [Res.ok_bind]
      rw [ih (pre ++ bs) (rest.drop bs.length) (by rw [List.length_append, hb]; exact h3)
        (by rw [List.length_drop]; omega)]
      cases mapRes enc js with
      | ub => rfl
      | ok ys =>
        simp only [Res.ok_bind, Res.pure_eq, List.flatten_cons, List.append_assoc, List.drop_drop,
          List.map_cons, List.sum_cons, hb]

/-- Running all jobs on a buffer of exactly their total size. -/
theorem runJobs_full {proc : Nat → Nat → Res (List Write)} {enc : Nat × Nat → Res (List UInt8)}
    {size : Nat × Nat → Nat} (js : List (Nat × Nat)) (data : List UInt8)
    (h : Consec proc enc size 0 js) (hs : (js.map size).sum = data.length) :
    runJobs proc js data = (do
      let bs ← mapRes enc js
      pure bs.flatten) := by
  have := runJobs_consec js [] data h hs.le
  rw [List.nil_append] at this
  rw [this, hs]
  cases mapRes enc js with
  | ub => rfl
  | ok bs => simp

end Cuttlefish
