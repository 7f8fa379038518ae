import Verif.Proofs.ImageObjects
import Verif.Props.C55
/-
C59: image objects are values; every bitmap is owned by one object and given back once.

Stated about `ImgMem.run`: histories of constructions, loads, copies, moves, methods and destructions, with whatever
FreeImage returns.  `ImgVals.run` is the same program on values (`Verif/Spec/ImageValues.lean`).
-/
namespace Cuttlefish
open Spec
variable {N : Type}

theorem img_value (m : ImgMem N) (hw : m.WF) (v : ℕ) (x : Option (ImgVal N)) : m.abs v = some x ↔ m.value v = .ok x := by
  unfold ImgMem.abs ImgMem.value
  cases hv : m.vars v with
  | none => simp
  | some p =>
    cases p with
    | none => simp
    | some r =>
      cases hb : m.heap r.handle with
      | none => exact absurd hb (hw.live v r hv)
      | some b => simp [ImgMem.get, hb]

/-- A program with image objects does what it does with values: no operation is undefined (no bitmap is used after it was
given back, none is given back twice) unless the program uses an object outside of its lifetime, and every object shows
its value. -/
theorem C59_values (FP : FromPalette N) (ops : List (ImgOp N)) :
    (∀ m, (ImgMem.init N).run FP ops = .ok m → ∃ s, ImgVals.run FP (fun _ => none) ops = some s ∧
      ∀ v x, s v = some x ↔ m.value v = .ok x) ∧
    ((ImgMem.init N).run FP ops = .ub → ImgVals.run FP (fun _ => none) ops = none) := by
  have h := img_run FP ops (ImgMem.wf_init (N := N))
  have hi : (ImgMem.init N).abs = fun _ => none := rfl
  rw [hi] at h
  constructor
  · intro m hr
    rw [hr] at h
    exact ⟨_, h.2, fun v x => img_value m h.1 v x⟩
  · intro hr
    rw [hr] at h
    exact h

/-- At every point, a bitmap that is alive belongs to exactly one object; once all objects are destroyed none is left. -/
theorem C59_owned (FP : FromPalette N) (ops : List (ImgOp N)) (m : ImgMem N) (h : (ImgMem.init N).run FP ops = .ok m) :
    (∀ k b, m.heap k = some b → ∃! v, ∃ r, m.vars v = some (some r) ∧ r.handle = k) ∧
    ((∀ v, m.vars v = none) → ∀ k, m.heap k = none) := by
  have hw := img_run FP ops (ImgMem.wf_init (N := N))
  rw [h] at hw
  refine ⟨fun k b hk => ?_, fun hv k => ?_⟩
  · obtain ⟨v, r, h1, h2⟩ := hw.1.owned k b hk
    exact ⟨v, ⟨r, h1, h2⟩, fun w ⟨q, q1, q2⟩ => hw.1.uniq w v q r q1 h1 (by rw [q2, h2])⟩
  · cases hk : m.heap k with
    | none => rfl
    | some b =>
      obtain ⟨v, r, h1, -⟩ := hw.1.owned k b hk
      rw [hv v] at h1
      simp at h1

theorem img_untouched {FP : FromPalette N} {s s' : ImgVals N} {o : ImgOp N} {v : ℕ} (hv : v ∉ imgChanges o)
    (h : s.step FP o = some s') : s' v = s v := by
  cases o <;> simp only [imgChanges, List.mem_cons, List.not_mem_nil, or_false, not_or] at hv <;>
    simp only [ImgVals.step, Option.map_eq_some_iff] at h
  case construct w =>
    cases hw : s w <;> simp only [hw, Option.some.injEq, reduceCtorEq] at h
    rw [← h, fput_ne _ _ hv]
  case destroy => obtain ⟨_, -, rfl⟩ := h; exact fput_ne _ _ hv
  case reset => obtain ⟨_, -, rfl⟩ := h; exact fput_ne _ _ hv
  case load => obtain ⟨_, -, rfl⟩ := h; exact fput_ne _ _ hv
  case «initialize» => obtain ⟨_, -, rfl⟩ := h; exact fput_ne _ _ hv
  case change => obtain ⟨_, -, rfl⟩ := h; exact fput_ne _ _ hv
  case copyCtor dst src clone =>
    cases hd : s dst <;> cases hs : s src <;> simp only [hd, hs, Option.some.injEq, reduceCtorEq] at h
    rw [← h, fput_ne _ _ hv]
  case «derive» dst src f format =>
    cases hd : s dst <;> cases hs : s src <;> simp only [hd, hs, Option.some.injEq, reduceCtorEq] at h
    rw [← h, fput_ne _ _ hv]
  case moveCtor dst src =>
    cases hd : s dst <;> cases hs : s src <;> simp only [hd, hs, Option.some.injEq, reduceCtorEq] at h
    rw [← h, fput_ne _ _ hv.1, fput_ne _ _ hv.2]
  case copyAssign dst src clone =>
    cases hd : s dst <;> cases hs : s src <;> simp only [hd, hs, Option.some.injEq, reduceCtorEq] at h
    rw [← h]
    split
    · rfl
    · rw [fput_ne _ _ hv]
  case moveAssign dst src =>
    cases hd : s dst <;> cases hs : s src <;> simp only [hd, hs, Option.some.injEq, reduceCtorEq] at h
    rw [← h]
    split
    · rfl
    · rw [fput_ne _ _ hv.1, fput_ne _ _ hv.2]

/-- An object shows the same until an operation names it as its target: copies are independent of what they were copied
from, and the other way round. -/
theorem C59_independent (FP : FromPalette N) (before later : List (ImgOp N)) (v : ℕ)
    (hv : ∀ o ∈ later, v ∉ imgChanges o) (m1 m2 : ImgMem N) (h1 : (ImgMem.init N).run FP before = .ok m1)
    (h2 : m1.run FP later = .ok m2) : m2.value v = m1.value v := by
  have hw : m1.WF := by
    have := img_run FP before (ImgMem.wf_init (N := N))
    rw [h1] at this
    exact this.1
  clear h1
  have key : m2.WF ∧ m2.abs v = m1.abs v := by
    induction later generalizing m1 with
    | nil =>
      simp only [ImgMem.run, Res.ok.injEq] at h2
      rw [← h2]
      exact ⟨hw, rfl⟩
    | cons o os ih =>
      have hst := img_step FP hw o
      cases hs : m1.step FP o with
      | ub => simp [ImgMem.run, hs] at h2
      | ok m' =>
        rw [hs] at hst
        simp only [ImgMem.run, hs, Res.ok_bind] at h2
        obtain ⟨hw2, e⟩ := ih (fun o' ho' => hv o' (List.mem_cons_of_mem _ ho')) m' h2 hst.1
        exact ⟨hw2, by rw [e]; exact img_untouched (hv o List.mem_cons_self) hst.2⟩
  have hv1 := img_value m1 hw v
  have hv2 := img_value m2 key.1 v
  rw [key.2] at hv2
  cases ha : m1.abs v with
  | some x => rw [(hv1 x).1 ha, (hv2 x).1 ha]
  | none =>
    cases e1 : m1.value v with
    | ok x => rw [(hv1 x).2 e1] at ha; simp at ha
    | ub =>
      cases e2 : m2.value v with
      | ok x => rw [(hv2 x).2 e2] at ha; simp at ha
      | ub => rfl

/-- The images that objects hold have a format and no palette. -/
def Plainly (s : ImgVals N) : Prop := ∀ v b f cs, s v = some (some (b, f, cs)) → b.color ≠ .Palette ∧ f ≠ .Invalid

theorem made_plain {FP : FromPalette N} (hF : PaletteColors FP) {r : Option (FIBitmap N)} {cs c : ColorSpace}
    {format f : IFormat} {b : FIBitmap N} (h : made FP r cs format = some (b, f, c)) : b.color ≠ .Palette ∧ f ≠ .Invalid := by
  simp only [made, Option.bind_eq_some_iff] at h
  obtain ⟨b', ⟨b0, hb0, e⟩, h⟩ := h
  generalize (if format = .Invalid then getFormat b' else format) = g at h
  split at h
  · simp at h
  · next hf =>
    simp only [Option.some.injEq, Prod.mk.injEq] at h
    obtain ⟨rfl, rfl, rfl⟩ := h
    refine ⟨?_, hf⟩
    split at e
    · next hp =>
      split at e
      · exact (hF.to32 b0 _ hp e).color
      · exact (hF.to24 b0 _ hp e).color
    · next hp =>
      simp only [Option.some.injEq] at e
      rw [← e]
      exact hp

theorem plainly_fput {s : ImgVals N} (hs : Plainly s) {v : ℕ} {x : Option (Option (ImgVal N))}
    (hx : ∀ b f cs, x = some (some (b, f, cs)) → b.color ≠ .Palette ∧ f ≠ .Invalid) : Plainly (fput s v x) := by
  intro w b f cs h
  by_cases e : w = v
  · subst e
    rw [fput_self] at h
    exact hx b f cs h
  · rw [fput_ne _ _ e] at h
    exact hs w b f cs h

theorem plainly_step {FP : FromPalette N} (hF : PaletteColors FP) {s s' : ImgVals N} (hs : Plainly s) {o : ImgOp N}
    (h : s.step FP o = some s') : Plainly s' := by
  cases o <;> simp only [ImgVals.step, Option.map_eq_some_iff] at h
  case construct w =>
    cases hw : s w <;> simp only [hw, Option.some.injEq, reduceCtorEq] at h
    rw [← h]
    exact plainly_fput hs (by simp)
  case destroy => obtain ⟨_, -, rfl⟩ := h; exact plainly_fput hs (by simp)
  case reset => obtain ⟨_, -, rfl⟩ := h; exact plainly_fput hs (by simp)
  case load =>
    obtain ⟨_, -, rfl⟩ := h
    exact plainly_fput hs (fun b f cs e => made_plain hF (Option.some.inj e))
  case «initialize» =>
    obtain ⟨_, -, rfl⟩ := h
    exact plainly_fput hs (fun b f cs e => made_plain hF (Option.some.inj e))
  case change v f cs =>
    obtain ⟨x, hx, rfl⟩ := h
    refine plainly_fput hs (fun b g c e => ?_)
    cases x with
    | none => simp at e
    | some i =>
      simp only [Option.map_some, Option.some.injEq, Prod.mk.injEq] at e
      obtain ⟨e1, e2, -⟩ := e
      have := hs v i.1 i.2.1 i.2.2 hx
      rw [← e1, ← e2]
      exact this
  case copyCtor dst src clone =>
    cases hd : s dst <;> cases hs' : s src <;> simp only [hd, hs', Option.some.injEq, reduceCtorEq] at h
    rw [← h]
    refine plainly_fput hs (fun b f cs e => ?_)
    simp only [Option.some.injEq, Option.bind_eq_some_iff] at e
    obtain ⟨i, -, e⟩ := e
    exact made_plain hF e
  case «derive» dst src f format =>
    cases hd : s dst <;> cases hs' : s src <;> simp only [hd, hs', Option.some.injEq, reduceCtorEq] at h
    rw [← h]
    refine plainly_fput hs (fun b f cs e => ?_)
    simp only [Option.some.injEq, Option.bind_eq_some_iff] at e
    obtain ⟨i, -, e⟩ := e
    exact made_plain hF e
  case moveCtor dst src =>
    cases hd : s dst <;> cases hs' : s src <;> simp only [hd, hs', Option.some.injEq, reduceCtorEq] at h
    rw [← h]
    refine plainly_fput (plainly_fput hs (by simp)) (fun b f cs e => ?_)
    simp only [Option.some.injEq] at e
    subst e
    exact hs src b f cs hs'
  case copyAssign dst src clone =>
    cases hd : s dst <;> cases hs' : s src <;> simp only [hd, hs', Option.some.injEq, reduceCtorEq] at h
    rw [← h]
    split
    · exact hs
    · refine plainly_fput hs (fun b f cs e => ?_)
      simp only [Option.some.injEq, Option.bind_eq_some_iff] at e
      obtain ⟨i, -, e⟩ := e
      exact made_plain hF e
  case moveAssign dst src =>
    cases hd : s dst <;> cases hs' : s src <;> simp only [hd, hs', Option.some.injEq, reduceCtorEq] at h
    rw [← h]
    split
    · exact hs
    · refine plainly_fput (plainly_fput hs (by simp)) (fun b f cs e => ?_)
      simp only [Option.some.injEq] at e
      subst e
      exact hs src b f cs hs'

theorem plainly_run {FP : FromPalette N} (hF : PaletteColors FP) (ops : List (ImgOp N)) : ∀ {s s' : ImgVals N}, Plainly s →
    ImgVals.run FP s ops = some s' → Plainly s' := by
  induction ops with
  | nil =>
    intro s s' hs h
    simp only [ImgVals.run, Option.some.injEq] at h
    rw [← h]
    exact hs
  | cons o os ih =>
    intro s s' hs h
    simp only [ImgVals.run, Option.bind_eq_some_iff] at h
    obtain ⟨s1, h1, h2⟩ := h
    exact ih (plainly_step hF hs h1) h2

/-- A copy (by construction or by assignment) for which there is memory shows what the original shows, and the original
still does. -/
theorem C59_copy (FP : FromPalette N) (hF : PaletteColors FP) (before : List (ImgOp N)) (dst src : ℕ) (op : ImgOp N)
    (hop : op = .copyCtor dst src true ∨ op = .copyAssign dst src true) (m1 m2 : ImgMem N)
    (h1 : (ImgMem.init N).run FP before = .ok m1) (h2 : m1.step FP op = .ok m2) :
    m2.value dst = m1.value src ∧ m2.value src = m1.value src := by
  have hr := img_run FP before (ImgMem.wf_init (N := N))
  rw [h1] at hr
  have hpl : Plainly m1.abs := plainly_run hF before (s := (ImgMem.init N).abs) (by intro v b f cs h; simp [ImgMem.abs, ImgMem.init] at h) hr.2
  have hst := img_step FP hr.1 op
  rw [h2] at hst
  obtain ⟨hw2, e⟩ := hst
  have hmade : ∀ x : Option (ImgVal N), m1.abs src = some x →
      (x.bind fun i => made FP (some i.1) i.2.2 i.2.1) = x := by
    intro x hx
    cases x with
    | none => rfl
    | some i =>
      obtain ⟨b, f, cs⟩ := i
      obtain ⟨p1, p2⟩ := hpl src b f cs hx
      simp [made, p1, p2]
  have key : ∃ x, m1.abs src = some x ∧ m2.abs dst = some x ∧ m2.abs src = some x := by
    rcases hop with rfl | rfl
    · cases hd : m1.abs dst <;> cases hs : m1.abs src <;> simp only [ImgVals.step, hd, hs, Option.some.injEq, reduceCtorEq, if_true] at e
      next x =>
      rw [hmade x hs] at e
      refine ⟨x, rfl, by rw [← e, fput_self], ?_⟩
      have : src ≠ dst := by rintro rfl; rw [hd] at hs; simp at hs
      rw [← e, fput_ne _ _ this, hs]
    · cases hd : m1.abs dst <;> cases hs : m1.abs src <;> simp only [ImgVals.step, hd, hs, Option.some.injEq, reduceCtorEq, if_true] at e
      next y x =>
      rw [hmade x hs] at e
      by_cases hne : dst = src
      · subst hne
        rw [if_pos rfl] at e
        exact ⟨x, rfl, by rw [← e, hs], by rw [← e, hs]⟩
      · rw [if_neg hne] at e
        exact ⟨x, rfl, by rw [← e, fput_self], by rw [← e, fput_ne _ _ (Ne.symm hne), hs]⟩
  obtain ⟨x, k1, k2, k3⟩ := key
  rw [(img_value m1 hr.1 src x).1 k1, (img_value m2 hw2 dst x).1 k2, (img_value m2 hw2 src x).1 k3]
  exact ⟨rfl, rfl⟩

/-- Load a file with a palette and one whose palette cannot be converted, copy, change the copy, move, assign without
memory, and destroy everything: the run is defined and nothing is left. -/
example : match (ImgMem.init ℕ).run Toy.palettes
    [.construct 0, .load 0 (some (Toy.indexed ℕ 8 .Palette (fun i => (i, i, i)) none)) .sRGB, .copyCtor 1 0 true,
     .change 1 (fun b => { b with px := fun _ _ => .ints [9, 9, 9] }) id, .derive 2 1 some .RGB8, .moveAssign 1 2,
     .copyAssign 2 0 true, .copyAssign 0 1 false, .load 1 (some (Toy.indexed ℕ 1 .MinIsBlack (fun i => (i, i, i)) none)) .Linear]
    with
    | .ok m => (match m.value 0, m.value 1, m.value 2 with
        | .ok none, .ok none, .ok (some (b, f, cs)) => b.pixels.px 0 1 = .ints [1, 1, 1] ∧ f = .RGB8 ∧ cs = .sRGB
        | _, _, _ => False)
    | .ub => False := by
  simp [ImgMem.run, ImgMem.step, ImgMem.init, fput, ImgMem.remake, ImgMem.release, ImgMem.create, ImgMem.alloc, ImgMem.get,
    ImgMem.unload, ImgMem.cloneInto, ImgMem.value, Toy.indexed, Toy.palettes, Toy.entry, getFormat]

end Cuttlefish
