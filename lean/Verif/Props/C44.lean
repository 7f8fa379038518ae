import Verif.Proofs.Objects
import Verif.Spec.Toy
/-
C44: copies of textures are independent values.
-/
namespace Cuttlefish
open Spec
variable {Img : Type}

/-- Any history of constructions, copies, moves, assignments, destructions and public calls on
texture objects, which share nothing but own heap-allocated state, behaves exactly like the same
history on plain values (Verif/Spec/Values.lean): the same results, and undefined behaviour only
where the value-level history uses a dead object or a call is itself undefined. -/
theorem C44_value_semantics (W : World Img) (ops : List (TexOp Img)) :
    (∀ outs m, (TexMem.init Img).run W ops = .ok (outs, m) →
      ∃ s, TexVals.run W (fun _ => none) ops = .ok (outs, s) ∧
        ∀ v t, s v = some t ↔ m.value v = .ok t) ∧
    ((TexMem.init Img).run W ops = .ub → TexVals.run W (fun _ => none) ops = .ub) := by
  have h := run_refines W ops (TexMem.wf_init (Img := Img))
  have hi : (TexMem.init Img).abs = fun _ => none := rfl
  rw [hi] at h
  constructor
  · intro outs m hr
    rw [hr] at h
    obtain ⟨hw, h⟩ := h
    refine ⟨_, h, fun v t => ?_⟩
    unfold TexMem.abs TexMem.value
    cases hv : m.vars v with
    | none => simp
    | some o => cases o with
      | none => simp
      | some p =>
        obtain ⟨i, hi⟩ := hw.alive v p hv
        simp [hi]
  · intro hr; rw [hr] at h; exact h

/-- On values: after copy construction or copy assignment the two variables hold the same
texture, and only the target changed. -/
theorem C44_copy (W : World Img) (s s' : TexVals Img) (out : Option (Out Img)) (dst src : Nat)
    (op : TexOp Img) (hop : op = .copyCtor dst src ∨ op = .copyAssign dst src)
    (h : TexVals.step W s op = .ok (out, s')) :
    s' dst = s src ∧ s' src = s src ∧ ∀ v, v ≠ dst → s' v = s v := by
  have key : ∀ t, s src = some t → s' = upd s dst (some t) →
      s' dst = s src ∧ s' src = s src ∧ ∀ v, v ≠ dst → s' v = s v := by
    intro t ht e; subst e
    refine ⟨by simp [upd, ht], ?_, fun v hv => by simp [upd, hv]⟩
    unfold upd; split
    · exact ht.symm
    · rfl
  rcases hop with rfl | rfl
  · simp only [TexVals.step] at h
    cases hd : s dst <;> cases hs : s src <;> simp [hd, hs] at h
    exact hs ▸ key _ hs h.2.symm
  · simp only [TexVals.step] at h
    cases hd : s dst <;> cases hs : s src <;> simp [hd, hs] at h
    exact hs ▸ key _ hs h.2.symm

/-- On values: self assignment changes nothing. -/
theorem C44_self (W : World Img) (s : TexVals Img) (v : Nat) (t : Tex Img) (hv : s v = some t) :
    TexVals.step W s (.copyAssign v v) = .ok (none, s) ∧
    TexVals.step W s (.moveAssign v v) = .ok (none, s) := by
  have : upd s v (some t) = s := by
    funext w; unfold upd; split
    · next h => rw [h, hv]
    · rfl
  simp [TexVals.step, hv, this]

/-- On values: assigning an invalid texture makes the target invalid. -/
theorem C44_assign_invalid (W : World Img) (s : TexVals Img) (dst src : Nat) (t : Tex Img)
    (hd : s dst = some t) (hs : s src = some none) :
    ∃ s', TexVals.step W s (.copyAssign dst src) = .ok (none, s') ∧ s' dst = some none :=
  ⟨_, by simp [TexVals.step, hd, hs]; rfl, by simp [upd]⟩

theorem step_untouched {W : World Img} {s s' : TexVals Img} {o : TexOp Img} {out : Option (Out Img)}
    {v : Nat} (hvo : v ∉ changes o) (hst : TexVals.step W s o = .ok (out, s')) : s' v = s v := by
  cases o with
  | construct u =>
    simp only [TexVals.step, changes, List.mem_singleton] at hst hvo
    cases h : s u <;> simp [h] at hst; rw [← hst.2]; simp [upd, hvo]
  | destroy u =>
    simp only [TexVals.step, changes, List.mem_singleton] at hst hvo
    cases h : s u <;> simp [h] at hst; rw [← hst.2]; simp [upd, hvo]
  | copyCtor d c =>
    simp only [TexVals.step, changes, List.mem_singleton] at hst hvo
    cases h : s d <;> cases h' : s c <;> simp [h, h'] at hst
    rw [← hst.2]; simp [upd, hvo]
  | copyAssign d c =>
    simp only [TexVals.step, changes, List.mem_singleton] at hst hvo
    cases h : s d <;> cases h' : s c <;> simp [h, h'] at hst
    rw [← hst.2]; simp [upd, hvo]
  | moveCtor d c =>
    simp only [TexVals.step, changes, List.mem_cons, List.not_mem_nil, or_false, not_or] at hst hvo
    cases h : s d <;> cases h' : s c <;> simp [h, h'] at hst
    rw [← hst.2]; simp [upd, hvo]
  | moveAssign d c =>
    simp only [TexVals.step, changes, List.mem_cons, List.not_mem_nil, or_false, not_or] at hst hvo
    cases h : s d <;> cases h' : s c <;> simp [h, h'] at hst
    rw [← hst.2]
    by_cases hds : d = c <;> simp [upd, hvo, hds]
  | call u op =>
    simp only [TexVals.step, changes, List.mem_singleton] at hst hvo
    cases h : s u with
    | none => simp [h] at hst
    | some t =>
      simp only [h] at hst
      cases hc : call W t op with
      | ub => simp [hc] at hst
      | ok x => simp [hc] at hst; rw [← hst.2]; simp [upd, hvo]

/-- Operations on other objects never change an object: for every later history that does not
name `v` as something it changes, the texture seen through `v` stays the same. -/
theorem C44_independent (W : World Img) (before later : List (TexOp Img)) (v : Nat)
    (hv : ∀ o ∈ later, v ∉ changes o) (outs1 outs2 : List (Option (Out Img))) (m1 m2 : TexMem Img)
    (h1 : (TexMem.init Img).run W before = .ok (outs1, m1))
    (h2 : m1.run W later = .ok (outs2, m2)) : m2.value v = m1.value v := by
  have hw : m1.WF := by
    have := run_refines W before (TexMem.wf_init (Img := Img)); rw [h1] at this; exact this.1
  have habs : m2.WF ∧ m2.abs v = m1.abs v := by
    clear h1
    induction later generalizing m1 outs2 with
    | nil => simp [TexMem.run] at h2; rw [← h2.2]; exact ⟨hw, rfl⟩
    | cons o os ih =>
      simp only [TexMem.run] at h2
      cases hs : m1.step W o with
      | ub => simp [hs] at h2
      | ok r =>
        simp only [hs, Res.ok_bind] at h2
        cases hr : r.2.run W os with
        | ub => simp [hr] at h2
        | ok rs =>
          simp only [hr, Res.ok_bind, Res.pure_eq, Res.ok.injEq, Prod.mk.injEq] at h2
          have hst := step_refines W hw o
          rw [hs] at hst
          have ih := ih (fun o' ho' => hv o' (List.mem_cons_of_mem _ ho')) rs.1 r.2
            (by rw [hr, ← h2.2]) hst.1
          refine ⟨ih.1, ih.2.trans ?_⟩
          exact step_untouched (hv o List.mem_cons_self) hst.2
  have hval : ∀ m : TexMem Img, m.WF → m.value v = match m.abs v with | none => .ub | some t => .ok t := by
    intro m hw
    unfold TexMem.value TexMem.abs
    cases hv : m.vars v with
    | none => rfl
    | some o => cases o with
      | none => rfl
      | some p => obtain ⟨i, hi⟩ := hw.alive v p hv; simp [hi]
  rw [hval m2 habs.1, hval m1 hw, habs.2]

/-- Nothing is leaked and nothing is shared: after any history every allocated state belongs to
exactly one live object. -/
theorem C44_ownership (W : World Img) (ops : List (TexOp Img)) (outs : List (Option (Out Img)))
    (m : TexMem Img) (h : (TexMem.init Img).run W ops = .ok (outs, m)) :
    ∀ p i, m.heap p = some i → ∃ v, m.vars v = some (some p) ∧ ∀ w, m.vars w = some (some p) → w = v := by
  have hw := run_refines W ops (TexMem.wf_init (Img := Img))
  rw [h] at hw
  intro p i hp
  obtain ⟨v, hv⟩ := hw.1.owned p i hp
  exact ⟨v, hv, fun w h => hw.1.uniq w v p h hv⟩

/-- Copy a texture, change the copy, and read both. -/
example : ∃ outs m, (TexMem.init Toy.Img).run Toy.world
    [.construct 0, .call 0 (.initialize .Dim2D 2 2 0 1 .Linear), .call 0 (Toy.put 2 2 1 none 0 0),
     .copyCtor 1 0, .call 1 (Toy.put 2 2 7 none 0 0), .construct 2, .moveAssign 2 1,
     .call 0 (.getImage none 0 0), .call 2 (.getImage none 0 0), .destroy 1] = .ok (outs, m) ∧
    outs[7]? = some (some (.image (some (Toy.img 2 2 1)))) ∧
    outs[8]? = some (some (.image (some (Toy.img 2 2 7)))) := ⟨_, _, rfl, rfl, rfl⟩

end Cuttlefish
