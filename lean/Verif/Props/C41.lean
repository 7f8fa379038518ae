import Verif.Model.Objects
import Verif.Proofs.Basic
/-
C41: copies of custom mip images are faithful.
-/
namespace Cuttlefish
variable {Img : Type}

/-- No live object points into the storage of another object. -/
def SelfContained (m : CMMem Img) : Prop :=
  ∀ a o, m a = some o → o.image = .storage a ∨ ∃ e, o.image = .external e

theorem selfContained_put {m : CMMem Img} (h : SelfContained m) {a : Nat} {o : Option (CMObj Img)}
    (ho : ∀ x, o = some x → x.image = .storage a ∨ ∃ e, x.image = .external e) :
    SelfContained (m.put a o) := by
  intro b x hx
  unfold CMMem.put at hx
  split at hx
  · next hb => subst hb; exact ho x hx
  · exact h b x hx

theorem selfContained_step {m m' : CMMem Img} (h : SelfContained m) {op : CMOp Img}
    (hs : m.step op = .ok m') : SelfContained m' := by
  cases op with
  | ref dst e r =>
    simp only [CMMem.step] at hs
    cases hd : m dst <;> simp [hd] at hs
    subst hs; exact selfContained_put h (by rintro x ⟨⟩; exact Or.inr ⟨e, rfl⟩)
  | own dst img r =>
    simp only [CMMem.step] at hs
    cases hd : m dst <;> simp [hd] at hs
    subst hs; exact selfContained_put h (by rintro x ⟨⟩; exact Or.inl rfl)
  | copyCtor dst src =>
    simp only [CMMem.step] at hs
    cases hd : m dst <;> cases hso : m src <;> simp [hd, hso] at hs
    split at hs <;> simp only [Res.ok.injEq] at hs <;> subst hs
    · exact selfContained_put h (by rintro x ⟨⟩; exact Or.inl rfl)
    · next hn =>
      refine selfContained_put h (by rintro x ⟨⟩; exact Or.inr ((h _ _ hso).resolve_left hn))
  | moveCtor dst src =>
    simp only [CMMem.step] at hs
    cases hd : m dst <;> cases hso : m src <;> simp [hd, hso] at hs
    split at hs <;> simp only [Res.ok.injEq] at hs <;> subst hs
    · next he =>
      exact selfContained_put (selfContained_put h (by rintro x ⟨⟩; exact Or.inl he))
        (by rintro x ⟨⟩; exact Or.inl rfl)
    · next hn =>
      refine selfContained_put h (by rintro x ⟨⟩; exact Or.inr ((h _ _ hso).resolve_left hn))
  | copyAssign dst src =>
    simp only [CMMem.step] at hs
    cases hd : m dst <;> cases hso : m src <;> simp [hd, hso] at hs
    split at hs
    · simp only [Res.ok.injEq] at hs; subst hs; exact h
    · split at hs <;> simp only [Res.ok.injEq] at hs <;> subst hs
      · exact selfContained_put h (by rintro x ⟨⟩; exact Or.inl rfl)
      · next hn =>
        exact selfContained_put h (by rintro x ⟨⟩; exact Or.inr ((h _ _ hso).resolve_left hn))
  | moveAssign dst src =>
    simp only [CMMem.step] at hs
    cases hd : m dst <;> cases hso : m src <;> simp [hd, hso] at hs
    split at hs
    · simp only [Res.ok.injEq] at hs; subst hs; exact h
    · split at hs <;> simp only [Res.ok.injEq] at hs <;> subst hs
      · next he =>
        exact selfContained_put (selfContained_put h (by rintro x ⟨⟩; exact Or.inl he))
          (by rintro x ⟨⟩; exact Or.inl rfl)
      · next hn =>
        exact selfContained_put h (by rintro x ⟨⟩; exact Or.inr ((h _ _ hso).resolve_left hn))
  | destroy a =>
    simp only [CMMem.step] at hs
    cases hd : m a <;> simp [hd] at hs
    subst hs; exact selfContained_put h (by rintro x ⟨⟩)

theorem selfContained_run {m m' : CMMem Img} (ops : List (CMOp Img)) (h : SelfContained m)
    (hs : m.run ops = .ok m') : SelfContained m' := by
  induction ops generalizing m with
  | nil => simp [CMMem.run] at hs; exact hs ▸ h
  | cons o os ih =>
    simp only [CMMem.run] at hs
    cases h1 : m.step o with
    | ub => simp [h1] at hs
    | ok m1 => simp only [h1, Res.ok_bind] at hs; exact ih (selfContained_step h h1) hs

/-- What a user sees of the object at `a`: the image it refers to and the replacement mode.
`none` if the object is dead; undefined if its pointer dangles. -/
def view (ext : Nat → Option Img) (m : CMMem Img) (a : Nat) : Option (Res (Option Img) × MipReplacement) :=
  (m a).map (fun o => (m.deref ext o.image, o.replacement))

/-- The object refers to the image stored in itself. -/
def Owns (m : CMMem Img) (a : Nat) : Prop := ∃ o, m a = some o ∧ o.image = .storage a

/-- After any history of constructions, copies, moves, assignments and destructions, every live
object refers to an image of the user or to its own storage: pointers never dangle and an owning
object never refers to the object it was copied from, even when that one has been destroyed. -/
theorem C41_no_dangling (ops : List (CMOp Img)) (m : CMMem Img)
    (h : CMMem.run (fun _ => none) ops = .ok m) (ext : Nat → Option Img) (a : Nat) (o : CMObj Img)
    (ha : m a = some o) :
    (o.image = .storage a ∨ ∃ e, o.image = .external e) ∧ ∃ g, m.deref ext o.image = .ok g := by
  have hsc := selfContained_run ops (m := fun _ => none) (by intro a o h; cases h) h a o ha
  refine ⟨hsc, ?_⟩
  rcases hsc with h | ⟨e, h⟩
  · rw [h]; exact ⟨o.imageStorage, by simp [CMMem.deref, ha]⟩
  · rw [h]; exact ⟨ext e, rfl⟩

/-- Copy construction: the copy refers to an equal image with the same replacement mode, owns it
exactly if the source owns its image, and the source is unchanged. -/
theorem C41_copy_construct (ops : List (CMOp Img)) (m m' : CMMem Img)
    (h : CMMem.run (fun _ => none) ops = .ok m) (dst src : Nat)
    (hs : m.step (.copyCtor dst src) = .ok m') (ext : Nat → Option Img) :
    view ext m' dst = view ext m src ∧ view ext m' src = view ext m src ∧
      (Owns m' dst ↔ Owns m src) := by
  have hsc := selfContained_run ops (m := fun _ => none) (by intro a o h; cases h) h
  simp only [CMMem.step] at hs
  cases hd : m dst <;> cases hso : m src <;> simp [hd, hso] at hs
  next o =>
  have hne : src ≠ dst := by rintro rfl; rw [hd] at hso; cases hso
  split at hs <;> simp only [Res.ok.injEq] at hs <;> subst hs
  · next he => simp [view, CMMem.put, CMMem.deref, hne, hso, he, Owns]
  · next he =>
    obtain ⟨e, he'⟩ := (hsc _ _ hso).resolve_left he
    simp [view, CMMem.put, CMMem.deref, hne, hso, he', Owns]

/-- Move construction: the new object has the image and the replacement mode the source had. -/
theorem C41_move_construct (ops : List (CMOp Img)) (m m' : CMMem Img)
    (h : CMMem.run (fun _ => none) ops = .ok m) (dst src : Nat)
    (hs : m.step (.moveCtor dst src) = .ok m') (ext : Nat → Option Img) :
    view ext m' dst = view ext m src ∧ (Owns m' dst ↔ Owns m src) := by
  have hsc := selfContained_run ops (m := fun _ => none) (by intro a o h; cases h) h
  simp only [CMMem.step] at hs
  cases hd : m dst <;> cases hso : m src <;> simp [hd, hso] at hs
  next o =>
  have hne : src ≠ dst := by rintro rfl; rw [hd] at hso; cases hso
  split at hs <;> simp only [Res.ok.injEq] at hs <;> subst hs
  · next he => simp [view, CMMem.put, CMMem.deref, hso, he, Owns]
  · next he =>
    obtain ⟨e, he'⟩ := (hsc _ _ hso).resolve_left he
    simp [view, CMMem.put, CMMem.deref, hso, he', Owns]

/-- Copy and move assignment: the target refers to the image the source referred to.

Partial: the full claim also says that the replacement mode is taken over.  It is not: the target
keeps its old one, see `C41_fails_assignment_drops_replacement`. -/
theorem C41_assign_partial (ops : List (CMOp Img)) (m m' : CMMem Img)
    (h : CMMem.run (fun _ => none) ops = .ok m) (dst src : Nat) (op : CMOp Img)
    (hop : op = .copyAssign dst src ∨ op = .moveAssign dst src)
    (hs : m.step op = .ok m') (ext : Nat → Option Img) :
    (view ext m' dst).map (·.1) = (view ext m src).map (·.1) ∧
    (view ext m' dst).map (·.2) = (view ext m dst).map (·.2) ∧ (Owns m' dst ↔ Owns m src) := by
  have hsc := selfContained_run ops (m := fun _ => none) (by intro a o h; cases h) h
  rcases hop with rfl | rfl <;>
  · simp only [CMMem.step] at hs
    cases hd : m dst <;> cases hso : m src <;> simp [hd, hso] at hs
    next o =>
    by_cases hne : dst = src
    · subst hne
      simp only [if_true, Res.ok.injEq] at hs; subst hs; simp
    · rw [if_neg hne] at hs
      split at hs <;> simp only [Res.ok.injEq] at hs <;> subst hs
      · next he => simp [view, CMMem.put, CMMem.deref, hso, hd, he, Owns]
      · next he =>
        obtain ⟨e, he'⟩ := (hsc _ _ hso).resolve_left he
        simp [view, CMMem.put, CMMem.deref, hso, hd, he', Owns]

/-- Assigning leaves the source's view alone for copies. -/
theorem C41_copy_assign_source (ops : List (CMOp Img)) (m m' : CMMem Img)
    (h : CMMem.run (fun _ => none) ops = .ok m) (dst src : Nat)
    (hs : m.step (.copyAssign dst src) = .ok m') (ext : Nat → Option Img) :
    (view ext m' src).map (·.1) = (view ext m src).map (·.1) := by
  have hsc := selfContained_run ops (m := fun _ => none) (by intro a o h; cases h) h
  simp only [CMMem.step] at hs
  cases hd : m dst <;> cases hso : m src <;> simp [hd, hso] at hs
  next o =>
  by_cases hne : dst = src
  · subst hne; simp only [if_true, Res.ok.injEq] at hs; subst hs; rfl
  · rw [if_neg hne] at hs
    split at hs <;> simp only [Res.ok.injEq] at hs <;> subst hs
    · next he => simp [view, CMMem.put, CMMem.deref, hso, Ne.symm hne, he]
    · next he =>
      obtain ⟨e, he'⟩ := (hsc _ _ hso).resolve_left he
      simp [view, CMMem.put, CMMem.deref, hso, Ne.symm hne, he']

/-- The objects an operation may change. -/
def Spec.cmChanges : CMOp Img → List Nat
  | .ref d _ _ | .own d _ _ | .copyCtor d _ | .copyAssign d _ | .destroy d => [d]
  | .moveCtor d s | .moveAssign d s => [d, s]

/-- Operations on other objects do not change what is seen through an object. -/
theorem C41_independent (ops : List (CMOp Img)) (m m' : CMMem Img)
    (h : CMMem.run (fun _ => none) ops = .ok m) (op : CMOp Img) (a : Nat)
    (hop : a ∉ Spec.cmChanges op) (hs : m.step op = .ok m') (ext : Nat → Option Img) :
    view ext m' a = view ext m a := by
  have hsc := selfContained_run ops (m := fun _ => none) (by intro a o h; cases h) h
  have hma : m' a = m a := by
    cases op <;> simp only [CMMem.step, Spec.cmChanges, List.mem_cons, List.not_mem_nil, or_false,
      not_or] at hs hop <;> (repeat' split at hs) <;>
      simp only [Res.ok.injEq, reduceCtorEq] at hs <;> subst hs <;> simp [CMMem.put, hop]
  unfold view
  rw [hma]
  cases ha : m a with
  | none => rfl
  | some o =>
    simp only [Option.map_some]
    rcases hsc a o ha with he | ⟨e, he⟩
    · rw [he]; simp [CMMem.deref, hma, ha]
    · rw [he]; simp [CMMem.deref]

/-- The full claim is false: assignment keeps the target's replacement mode. -/
theorem C41_fails_assignment_drops_replacement :
    ∃ m : CMMem Nat, CMMem.run (fun _ => none)
      [.own 0 (some 5) .Continue, .own 1 (some 6) .Once, .copyAssign 1 0] = .ok m ∧
      view (fun _ => none) m 0 = some (.ok (some 5), .Continue) ∧
      view (fun _ => none) m 1 = some (.ok (some 5), .Once) := ⟨_, rfl, rfl, rfl⟩

/-- A copy survives the destruction of its source. -/
example : ∃ m : CMMem Nat, CMMem.run (fun _ => none)
    [.own 0 (some 5) .Continue, .copyCtor 1 0, .destroy 0, .moveCtor 2 1, .ref 3 7 .Once,
     .copyAssign 2 3] = .ok m ∧
    view (fun e => some (100 + e)) m 2 = some (.ok (some 107), .Continue) ∧
    view (fun e => some (100 + e)) m 1 = some (.ok none, .Continue) := ⟨_, rfl, rfl, rfl⟩

end Cuttlefish
