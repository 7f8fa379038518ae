import Verif.Model.TextureConvert
import Verif.Proofs.Basic
namespace Cuttlefish
variable {α β : Type}

/-- Element of a nested vector, if it exists. -/
def Store.at? (s : Store α) (m d f : Nat) : Option α :=
  (s[m]? : Option (List (List α))).bind fun ds => (ds[d]? : Option (List α)).bind fun fs => fs[f]?

theorem Store.get_eq (s : Store α) (m d f : Nat) :
    s.get m d f = match s.at? m d f with
      | none => .ub
      | some a => .ok a := by
  unfold Store.get Store.at?
  cases h1 : (s[m]? : Option _) with
  | none => simp
  | some ds =>
    simp only [Option.bind_some]
    cases h2 : (ds[d]? : Option _) with
    | none => simp
    | some fs =>
      simp only [Option.bind_some]
      cases h3 : (fs[f]? : Option _) <;> simp

theorem Store.get_ok {s : Store α} {m d f : Nat} {a : α} :
    s.get m d f = .ok a ↔ s.at? m d f = some a := by
  rw [Store.get_eq]; cases s.at? m d f <;> simp

theorem Store.at?_cons_zero (ds : List (List α)) (s : Store α) (d f : Nat) :
    Store.at? (ds :: s) 0 d f = (ds[d]? : Option (List α)).bind fun fs => fs[f]? := by
  simp [Store.at?]

theorem Store.at?_cons_succ (ds : List (List α)) (s : Store α) (m d f : Nat) :
    Store.at? (ds :: s) (m+1) d f = Store.at? s m d f := by
  simp [Store.at?]

/-- Number of elements of level `m`, layer `d`. -/
def Store.facesAt (s : Store α) (m d : Nat) : Option Nat :=
  (s[m]? : Option (List (List α))).bind fun ds => (ds[d]? : Option (List α)).map List.length

theorem Store.at?_isSome {s : Store α} {m d f : Nat} :
    (s.at? m d f).isSome ↔ ∃ n, s.facesAt m d = some n ∧ f < n := by
  unfold Store.at? Store.facesAt
  cases h1 : (s[m]? : Option _) with
  | none => simp
  | some ds =>
    simp only [Option.bind_some]
    cases h2 : (ds[d]? : Option _) with
    | none => simp
    | some fs => simp

theorem Store.set_ok {s : Store α} {m d f : Nat} {a : α} (h : (s.at? m d f).isSome) :
    ∃ s', s.set m d f a = .ok s' ∧
      (∀ m' d' f', s'.at? m' d' f' = if m' = m ∧ d' = d ∧ f' = f then some a else s.at? m' d' f') ∧
      s'.length = s.length ∧
      (∀ (m' : Nat), (s'[m']? : Option _).map List.length = (s[m']? : Option _).map List.length) ∧
      (∀ m' d', s'.facesAt m' d' = s.facesAt m' d') := by
  unfold Store.at? at h
  cases h1 : (s[m]? : Option _) with
  | none => simp [h1] at h
  | some ds =>
    simp only [h1, Option.bind_some] at h
    cases h2 : (ds[d]? : Option _) with
    | none => simp [h2] at h
    | some fs =>
      simp only [h2, Option.bind_some] at h
      have hf : f < fs.length := by
        simpa using h
      have hm : m < List.length s := (List.getElem?_eq_some_iff.1 h1).1
      have hd : d < ds.length := (List.getElem?_eq_some_iff.1 h2).1
      refine ⟨List.set s m (List.set ds d (List.set fs f a)), by simp only [Store.set, h1, h2, hf, if_true], ?_, by simp, ?_, ?_⟩
      · intro m' d' f'
        unfold Store.at?
        by_cases e1 : m' = m
        · subst e1
          rw [List.getElem?_set_self hm, h1]
          simp only [Option.bind_some]
          by_cases e2 : d' = d
          · subst e2
            rw [List.getElem?_set_self hd, h2]
            simp only [Option.bind_some]
            by_cases e3 : f' = f
            · subst e3; rw [List.getElem?_set_self hf]; simp
            · rw [List.getElem?_set_ne (Ne.symm e3)]; simp [e3]
          · rw [List.getElem?_set_ne (Ne.symm e2)]; simp [e2]
        · rw [List.getElem?_set_ne (Ne.symm e1)]; simp [e1]
      · intro m'
        by_cases e1 : m' = m
        · subst e1; rw [List.getElem?_set_self hm, h1]; simp
        · rw [List.getElem?_set_ne (Ne.symm e1)]
      · intro m' d'
        unfold Store.facesAt
        by_cases e1 : m' = m
        · subst e1
          rw [List.getElem?_set_self hm, h1]
          simp only [Option.bind_some]
          by_cases e2 : d' = d
          · subst e2; rw [List.getElem?_set_self hd, h2]; simp
          · rw [List.getElem?_set_ne (Ne.symm e2)]
        · rw [List.getElem?_set_ne (Ne.symm e1)]

theorem Store.at?_of_mem {s : Store α} {a : α} {ds : List (List α)} {fs : List α}
    (h1 : ds ∈ s) (h2 : fs ∈ ds) (h3 : a ∈ fs) : ∃ m d f, s.at? m d f = some a := by
  obtain ⟨m, hm, rfl⟩ := List.getElem_of_mem h1
  obtain ⟨d, hd, rfl⟩ := List.getElem_of_mem h2
  obtain ⟨f, hf, rfl⟩ := List.getElem_of_mem h3
  refine ⟨m, d, f, ?_⟩
  simp [Store.at?, List.getElem?_eq_getElem hm, List.getElem?_eq_getElem hd,
    List.getElem?_eq_getElem hf]

theorem Store.mem_of_at? {s : Store α} {a : α} {m d f : Nat} (h : s.at? m d f = some a) :
    ∃ ds fs, ds ∈ s ∧ fs ∈ ds ∧ a ∈ fs ∧ (s[m]? : Option _) = some ds ∧ (ds[d]? : Option _) = some fs := by
  unfold Store.at? at h
  cases h1 : (s[m]? : Option _) with
  | none => simp [h1] at h
  | some ds =>
    simp only [h1, Option.bind_some] at h
    cases h2 : (ds[d]? : Option _) with
    | none => simp [h2] at h
    | some fs =>
      simp only [h2, Option.bind_some] at h
      exact ⟨ds, fs, List.mem_of_getElem? h1, List.mem_of_getElem? h2, List.mem_of_getElem? h, rfl, h2⟩

end Cuttlefish
