import Verif.Proofs.CommandKeep
import Verif.Props.C33
import Verif.Spec.Process
/-
The sizes of a parsed command line are values of the type `int`.
-/
namespace Cuttlefish
open Spec
variable {H : Type}

/-- A value of the type `int`. -/
def IsInt (v : ℤ) : Prop := -2 ^ 31 ≤ v ∧ v < 2 ^ 31

/-- The sizes are values of the type `int`. -/
def Ints (c : Cmd H) : Prop := IsInt c.width ∧ IsInt c.height

theorem readSize_int {argv : List Str} {i : ℕ} {p : ℤ × ℕ} (h : readSize argv i = .ok (some p)) : IsInt p.1 := by
  unfold readSize at h
  split at h
  · simp at h
  rw [Res.bind_eq_ok] at h
  obtain ⟨a, -, h⟩ := h
  simp only [Res.ok.injEq, Option.map_eq_some_iff] at h
  obtain ⟨v, hv, rfl⟩ := h
  unfold sizeArg at hv
  split at hv
  · rename_i v' hw
    simp only [Option.some.injEq] at hv
    subst hv
    have key : ∀ e ∈ sizeNames, -15 ≤ e.2 ∧ e.2 ≤ -1 := by decide +kernel
    unfold lookupWord at hw
    rw [Option.map_eq_some_iff] at hw
    obtain ⟨e, he, rfl⟩ := hw
    have := key e (List.mem_of_find?_eq_some he)
    unfold IsInt
    dsimp only
    omega
  · simp only [Option.map_eq_some_iff] at hv
    obtain ⟨n, -, rfl⟩ := hv
    unfold IsInt toI32
    dsimp only
    omega

/-- Every option keeps them. -/
theorem ints_step (E : CmdEnv H) (argv : List Str) (i : ℕ) (c : Cmd H) (h : Ints c) :
    Keeps Ints (parseStep E argv i c) := by
  unfold parseStep
  refine keeps_bind fun a _ => ?_
  unfold parseBody
  have same (c' : Cmd H) (j : ℕ) (e1 : c'.width = c.width) (e2 : c'.height = c.height) :
      Keeps Ints (.ok (.next j c')) := keeps_next (by unfold Ints; rw [e1, e2]; exact h)
  refine keeps_ite (fun _ => ?_) fun _ => ?_
  · unfold optJobs
    refine keeps_ite (fun _ => keeps_bind fun a _ => ?_) fun _ => same _ _ rfl rfl
    split <;> exact same _ _ rfl rfl
  refine keeps_ite (fun _ => same _ _ rfl rfl) fun _ => ?_
  refine keeps_ite (fun _ => same _ _ rfl rfl) fun _ => ?_
  refine keeps_ite (fun _ => ?_) fun _ => ?_
  · unfold optInput
    exact keeps_ite (fun _ => keeps_fail c) fun _ => keeps_ite (fun _ => keeps_fail c) fun _ =>
      keeps_bind fun a _ => same _ _ rfl rfl
  refine keeps_ite (fun _ => ?_) fun _ => ?_
  · unfold optArray
    refine keeps_ite (fun _ => keeps_fail c) fun _ => ?_
    refine keeps_ite (fun _ => keeps_fail _) fun _ => keeps_bind fun r _ => keeps_bind fun a _ =>
      keeps_put fun images => ?_
    split <;> exact h
  refine keeps_ite (fun _ => ?_) fun _ => ?_
  · unfold optCube
    refine keeps_ite (fun _ => keeps_fail c) fun _ => ?_
    refine keeps_ite (fun _ => keeps_fail _) fun _ => keeps_bind fun r _ => ?_
    cases r with
    | none => exact keeps_fail _
    | some p =>
      refine keeps_bind fun a _ => keeps_put fun images => ?_
      split <;> exact h
  refine keeps_ite (fun _ => ?_) fun _ => ?_
  · unfold optCubeArray
    refine keeps_ite (fun _ => keeps_fail c) fun _ => ?_
    refine keeps_ite (fun _ => keeps_fail _) fun _ => keeps_bind fun r _ => ?_
    cases r with
    | none => exact keeps_fail _
    | some p =>
      refine keeps_bind fun r _ => ?_
      cases r with
      | none => exact keeps_fail _
      | some p =>
        refine keeps_bind fun a _ => keeps_put fun images => ?_
        split <;> exact h
  refine keeps_ite (fun _ => ?_) fun _ => ?_
  · unfold optInputList
    refine keeps_ite (fun _ => keeps_fail c) fun _ => keeps_ite (fun _ => keeps_fail c) fun _ =>
      keeps_bind fun a _ => ?_
    cases lookupWord a listTypes with
    | none => exact keeps_fail _
    | some t =>
      refine keeps_bind fun a _ => keeps_bind fun l _ => ?_
      cases l with
      | none => exact keeps_fail _
      | some l => exact same _ _ rfl rfl
  refine keeps_ite (fun _ => ?_) fun _ => ?_
  · unfold optResize
    refine keeps_ite (fun _ => keeps_fail c) fun _ => keeps_bind fun r hr => ?_
    cases r with
    | none => exact keeps_fail _
    | some p =>
      have h1 := readSize_int hr
      refine keeps_bind fun r hr => ?_
      cases r with
      | none => exact keeps_fail _
      | some q =>
        have h2 := readSize_int hr
        refine keeps_bind fun r _ => ?_
        cases r with
        | none => exact keeps_next ⟨h1, h2⟩
        | some p => exact keeps_next ⟨h1, h2⟩
  refine keeps_ite (fun _ => ?_) fun _ => ?_
  · unfold optMipmap
    refine keeps_bind fun l _ => keeps_bind fun r _ => ?_
    cases r with
    | none => exact same _ _ rfl rfl
    | some p => exact same _ _ rfl rfl
  refine keeps_ite (fun _ => ?_) fun _ => ?_
  · unfold optCustomMip
    refine keeps_ite (fun _ => keeps_fail c) fun _ => keeps_bind fun r _ => ?_
    cases r with
    | none => exact keeps_fail _
    | some p =>
      refine keeps_bind fun d _ => keeps_bind fun f _ => keeps_bind fun q _ =>
        keeps_ite (fun _ => keeps_fail c) fun _ => keeps_bind fun a _ => ?_
      cases c.customMips.emplace ⟨f.1, u32 p.1, u32 d.1⟩ a q.1 with
      | none => exact keeps_fail _
      | some m => exact same _ _ rfl rfl
  refine keeps_ite (fun _ => ?_) fun _ => ?_
  · unfold optCustomMipList
    refine keeps_ite (fun _ => keeps_fail c) fun _ => keeps_bind fun a _ => keeps_bind fun r _ => ?_
    cases r with
    | none => exact keeps_fail _
    | some m => exact same _ _ rfl rfl
  refine keeps_ite (fun _ => same _ _ rfl rfl) fun _ => ?_
  refine keeps_ite (fun _ => same _ _ rfl rfl) fun _ => ?_
  refine keeps_ite (fun _ => ?_) fun _ => ?_
  · unfold optRotate
    refine keeps_ite (fun _ => keeps_fail c) fun _ => keeps_bind fun a _ => ?_
    split
    · exact keeps_fail _
    · exact same _ _ rfl rfl
    · exact same _ _ rfl rfl
  refine keeps_ite (fun _ => ?_) fun _ => ?_
  · unfold optNormalMap
    exact keeps_bind fun w _ => keeps_bind fun h _ => same _ _ rfl rfl
  refine keeps_ite (fun _ => same _ _ rfl rfl) fun _ => ?_
  refine keeps_ite (fun _ => ?_) fun _ => ?_
  · unfold optSwizzle
    refine keeps_ite (fun _ => keeps_fail c) fun _ => keeps_bind fun a _ => ?_
    split
    · exact keeps_fail _
    · exact same _ _ rfl rfl
  refine keeps_ite (fun _ => same _ _ rfl rfl) fun _ => ?_
  refine keeps_ite (fun _ => same _ _ rfl rfl) fun _ => ?_
  refine keeps_ite (fun _ => keeps_word fun a v hv => h) fun _ => ?_
  refine keeps_ite (fun _ => ?_) fun _ => ?_
  · unfold optFormat
    exact keeps_ite (fun _ => keeps_fail c) fun _ => keeps_bind fun a _ =>
      keeps_ite (fun _ => keeps_fail c) fun _ => same _ _ rfl rfl
  refine keeps_ite (fun _ => keeps_word fun a v hv => h) fun _ => ?_
  refine keeps_ite (fun _ => keeps_word fun a v hv => h) fun _ => ?_
  refine keeps_ite (fun _ => keeps_word fun a v hv => h) fun _ => ?_
  refine keeps_ite (fun _ => ?_) fun _ => ?_
  · unfold optOutput
    exact keeps_ite (fun _ => keeps_fail c) fun _ => keeps_ite (fun _ => keeps_fail c) fun _ =>
      keeps_bind fun a _ => same _ _ rfl rfl
  refine keeps_ite (fun _ => keeps_word fun a v hv => h) fun _ => ?_
  exact keeps_ite (fun _ => same _ _ rfl rfl) fun _ => same _ _ rfl rfl

/-- The sizes of an accepted command line. -/
theorem parse_ints {E : CmdEnv H} {argv : List Str} {c : Cmd H} (h : parseCommandLine E argv = .ok (some (some c))) :
    IntSizes c := by
  obtain ⟨c0, -, hs, hv, hl⟩ := parse_success h
  have h0 : Ints c0 := keeps_loop E argv (ints_step E argv) _ _ _ _ ⟨by norm_num [IsInt], by norm_num [IsInt]⟩ hl hs
  obtain ⟨-, c1, h1, h2, -⟩ := validate_some hv
  have e1 := (checkKind_eq h1).1
  have e2 := checkOutput_eq h2
  have ew : c.width = c0.width := by rw [e2]; dsimp only; rw [e1]
  have eh : c.height = c0.height := by rw [e2]; dsimp only; rw [e1]
  intro v hv
  rw [ew, eh] at hv
  simp only [List.mem_cons, List.not_mem_nil, or_false] at hv
  rcases hv with rfl | rfl
  · exact h0.1
  · exact h0.2

end Cuttlefish
