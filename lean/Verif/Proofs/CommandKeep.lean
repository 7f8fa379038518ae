import Verif.Proofs.Basic
import Verif.Proofs.CommandSteps
import Verif.Proofs.CommandSafe
/-
What every command line keeps while it is parsed.
-/
namespace Cuttlefish
open Spec
variable {H : Type}

/-- The outcome of an option: it keeps `P`, or the command line is rejected. -/
def Keeps (P : Cmd H → Prop) (r : Res (StepOut H)) : Prop :=
  ∀ o, r = .ok o → match o with
    | .next _ c' => P c'
    | .stop c' => c'.success = false
    | .abort => True

section
variable {P : Cmd H → Prop}

theorem keeps_fail (c : Cmd H) : Keeps P c.fail := by
  intro o ho
  simp only [Cmd.fail, Res.ok.injEq] at ho
  subst ho
  rfl

theorem keeps_next {i : ℕ} {c : Cmd H} (h : P c) : Keeps P (.ok (.next i c)) := by
  intro o ho
  simp only [Res.ok.injEq] at ho
  subst ho
  exact h

theorem keeps_abort : Keeps P (.ok .abort) := by
  intro o ho
  simp only [Res.ok.injEq] at ho
  subst ho
  trivial

theorem keeps_ub : Keeps P .ub := by
  intro o ho
  simp at ho

theorem keeps_bind {α : Type} {x : Res α} {f : α → Res (StepOut H)}
    (h : ∀ a, x = .ok a → Keeps P (f a)) : Keeps P (x >>= f) := by
  cases x with
  | ok a => exact h a rfl
  | ub => exact keeps_ub

theorem keeps_ite {p : Prop} [Decidable p] {a b : Res (StepOut H)}
    (h1 : p → Keeps P a) (h2 : ¬ p → Keeps P b) : Keeps P (if p then a else b) := by
  by_cases h : p
  · rw [if_pos h]; exact h1 h
  · rw [if_neg h]; exact h2 h

end

/-- The custom mips have distinct places. -/
def Distinct (m : CustomMipFiles) : Prop := (m.map (·.1)).Nodup

theorem distinct_emplace {m m' : CustomMipFiles} {x : ImageIndex} {f : Str} {r : MipReplacement}
    (h : m.emplace x f r = some m') (hd : Distinct m) : Distinct m' := by
  obtain ⟨rfl, hn⟩ := mem_emplace h
  unfold Distinct at *
  rw [List.map_append, List.nodup_append]
  refine ⟨hd, by simp, ?_⟩
  intro a ha b hb
  obtain ⟨e, he, rfl⟩ := List.mem_map.1 ha
  simp only [List.map_cons, List.map_nil, List.mem_singleton] at hb
  subst hb
  exact hn e he

theorem distinct_line {m m' : CustomMipFiles} {level : ℕ} {out : Str} {s s' : TextStream}
    {last : Option UInt8} (h : customMipLine m level out s last = .ok (some (m', s')))
    (hd : Distinct m) : Distinct m' := by
  unfold customMipLine at h
  simp only [Res.bind_eq_ok] at h
  obtain ⟨r, -, d, -, f, -, p, -, n, -, h⟩ := h
  split at h
  · simp at h
  · simp only [Res.ok.injEq, Option.map_eq_some_iff, Prod.mk.injEq] at h
    obtain ⟨m2, h2, rfl, -⟩ := h
    exact distinct_emplace h2 hd

theorem distinct_loop : ∀ (fuel : ℕ) (m m' : CustomMipFiles) (s : TextStream),
    customMipLoop fuel m s = .ok (some m') → Distinct m → Distinct m'
  | 0, _, _, _, h, _ => by simp [customMipLoop] at h
  | fuel + 1, m, m', s, h, hd => by
    unfold customMipLoop at h
    split at h
    · simp only [Res.ok.injEq, Option.some.injEq] at h
      exact h ▸ hd
    · rw [Res.bind_eq_ok] at h
      obtain ⟨r, -, h⟩ := h
      split at h
      · exact distinct_loop fuel m m' _ h hd
      · split at h
        · simp at h
        · rw [Res.bind_eq_ok] at h
          obtain ⟨l, hl, h⟩ := h
          split at h
          · simp at h
          · exact distinct_loop fuel _ m' _ h (distinct_line hl hd)

/-- What the loop keeps: the dimension is not yet that of a cube, and custom mips are distinct. -/
def Kept (c : Cmd H) : Prop := c.dimension ≠ .Cube ∧ Distinct c.customMips

theorem keeps_word {α : Type} {argv : List Str} {i : ℕ} {c : Cmd H} {find : Str → Option α}
    {set : α → Cmd H} {P : Cmd H → Prop} (h : ∀ a v, find a = some v → P (set v)) :
    Keeps P (optWord argv i c find set) := by
  unfold optWord
  refine keeps_ite (fun _ => keeps_fail c) fun _ => keeps_bind fun a _ => ?_
  cases hf : find a with
  | none => exact keeps_fail c
  | some v => exact keeps_next (h a v hf)

theorem keeps_put {P : Cmd H → Prop} {E : CmdEnv H} {c : Cmd H} {grow : Bool} {need index i : ℕ}
    {file : Str} (h : ∀ images, P { c with images }) : Keeps P (putImage E c grow need index file i) := by
  unfold putImage
  refine keeps_ite (fun _ => keeps_abort) fun _ => ?_
  dsimp only
  split
  · exact keeps_ub
  · exact keeps_ite (fun _ => keeps_fail _) fun _ => keeps_next (h _)

/-- Every option keeps it. -/
theorem kept_step (E : CmdEnv H) (argv : List Str) (i : ℕ) (c : Cmd H) (h : Kept c) :
    Keeps Kept (parseStep E argv i c) := by
  unfold parseStep
  refine keeps_bind fun a _ => ?_
  unfold parseBody
  have same (c' : Cmd H) (j : ℕ) (e1 : c'.dimension = c.dimension) (e2 : c'.customMips = c.customMips) :
      Keeps Kept (.ok (.next j c')) := keeps_next (by unfold Kept; rw [e1, e2]; exact h)
  refine keeps_ite (fun _ => ?_) fun _ => ?_
  · unfold optJobs
    refine keeps_ite (fun _ => keeps_bind fun a _ => ?_) fun _ => same _ _ rfl rfl
    split <;> exact same _ _ rfl rfl
  refine keeps_ite (fun _ => same _ _ rfl rfl) fun _ => ?_
  refine keeps_ite (fun _ => same _ _ rfl rfl) fun _ => ?_
  refine keeps_ite (fun _ => ?_) fun _ => ?_
  · unfold optInput
    exact keeps_ite (fun _ => keeps_fail c) fun _ => keeps_ite (fun _ => keeps_fail c) fun _ =>
      keeps_bind fun a _ => same _ _ rfl rfl
  refine keeps_ite (fun _ => ?_) fun _ => ?_
  · unfold optArray
    refine keeps_ite (fun _ => keeps_fail c) fun _ => ?_
    refine keeps_ite (fun _ => keeps_fail _) fun _ => keeps_bind fun r _ => keeps_bind fun a _ =>
      keeps_put fun images => ?_
    split <;> exact h
  refine keeps_ite (fun _ => ?_) fun _ => ?_
  · unfold optCube
    refine keeps_ite (fun _ => keeps_fail c) fun _ => ?_
    refine keeps_ite (fun _ => keeps_fail _) fun _ => keeps_bind fun r _ => ?_
    cases r with
    | none => exact keeps_fail _
    | some p =>
      refine keeps_bind fun a _ => keeps_put fun images => ?_
      split <;> exact h
  refine keeps_ite (fun _ => ?_) fun _ => ?_
  · unfold optCubeArray
    refine keeps_ite (fun _ => keeps_fail c) fun _ => ?_
    refine keeps_ite (fun _ => keeps_fail _) fun _ => keeps_bind fun r _ => ?_
    cases r with
    | none => exact keeps_fail _
    | some p =>
      refine keeps_bind fun r _ => ?_
      cases r with
      | none => exact keeps_fail _
      | some p =>
        refine keeps_bind fun a _ => keeps_put fun images => ?_
        split <;> exact h
  refine keeps_ite (fun _ => ?_) fun _ => ?_
  · unfold optInputList
    refine keeps_ite (fun _ => keeps_fail c) fun _ => keeps_ite (fun _ => keeps_fail c) fun _ =>
      keeps_bind fun a _ => ?_
    cases lookupWord a listTypes with
    | none => exact keeps_fail _
    | some t =>
      refine keeps_bind fun a _ => keeps_bind fun l _ => ?_
      cases l with
      | none => exact keeps_fail _
      | some l => exact same _ _ rfl rfl
  refine keeps_ite (fun _ => ?_) fun _ => ?_
  · unfold optResize
    refine keeps_ite (fun _ => keeps_fail c) fun _ => keeps_bind fun r _ => ?_
    cases r with
    | none => exact keeps_fail _
    | some p =>
      refine keeps_bind fun r _ => ?_
      cases r with
      | none => exact keeps_fail _
      | some p =>
        refine keeps_bind fun r _ => ?_
        cases r with
        | none => exact same _ _ rfl rfl
        | some p => exact same _ _ rfl rfl
  refine keeps_ite (fun _ => ?_) fun _ => ?_
  · unfold optMipmap
    refine keeps_bind fun l _ => keeps_bind fun r _ => ?_
    cases r with
    | none => exact same _ _ rfl rfl
    | some p => exact same _ _ rfl rfl
  refine keeps_ite (fun _ => ?_) fun _ => ?_
  · unfold optCustomMip
    refine keeps_ite (fun _ => keeps_fail c) fun _ => keeps_bind fun r _ => ?_
    cases r with
    | none => exact keeps_fail _
    | some p =>
      refine keeps_bind fun d _ => keeps_bind fun f _ => keeps_bind fun q _ =>
        keeps_ite (fun _ => keeps_fail c) fun _ => keeps_bind fun a _ => ?_
      cases hm : c.customMips.emplace ⟨f.1, u32 p.1, u32 d.1⟩ a q.1 with
      | none => exact keeps_fail _
      | some m => exact keeps_next ⟨h.1, distinct_emplace hm h.2⟩
  refine keeps_ite (fun _ => ?_) fun _ => ?_
  · unfold optCustomMipList
    refine keeps_ite (fun _ => keeps_fail c) fun _ => keeps_bind fun a _ => keeps_bind fun r hr => ?_
    cases r with
    | none => exact keeps_fail _
    | some m =>
      refine keeps_next ⟨h.1, ?_⟩
      unfold readCustomMipList at hr
      split at hr
      · simp at hr
      · exact distinct_loop _ _ _ _ hr h.2
  refine keeps_ite (fun _ => same _ _ rfl rfl) fun _ => ?_
  refine keeps_ite (fun _ => same _ _ rfl rfl) fun _ => ?_
  refine keeps_ite (fun _ => ?_) fun _ => ?_
  · unfold optRotate
    refine keeps_ite (fun _ => keeps_fail c) fun _ => keeps_bind fun a _ => ?_
    split
    · exact keeps_fail _
    · exact same _ _ rfl rfl
    · exact same _ _ rfl rfl
  refine keeps_ite (fun _ => ?_) fun _ => ?_
  · unfold optNormalMap
    exact keeps_bind fun w _ => keeps_bind fun h _ => same _ _ rfl rfl
  refine keeps_ite (fun _ => same _ _ rfl rfl) fun _ => ?_
  refine keeps_ite (fun _ => ?_) fun _ => ?_
  · unfold optSwizzle
    refine keeps_ite (fun _ => keeps_fail c) fun _ => keeps_bind fun a _ => ?_
    split
    · exact keeps_fail _
    · exact same _ _ rfl rfl
  refine keeps_ite (fun _ => same _ _ rfl rfl) fun _ => ?_
  refine keeps_ite (fun _ => same _ _ rfl rfl) fun _ => ?_
  refine keeps_ite (fun _ => keeps_word fun a v hv => ⟨?_, h.2⟩) fun _ => ?_
  · unfold dimensionArg at hv
    dsimp only
    rintro rfl
    repeat' split at hv
    all_goals simp at hv
  refine keeps_ite (fun _ => ?_) fun _ => ?_
  · unfold optFormat
    exact keeps_ite (fun _ => keeps_fail c) fun _ => keeps_bind fun a _ =>
      keeps_ite (fun _ => keeps_fail c) fun _ => same _ _ rfl rfl
  refine keeps_ite (fun _ => keeps_word fun a v hv => h) fun _ => ?_
  refine keeps_ite (fun _ => keeps_word fun a v hv => h) fun _ => ?_
  refine keeps_ite (fun _ => keeps_word fun a v hv => h) fun _ => ?_
  refine keeps_ite (fun _ => ?_) fun _ => ?_
  · unfold optOutput
    exact keeps_ite (fun _ => keeps_fail c) fun _ => keeps_ite (fun _ => keeps_fail c) fun _ =>
      keeps_bind fun a _ => same _ _ rfl rfl
  refine keeps_ite (fun _ => keeps_word fun a v hv => h) fun _ => ?_
  exact keeps_ite (fun _ => same _ _ rfl rfl) fun _ => same _ _ rfl rfl

/-- A command line that was not rejected in the loop has what every option keeps. -/
theorem keeps_loop {P : Cmd H → Prop} (E : CmdEnv H) (argv : List Str)
    (hstep : ∀ i c, P c → Keeps P (parseStep E argv i c)) : ∀ (fuel i : ℕ) (c c' : Cmd H), P c →
    parseLoop E argv fuel i c = .ok (some c') → c'.success = true → P c'
  | 0, i, c, c', hP, h, _ => by
    unfold parseLoop at h
    split at h
    · simp only [Res.ok.injEq, Option.some.injEq] at h
      exact h ▸ hP
    · simp at h
  | fuel + 1, i, c, c', hP, h, hs => by
    unfold parseLoop at h
    split at h
    · simp only [Res.ok.injEq, Option.some.injEq] at h
      exact h ▸ hP
    · dsimp only at h
      rw [Res.bind_eq_ok] at h
      obtain ⟨o, ho, h⟩ := h
      have hk := hstep i c hP o ho
      cases o with
      | next i' c1 => exact keeps_loop E argv hstep fuel (i' + 1) c1 c' hk h hs
      | stop c1 =>
        simp only [Res.ok.injEq, Option.some.injEq] at h
        subst h
        rw [show c1.success = false from hk] at hs
        simp at hs
      | abort => simp at h

/-- What a successful command line went through. -/
theorem parse_success {E : CmdEnv H} {argv : List Str} {c : Cmd H}
    (h : parseCommandLine E argv = .ok (some (some c))) :
    ∃ c0, Kept c0 ∧ c0.success = true ∧ validate E c0 = .ok (some c) ∧
      parseLoop E argv argv.length 1 { normalHeight := E.one } = .ok (some c0) := by
  have noEnd {r : Option (Cmd H)} (h : parseEnd argv r = .ok (some (some c))) : r = some c := by
    unfold parseEnd at h
    cases r with
    | none =>
      dsimp only at h
      rw [Res.bind_eq_ok] at h
      obtain ⟨_, -, h⟩ := h
      simp at h
    | some c' => simpa using h
  unfold parseCommandLine at h
  split at h
  · have := noEnd h; simp at this
  split at h
  · have := noEnd h; simp at this
  rw [Res.bind_eq_ok] at h
  obtain ⟨r, hr, h⟩ := h
  cases r with
  | none => simp at h
  | some c0 =>
    dsimp only at h
    rw [Res.bind_eq_ok] at h
    obtain ⟨v, hv, h⟩ := h
    have := noEnd h
    subst this
    unfold parseValidate at hv
    split at hv
    · rename_i hs
      refine ⟨c0, ?_, hs, hv, hr⟩
      exact keeps_loop E argv (kept_step E argv) _ _ _ _ ⟨by simp, by simp [Distinct]⟩ hr hs
    · simp at hv

end Cuttlefish
