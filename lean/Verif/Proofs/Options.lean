import Verif.Proofs.OptionSteps
import Verif.Proofs.CommandKeep
/-
What the parser does with a list of options.
-/
namespace Cuttlefish
open Spec
variable {H : Type}

theorem matches_of {name a b : String} (h : name ∈ [a, b]) : matchesArg (cstr name) a b = true := by
  unfold matchesArg
  simp only [List.mem_cons, List.not_mem_nil, or_false] at h
  rcases h with rfl | rfl <;> simp

theorem names_in (o : Opt H) : ∀ n ∈ o.names, n ∈ optionNames := by
  cases o <;> (simp only [Opt.names]; decide)

theorem name_separate {E : CmdEnv H} (hE : Ordinary E) : ∀ n ∈ optionNames, Separate E (cstr n) := by
  intro n hn
  refine ⟨name_not_number n hn, ?_, ?_, hE.names n hn⟩
  · intro f hw
    have h1 := name_not_filter n hn
    rw [lookup_word hw, lookup_filter] at h1
    simp at h1
  · intro x hw
    by_cases hx : x = (false, false)
    · subst hx
      have : Word "" (cstr n) := hw
      unfold Word at this
      have hl := this.length_eq
      exact absurd hl ((by decide +kernel : ∀ n ∈ optionNames, (cstr n).length ≠ (cstr "").length) n hn)
    · have h1 := name_not_wrap n hn
      rw [lookup_word hw, lookup_wrap x hx] at h1
      simp at h1

/-- One option. -/
theorem step_option {E : CmdEnv H} (hE : Ordinary E) {argv : List Str} {i : ℕ} {ws rest : List Str} {o : Opt H}
    {c : Cmd H} (hp : Parsing c) (hd : argv.drop i = ws ++ rest) (hs : o.Spells E ws) (hf : Follows E rest) :
    Does (parseStep E argv i c) (i + ws.length - 1) (o.effect E c) := by
  obtain ⟨name, hn, args, ha, rfl⟩ := hs
  obtain ⟨h0, hh⟩ := here_of (by rw [hd]; rfl : argv.drop i = cstr name :: (args ++ rest))
  rw [show i + (cstr name :: args).length - 1 = i + args.length by simp]
  cases o with
  | jobs n =>
    obtain ⟨hk, rfl⟩ := ha
    rw [at_jobs E c h0 (matches_of hn)]
    exact does_jobs c hk hh hf
  | quiet =>
    obtain rfl : args = [] := ha
    rw [at_quiet E c h0 (matches_of hn)]; exact rfl
  | verbose =>
    obtain rfl : args = [] := ha
    rw [at_verbose E c h0 (matches_of hn)]; exact rfl
  | input f =>
    obtain rfl : args = [f] := ha
    rw [at_input E c h0 (matches_of hn)]
    exact does_input hp hh E
  | array n f =>
    obtain ⟨h1, h2, rfl⟩ := ha
    rw [at_array E c h0 (matches_of hn)]
    exact does_array hE hp h1 h2 hh
  | cube face f =>
    obtain ⟨w, hw, rfl⟩ := ha
    rw [at_cube E c h0 (matches_of hn)]
    exact does_cube hw hh
  | cubeArray n face f =>
    obtain ⟨h1, w, hw, rfl⟩ := ha
    rw [at_cubeArray E c h0 (matches_of hn)]
    exact does_cubeArray h1 hw hh
  | inputList t f =>
    obtain ⟨-, w, hw, rfl⟩ := ha
    rw [at_inputList E c h0 (matches_of hn)]
    exact does_inputList hw hh
  | resize w h x =>
    obtain ⟨a, b, fs, h1, h2, h3, rfl⟩ := ha
    rw [at_resize E c h0 (matches_of hn)]
    exact does_resize c h1 h2 h3 hh hf
  | mipmap n x =>
    obtain ⟨h1, fs, h2, rfl⟩ := ha
    rw [at_mipmap E c h0 (matches_of hn)]
    exact does_mipmap c h1 h2 hh hf
  | customMip e =>
    obtain ⟨ms, h1, h2, rfl⟩ := ha
    rw [at_customMip E c h0 (matches_of hn)]
    exact does_customMip c h1 h2 hh E
  | customMipList f es =>
    obtain ⟨⟨text, h1, h2⟩, rfl⟩ := ha
    obtain rfl : name = "--custom-mip-list" := by simpa [Opt.names] using hn
    rw [at_customMipList E c h0]
    exact does_customMipList c h1 h2 hh
  | flipX =>
    obtain rfl : args = [] := ha
    obtain rfl : name = "--flipx" := by simpa [Opt.names] using hn
    rw [at_flipX E c h0]; exact rfl
  | flipY =>
    obtain rfl : args = [] := ha
    obtain rfl : name = "--flipy" := by simpa [Opt.names] using hn
    rw [at_flipY E c h0]; exact rfl
  | rotate d =>
    obtain ⟨h1, h2, rfl⟩ := ha
    obtain rfl : name = "--rotate" := by simpa [Opt.names] using hn
    rw [at_rotation E c h0]
    exact does_rotate c h1 h2 hh E
  | normalMap x y =>
    rw [at_normalMap E c h0 (matches_of hn)]
    exact does_normalMap c ha hh hf
  | grayscale =>
    obtain rfl : args = [] := ha
    rw [at_grayscale E c h0 (matches_of hn)]; exact rfl
  | swizzle r g b a =>
    obtain ⟨l1, l2, l3, l4, h1, h2, h3, h4, rfl⟩ := ha
    rw [at_swizzle E c h0 (matches_of hn)]
    exact does_swizzle c h1 h2 h3 h4 hh E
  | srgb =>
    obtain rfl : args = [] := ha
    obtain rfl : name = "--srgb" := by simpa [Opt.names] using hn
    rw [at_srgb E c h0]; exact rfl
  | preMultiply =>
    obtain rfl : args = [] := ha
    obtain rfl : name = "--pre-multiply" := by simpa [Opt.names] using hn
    rw [at_preMultiply E c h0]
    show Res.ok _ = Res.ok _
    congr 3
    cases c.alphaSet <;> cases c.colorMask.a <;> simp
  | dimension d =>
    rw [at_dimension E c h0 (matches_of hn)]
    rcases ha with ⟨rfl, rfl⟩ | ⟨rfl, rfl⟩ | ⟨rfl, rfl⟩
    · exact does_word c (v := Dimension.Dim1D) (by decide +kernel) hh
    · exact does_word c (v := Dimension.Dim2D) (by decide +kernel) hh
    · exact does_word c (v := Dimension.Dim3D) (by decide +kernel) hh
  | format f =>
    obtain ⟨h1, w, hw, rfl⟩ := ha
    rw [at_format E c h0 (matches_of hn)]
    exact does_format c h1 hw hh
  | type t =>
    obtain ⟨w, hw, rfl⟩ := ha
    rw [at_type E c h0 (matches_of hn)]
    exact does_word c (v := t) (by rw [lookup_word hw, lookup_type]) hh
  | alpha t =>
    obtain ⟨w, hw, rfl⟩ := ha
    obtain rfl : name = "--alpha" := by simpa [Opt.names] using hn
    rw [at_alpha E c h0]
    exact does_word c (v := t) (by rw [lookup_word hw, lookup_alpha]) hh
  | quality t =>
    obtain ⟨w, hw, rfl⟩ := ha
    rw [at_quality E c h0 (matches_of hn)]
    exact does_word c (v := t) (by rw [lookup_word hw, lookup_quality]) hh
  | output f =>
    obtain rfl : args = [f] := ha
    rw [at_output E c h0 (matches_of hn)]
    exact does_output c hh E
  | fileFormat t =>
    obtain ⟨h1, w, hw, rfl⟩ := ha
    obtain rfl : name = "--file-format" := by simpa [Opt.names] using hn
    rw [at_fileFormat E c h0]
    exact does_word c (v := t) (by rw [lookup_word hw, lookup_file t h1]) hh
  | createDir =>
    obtain rfl : args = [] := ha
    obtain rfl : name = "--create-dir" := by simpa [Opt.names] using hn
    rw [at_createDir E c h0]; exact rfl

theorem lines_few (l : Str) : (imageLines l).length ≤ l.length := by
  suffices h : ∀ n (l : Str), l.length ≤ n → (imageLines l).length ≤ l.length from h _ l (Nat.le_refl _)
  intro n
  induction n with
  | zero =>
    intro l hl
    obtain rfl : l = [] := List.eq_nil_of_length_eq_zero (by omega)
    decide
  | succ n ih =>
    intro l hl
    rcases split_at_line l with h | ⟨pre, d, post, rfl, hp, hd⟩
    · unfold imageLines
      rw [List.splitOnP_eq_singleton (fun x hx => by simpa using h x hx)]
      cases l <;> simp
    · have hs : imageLines (pre ++ d :: post) = (if pre = [] then [] else [pre]) ++ imageLines post := by
        unfold imageLines
        rw [List.splitOnP_append_cons_of_forall_mem (fun x hx => by simpa using hp x hx) _ (by simpa using hd)]
        by_cases e : pre = [] <;> simp [e]
      have := ih post (by simp at hl; omega)
      rw [hs]
      by_cases e : pre = []
      · simp [e]; omega
      · have : 0 < pre.length := List.length_pos_iff.2 e
        simp [e]; omega

theorem giveName_some {l l' : List Str} {n k : ℕ} {f : Str} (h : giveName l n k f = some l') :
    l'.length = max l.length n ∧ l' ≠ [] := by
  unfold giveName at h
  dsimp only at h
  split at h
  · rename_i hk
    simp only [Option.some.injEq] at h
    subst h
    have hlt : k < (l ++ List.replicate (n - l.length) []).length := by
      by_contra hc
      rw [List.getElem?_eq_none (by omega)] at hk
      simp at hk
    constructor
    · simp; omega
    · intro e
      have := congrArg List.length e
      rw [List.length_set] at this
      simp only [List.length_nil] at this
      omega
  · simp at h

/-- What is known is kept. -/
theorem parsing_effect {E : CmdEnv H} (hE : Ordinary E) {c c' : Cmd H} {o : Opt H} {ws : List Str}
    (hs : o.Spells E ws) (h : o.effect E c = some c') (hp : Parsing c) :
    Parsing c' ∧ (c.success = true → c'.success = true) := by
  obtain ⟨name, -, args, ha, -⟩ := hs
  have hroom := hE.room
  cases o
  case input f =>
    simp only [Opt.effect] at h
    split at h
    · simp only [Option.some.injEq] at h
      subst h
      exact ⟨⟨by simp, by simp⟩, id⟩
    · simp at h
  case array n f =>
    simp only [Opt.effect] at h
    split at h
    · rename_i hm
      simp only [Option.map_eq_some_iff] at h
      obtain ⟨l, hl, rfl⟩ := h
      obtain ⟨h1, h2⟩ := giveName_some hl
      have := hp.few
      refine ⟨⟨fun e => absurd e h2, ?_⟩, id⟩
      show l.length < _
      rw [h1]
      have := hm.2
      omega
    · simp at h
  case cube face f =>
    simp only [Opt.effect] at h
    split at h
    · simp only [Option.map_eq_some_iff] at h
      obtain ⟨l, hl, rfl⟩ := h
      obtain ⟨h1, h2⟩ := giveName_some hl
      have := hp.few
      refine ⟨⟨fun e => absurd e h2, ?_⟩, id⟩
      show l.length < _
      rw [h1]
      split <;> omega
    · simp at h
  case cubeArray n face f =>
    simp only [Opt.effect] at h
    split at h
    · rename_i hm
      simp only [Option.map_eq_some_iff] at h
      obtain ⟨l, hl, rfl⟩ := h
      obtain ⟨h1, h2⟩ := giveName_some hl
      have := hp.few
      refine ⟨⟨fun e => absurd e h2, ?_⟩, id⟩
      show l.length < _
      rw [h1]
      have := hm.2
      split <;> omega
    · simp at h
  case inputList t f =>
    simp only [Opt.effect] at h
    split at h
    · simp only [Option.map_eq_some_iff] at h
      obtain ⟨text, ht, rfl⟩ := h
      have := hE.files f text ht
      have h2 := lines_few text
      refine ⟨⟨fun e => absurd e (ha.1 text ht), ?_⟩, id⟩
      show (imageLines text).length < _
      omega
    · simp at h
  case customMip e =>
    simp only [Opt.effect, Option.map_eq_some_iff] at h
    obtain ⟨m, -, rfl⟩ := h
    exact ⟨⟨hp.kind, hp.few⟩, id⟩
  case customMipList f es =>
    simp only [Opt.effect, Option.map_eq_some_iff] at h
    obtain ⟨m, -, rfl⟩ := h
    exact ⟨⟨hp.kind, hp.few⟩, id⟩
  case rotate d =>
    simp only [Opt.effect, Option.map_eq_some_iff] at h
    obtain ⟨_ | m, -, rfl⟩ := h <;> exact ⟨⟨hp.kind, hp.few⟩, id⟩
  case output f =>
    simp only [Opt.effect] at h
    split at h
    · simp only [Option.some.injEq] at h
      subst h
      exact ⟨⟨hp.kind, hp.few⟩, id⟩
    · simp at h
  all_goals
    simp only [Opt.effect, Option.some.injEq] at h
    subst h
    exact ⟨⟨hp.kind, hp.few⟩, id⟩

/-- The end of the loop with a step that is refused. -/
theorem loop_refused {E : CmdEnv H} {argv : List Str} {fuel i : ℕ} {c : Cmd H}
    (hi : i < argv.length) (h : Refused (parseStep E argv i c)) :
    ∀ c', parseLoop E argv (fuel + 1) i c = .ok (some c') → c'.success = false := by
  intro c' hc
  unfold parseLoop at hc
  rw [if_neg (by omega)] at hc
  dsimp only at hc
  rcases h with h | h | ⟨c1, h, hs⟩
  · rw [h] at hc; simp at hc
  · rw [h] at hc; simp at hc
  · rw [h] at hc
    simp at hc
    rw [← hc]; exact hs

/-- The arguments that write options start with the name of an option. -/
theorem spells_head {E : CmdEnv H} (hE : Ordinary E) {o : Opt H} {ws : List Str} (hs : o.Spells E ws) :
    ws ≠ [] ∧ ∀ a ∈ ws.head?, Separate E a := by
  obtain ⟨name, hn, args, -, rfl⟩ := hs
  refine ⟨by simp, ?_⟩
  intro a ha
  obtain rfl : cstr name = a := by simpa using ha
  exact name_separate hE name (names_in o name hn)

theorem follows_options {E : CmdEnv H} (hE : Ordinary E) {opts : List (List Str × Opt H)} {rest : List Str}
    (hs : ∀ p ∈ opts, p.2.Spells E p.1) (hf : Follows E rest) :
    Follows E ((opts.map (·.1)).flatten ++ rest) := by
  cases opts with
  | nil => exact hf
  | cons p ps =>
    obtain ⟨h1, h2⟩ := spells_head hE (hs p List.mem_cons_self)
    obtain ⟨a, as, he⟩ := List.exists_cons_of_ne_nil h1
    intro b hb
    simp only [List.map_cons, List.flatten_cons, he, List.cons_append, List.head?_cons, Option.mem_def] at hb
    exact h2 b (by rw [he]; exact hb)

/-- The loop over options, in front of more arguments. -/
theorem loop_options {E : CmdEnv H} (hE : Ordinary E) {argv rest : List Str} (hf : Follows E rest) :
    ∀ (opts : List (List Str × Opt H)) (fuel i : ℕ) (c : Cmd H), Parsing c → c.success = true →
      (∀ p ∈ opts, p.2.Spells E p.1) → i ≤ argv.length →
      argv.drop i = (opts.map (·.1)).flatten ++ rest → argv.length - i ≤ fuel →
      match effects E c (opts.map (·.2)) with
      | some c' => c'.success = true ∧ ∃ fuel', rest.length ≤ fuel' ∧
          parseLoop E argv fuel i c = parseLoop E argv fuel' (argv.length - rest.length) c'
      | none => ∀ c', parseLoop E argv fuel i c = .ok (some c') → c'.success = false
  | [], fuel, i, c, _, hsucc, _, hi, hd, hfuel => by
    have := congrArg List.length hd
    simp only [List.length_drop, List.map_nil, List.flatten_nil, List.nil_append] at this
    refine ⟨hsucc, fuel, by omega, ?_⟩
    rw [show argv.length - rest.length = i by omega]
  | p :: ps, fuel, i, c, hp, hsucc, hs, hi, hd, hfuel => by
    have hs0 := hs p List.mem_cons_self
    have hs' : ∀ q ∈ ps, q.2.Spells E q.1 := fun q hq => hs q (List.mem_cons_of_mem _ hq)
    have hne := (spells_head hE hs0).1
    have hpos : 0 < p.1.length := List.length_pos_iff.2 hne
    have hd' : argv.drop i = p.1 ++ ((ps.map (·.1)).flatten ++ rest) := by
      rw [hd]; simp
    have hlen := congrArg List.length hd'
    simp only [List.length_drop, List.length_append] at hlen
    have hstep := step_option hE hp hd' hs0 (follows_options hE hs' hf)
    obtain ⟨n, rfl⟩ : ∃ n, fuel = n + 1 := ⟨fuel - 1, by omega⟩
    unfold Does at hstep
    simp only [List.map_cons, effects]
    cases he : p.2.effect E c with
    | none =>
      rw [he] at hstep
      exact loop_refused (by omega) hstep
    | some c1 =>
      rw [he] at hstep
      dsimp only at hstep
      obtain ⟨hp1, hsucc1⟩ := parsing_effect hE hs0 he hp
      have hlt : i < argv.length := by omega
      have hnext := loop_next (fuel := n) hlt hstep
      rw [show i + p.1.length - 1 + 1 = i + p.1.length by clear hnext; omega] at hnext
      have ih := loop_options (argv := argv) hE hf ps n (i + p.1.length) c1 hp1 (hsucc1 hsucc) hs' (by clear hnext; omega)
        (by rw [← List.drop_drop, hd', List.drop_left]) (by omega)
      rw [hnext]
      exact ih

/-- A command line that was rejected stays rejected. -/
theorem rejected_step (E : CmdEnv H) (argv : List Str) (i : ℕ) (c : Cmd H) (h : c.success = false) :
    Keeps (fun c => c.success = false) (parseStep E argv i c) := by
  unfold parseStep
  refine keeps_bind fun a _ => ?_
  unfold parseBody
  have same (c' : Cmd H) (j : ℕ) (e : c'.success = c.success) :
      Keeps (fun c => c.success = false) (.ok (.next j c')) := keeps_next (e.trans h)
  refine keeps_ite (fun _ => ?_) fun _ => ?_
  · unfold optJobs
    refine keeps_ite (fun _ => keeps_bind fun a _ => ?_) fun _ => same _ _ rfl
    split <;> exact same _ _ rfl
  refine keeps_ite (fun _ => same _ _ rfl) fun _ => ?_
  refine keeps_ite (fun _ => same _ _ rfl) fun _ => ?_
  refine keeps_ite (fun _ => ?_) fun _ => ?_
  · unfold optInput
    exact keeps_ite (fun _ => keeps_fail c) fun _ => keeps_ite (fun _ => keeps_fail c) fun _ =>
      keeps_bind fun a _ => same _ _ rfl
  refine keeps_ite (fun _ => ?_) fun _ => ?_
  · unfold optArray
    refine keeps_ite (fun _ => keeps_fail c) fun _ => ?_
    refine keeps_ite (fun _ => keeps_fail _) fun _ => keeps_bind fun r _ => keeps_bind fun a _ =>
      keeps_put fun images => ?_
    split <;> exact h
  refine keeps_ite (fun _ => ?_) fun _ => ?_
  · unfold optCube
    refine keeps_ite (fun _ => keeps_fail c) fun _ => ?_
    refine keeps_ite (fun _ => keeps_fail _) fun _ => keeps_bind fun r _ => ?_
    cases r with
    | none => exact keeps_fail _
    | some p =>
      refine keeps_bind fun a _ => keeps_put fun images => ?_
      split <;> exact h
  refine keeps_ite (fun _ => ?_) fun _ => ?_
  · unfold optCubeArray
    refine keeps_ite (fun _ => keeps_fail c) fun _ => ?_
    refine keeps_ite (fun _ => keeps_fail _) fun _ => keeps_bind fun r _ => ?_
    cases r with
    | none => exact keeps_fail _
    | some p =>
      refine keeps_bind fun r _ => ?_
      cases r with
      | none => exact keeps_fail _
      | some p =>
        refine keeps_bind fun a _ => keeps_put fun images => ?_
        split <;> exact h
  refine keeps_ite (fun _ => ?_) fun _ => ?_
  · unfold optInputList
    refine keeps_ite (fun _ => keeps_fail c) fun _ => keeps_ite (fun _ => keeps_fail c) fun _ =>
      keeps_bind fun a _ => ?_
    cases lookupWord a listTypes with
    | none => exact keeps_fail _
    | some t =>
      refine keeps_bind fun a _ => keeps_bind fun l _ => ?_
      cases l with
      | none => exact keeps_fail _
      | some l => exact same _ _ rfl
  refine keeps_ite (fun _ => ?_) fun _ => ?_
  · unfold optResize
    refine keeps_ite (fun _ => keeps_fail c) fun _ => keeps_bind fun r _ => ?_
    cases r with
    | none => exact keeps_fail _
    | some p =>
      refine keeps_bind fun r _ => ?_
      cases r with
      | none => exact keeps_fail _
      | some p =>
        refine keeps_bind fun r _ => ?_
        cases r with
        | none => exact same _ _ rfl
        | some p => exact same _ _ rfl
  refine keeps_ite (fun _ => ?_) fun _ => ?_
  · unfold optMipmap
    refine keeps_bind fun l _ => keeps_bind fun r _ => ?_
    cases r with
    | none => exact same _ _ rfl
    | some p => exact same _ _ rfl
  refine keeps_ite (fun _ => ?_) fun _ => ?_
  · unfold optCustomMip
    refine keeps_ite (fun _ => keeps_fail c) fun _ => keeps_bind fun r _ => ?_
    cases r with
    | none => exact keeps_fail _
    | some p =>
      refine keeps_bind fun d _ => keeps_bind fun f _ => keeps_bind fun q _ =>
        keeps_ite (fun _ => keeps_fail c) fun _ => keeps_bind fun a _ => ?_
      cases hm : c.customMips.emplace ⟨f.1, u32 p.1, u32 d.1⟩ a q.1 with
      | none => exact keeps_fail _
      | some m => exact same _ _ rfl
  refine keeps_ite (fun _ => ?_) fun _ => ?_
  · unfold optCustomMipList
    refine keeps_ite (fun _ => keeps_fail c) fun _ => keeps_bind fun a _ => keeps_bind fun r hr => ?_
    cases r with
    | none => exact keeps_fail _
    | some m =>
      exact same _ _ rfl
  refine keeps_ite (fun _ => same _ _ rfl) fun _ => ?_
  refine keeps_ite (fun _ => same _ _ rfl) fun _ => ?_
  refine keeps_ite (fun _ => ?_) fun _ => ?_
  · unfold optRotate
    refine keeps_ite (fun _ => keeps_fail c) fun _ => keeps_bind fun a _ => ?_
    split
    · exact keeps_fail _
    · exact same _ _ rfl
    · exact same _ _ rfl
  refine keeps_ite (fun _ => ?_) fun _ => ?_
  · unfold optNormalMap
    exact keeps_bind fun w _ => keeps_bind fun h _ => same _ _ rfl
  refine keeps_ite (fun _ => same _ _ rfl) fun _ => ?_
  refine keeps_ite (fun _ => ?_) fun _ => ?_
  · unfold optSwizzle
    refine keeps_ite (fun _ => keeps_fail c) fun _ => keeps_bind fun a _ => ?_
    split
    · exact keeps_fail _
    · exact same _ _ rfl
  refine keeps_ite (fun _ => same _ _ rfl) fun _ => ?_
  refine keeps_ite (fun _ => same _ _ rfl) fun _ => ?_
  refine keeps_ite (fun _ => keeps_word fun a v hv => h) fun _ => ?_
  refine keeps_ite (fun _ => ?_) fun _ => ?_
  · unfold optFormat
    exact keeps_ite (fun _ => keeps_fail c) fun _ => keeps_bind fun a _ =>
      keeps_ite (fun _ => keeps_fail c) fun _ => same _ _ rfl
  refine keeps_ite (fun _ => keeps_word fun a v hv => h) fun _ => ?_
  refine keeps_ite (fun _ => keeps_word fun a v hv => h) fun _ => ?_
  refine keeps_ite (fun _ => keeps_word fun a v hv => h) fun _ => ?_
  refine keeps_ite (fun _ => ?_) fun _ => ?_
  · unfold optOutput
    exact keeps_ite (fun _ => keeps_fail c) fun _ => keeps_ite (fun _ => keeps_fail c) fun _ =>
      keeps_bind fun a _ => same _ _ rfl
  refine keeps_ite (fun _ => keeps_word fun a v hv => h) fun _ => ?_
  exact keeps_ite (fun _ => same _ _ rfl) fun _ => keeps_next rfl

/-- A rejected command line is not accepted in the end. -/
theorem rejected_loop {E : CmdEnv H} {argv : List Str} {fuel i : ℕ} {c c' : Cmd H} (hc : c.success = false)
    (h : parseLoop E argv fuel i c = .ok (some c')) : c'.success = false := by
  cases hs : c'.success with
  | false => rfl
  | true =>
    have := keeps_loop (P := fun c => c.success = false) E argv
      (fun i c => rejected_step E argv i c) fuel i c c' hc h hs
    simp_all

/-- A word that is not the name of an option. -/
theorem step_unknown (E : CmdEnv H) {argv : List Str} {i : ℕ} {a : Str} (c : Cmd H) (h : argv[i]? = some a)
    (hn : ∀ n ∈ optionNames, a ≠ cstr n) :
    parseStep E argv i c = .ok (.next i { c with success := false }) := by
  have ne := hn
  apply step_at E c h
  rw [Res.ok_bind]
  unfold parseBody matchesArg
  simp only [optionNames, List.forall_mem_cons, List.not_mem_nil, false_imp_iff, implies_true, and_true, ne_eq] at ne
  simp only [beq_iff_eq, Bool.or_eq_true, ne, or_self, if_false]

end Cuttlefish
