import Verif.Proofs.OptionEnd
/-
C49: the options of the tool mean what the help text says.
-/
namespace Cuttlefish
open Spec
variable {H : Type}

theorem parsing_start (E : CmdEnv H) : Parsing (noOptions E) := ⟨fun _ => rfl, by simp [noOptions]⟩

theorem no_help {E : CmdEnv H} {opts : List (List Str × Opt H)} (h : Proper E opts) {prog : Str}
    {rest : List Str} (hr : cstr "-h" ∉ rest ∧ cstr "--help" ∉ rest) :
    (((argvOf prog opts ++ rest).drop 1).any fun a => matchesArg a "-h" "--help") = false := by
  rw [← Bool.not_eq_true, List.any_eq_true]
  rintro ⟨a, ha, hm⟩
  simp only [argvOf, List.cons_append, List.drop_succ_cons, List.drop_zero, List.mem_append, List.mem_flatten,
    List.mem_map] at ha
  unfold matchesArg at hm
  simp only [Bool.or_eq_true, beq_iff_eq] at hm
  rcases ha with ⟨l, ⟨p, hp, rfl⟩, ha⟩ | ha
  · obtain ⟨-, h1, h2⟩ := h p hp
    rcases hm with rfl | rfl
    · exact h1 ha
    · exact h2 ha
  · rcases hm with rfl | rfl
    · exact hr.1 ha
    · exact hr.2 ha

/-- The loop of the parser over options that are followed by something else. -/
theorem loop_argv {E : CmdEnv H} (hE : Ordinary E) {prog : Str} {opts : List (List Str × Opt H)}
    (h : Proper E opts) {rest : List Str} (hf : Follows E rest) :
    match effects E (noOptions E) (opts.map (·.2)) with
    | some c' => c'.success = true ∧ ∃ fuel', rest.length ≤ fuel' ∧
        parseLoop E (argvOf prog opts ++ rest) (argvOf prog opts ++ rest).length 1 (noOptions E) =
          parseLoop E (argvOf prog opts ++ rest) fuel' (argvOf prog opts).length c'
    | none => ∀ c', parseLoop E (argvOf prog opts ++ rest) (argvOf prog opts ++ rest).length 1 (noOptions E) =
        .ok (some c') → c'.success = false := by
  have := loop_options hE (argv := argvOf prog opts ++ rest) hf opts (argvOf prog opts ++ rest).length 1
    (noOptions E) (parsing_start E) rfl (fun p hp => (h p hp).1) (by simp [argvOf]) (by simp [argvOf]) (by omega)
  rw [show (argvOf prog opts ++ rest).length - rest.length = (argvOf prog opts).length by simp] at this
  exact this

/-- A command line of options as the help text describes them, in any order, with any of their names and in any
letter case: if it is accepted then none of the options is refused, the settings are those that the options give
from left to right, and the type of the output file is the one asked for or the one of its name.

Partial: options whose effect is not what the help text says have the effect of the code
(`C49_fails_order`, `C49_fails_format`). -/
theorem C49_settings_partial (E : CmdEnv H) (hE : Ordinary E) (prog : Str) (opts : List (List Str × Opt H))
    (hp : Proper E opts) (c' : Cmd H) (h : parseCommandLine E (argvOf prog opts) = .ok (some (some c'))) :
    ∃ c, effects E (noOptions E) (opts.map (·.2)) = some c ∧ c' = finished c c'.fileType ∧
      ∃ o, c.output = some o ∧ OutputType c o c'.fileType := by
  obtain ⟨c0, -, hs, hv, hl⟩ := parse_success h
  have key := loop_argv hE (prog := prog) hp (rest := []) (by intro a ha; simp at ha)
  rw [List.append_nil] at key
  cases he : effects E (noOptions E) (opts.map (·.2)) with
  | none =>
    rw [he] at key
    have := key c0 hl
    rw [hs] at this
    simp at this
  | some c =>
    rw [he] at key
    obtain ⟨-, fuel, -, e⟩ := key
    rw [loop_end (Nat.le_refl _)] at e
    have : c0 = c := by
      have := hl.symm.trans e
      simpa using this
    subst this
    obtain ⟨v1, v2⟩ := validate_finished hv
    exact ⟨c0, rfl, v1, v2⟩

/-- If the options are not refused and nothing is missing then the command line is accepted, with the settings
that the options give from left to right. -/
theorem C49_accepted (E : CmdEnv H) (hE : Ordinary E) (prog : Str) (opts : List (List Str × Opt H))
    (hp : Proper E opts) (c : Cmd H) (ft : FileType)
    (h : effects E (noOptions E) (opts.map (·.2)) = some c) (hc : Complete E.feat c ft) :
    parseCommandLine E (argvOf prog opts) = .ok (some (some (finished c ft))) := by
  have key := loop_argv hE (prog := prog) hp (rest := []) (by intro a ha; simp at ha)
  rw [List.append_nil, h] at key
  obtain ⟨hs, fuel, -, e⟩ := key
  rw [loop_end (Nat.le_refl _)] at e
  have hk : Kept c := keeps_loop E _ (kept_step E _) _ _ _ _ ⟨by simp [noOptions], by simp [noOptions, Distinct]⟩ e hs
  have hv := validate_complete hk hc
  have hne : opts ≠ [] := by
    rintro rfl
    simp only [List.map_nil, effects, Option.some.injEq] at h
    subst h
    exact hc.images rfl
  have hlen : (argvOf prog opts).length ≠ 1 := by
    obtain ⟨p, ps, rfl⟩ := List.exists_cons_of_ne_nil hne
    have := List.length_pos_iff.2 (spells_head hE (hp p List.mem_cons_self).1).1
    simp only [argvOf, List.length_cons, List.map_cons, List.flatten_cons, List.length_append]
    omega
  have hh := no_help hp (prog := prog) (rest := []) (by simp)
  rw [List.append_nil] at hh
  unfold parseCommandLine
  rw [if_neg hlen, if_neg (by rw [hh]; simp)]
  change (parseLoop E (argvOf prog opts) (argvOf prog opts).length 1 (noOptions E) >>= _) = _
  rw [e, Res.ok_bind]
  dsimp only
  unfold parseValidate
  rw [if_pos hs, hv, Res.ok_bind]
  rfl

/-- The sizes given with `-r` are the ones that are used. -/
theorem C49_sizes (s : SizeOpt) (a : Str) (h : SizeText s a) : sizeOfInt (sizeCode s) = s :=
  size_code s fun n hn => by subst hn; exact h.1

/-- An argument that is not the name of an option, in the place of an option, is never accepted, whatever
follows. -/
theorem C49_unknown (E : CmdEnv H) (hE : Ordinary E) (prog : Str) (opts : List (List Str × Opt H))
    (hp : Proper E opts) (a : Str) (ha : Separate E a) (hn : ∀ n ∈ optionNames, a ≠ cstr n) (rest : List Str)
    (c' : Cmd H) : parseCommandLine E (argvOf prog opts ++ a :: rest) ≠ .ok (some (some c')) := by
  intro h
  obtain ⟨c0, -, hs, -, hl⟩ := parse_success h
  have key := loop_argv hE (prog := prog) hp (rest := a :: rest) (by
    intro b hb
    obtain rfl : a = b := by simpa using hb
    exact ha)
  have : c0.success = false := by
    cases he : effects E (noOptions E) (opts.map (·.2)) with
    | none =>
      rw [he] at key
      exact key c0 hl
    | some c =>
      rw [he] at key
      obtain ⟨-, fuel, hf, e⟩ := key
      have e2 := hl.symm.trans e
      obtain ⟨n, rfl⟩ : ∃ n, fuel = n + 1 := ⟨fuel - 1, by simp at hf; omega⟩
      have hat : (argvOf prog opts ++ a :: rest)[(argvOf prog opts).length]? = some a := by simp
      rw [loop_next (by simp) (step_unknown E c hat hn)] at e2
      exact rejected_loop (c := { c with success := false }) rfl e2.symm
  rw [hs] at this
  simp at this

/-! ### A command line -/

/-- The surroundings of the examples. -/
def sampleEnv : CmdEnv ℕ :=
  { feat := ⟨true, true, true, true⟩
    files := fun n => if n = cstr "mips.txt" then some (cstr "\n 2\tONCE  the c.png\n") else none
    strtod := fun _ => none, one := 1, maxImages := 100 }

theorem sampleEnv_ordinary : Ordinary sampleEnv :=
  ⟨by decide, by
    intro n t h
    unfold sampleEnv at h
    dsimp only at h
    split at h
    · simp only [Option.some.injEq] at h
      subst h
      decide +kernel
    · simp at h, fun _ _ => rfl⟩

/-- A command line with words in other letters, optional words left out and given, and a size that is a word. -/
def sampleOptions : List (List Str × Opt ℕ) :=
  [([cstr "-i", cstr "a.png"], .input (cstr "a.png")),
   ([cstr "--format", cstr "bc7"], .format .BC7),
   ([cstr "-m", cstr "3"], .mipmap (some 3) none),
   ([cstr "-r", cstr "64", cstr "NextPO2", cstr "Box"], .resize (.exact 64) .nextPO2 (some .Box)),
   ([cstr "-M", cstr "1", cstr "once", cstr "b.png"], .customMip ⟨1, none, none, some .Once, cstr "b.png"⟩),
   ([cstr "--custom-mip-list", cstr "mips.txt"],
    .customMipList (cstr "mips.txt") [⟨2, none, none, some .Once, cstr "the c.png"⟩]),
   ([cstr "--rotate", cstr "-90"], .rotate (-90)),
   ([cstr "--swizzle", cstr "bGrX"], .swizzle .Blue .Green .Red .None),
   ([cstr "--output", cstr "out.KTX"], .output (cstr "out.KTX"))]

theorem sampleOptions_proper : Proper sampleEnv sampleOptions := by
  have w (s : String) (a : Str) (h : strcaseEq a (cstr s) = true) : Word s a := isWord_iff.1 h
  intro p hp
  simp only [sampleOptions, List.mem_cons, List.not_mem_nil, or_false] at hp
  rcases hp with rfl | rfl | rfl | rfl | rfl | rfl | rfl | rfl | rfl
  · exact ⟨⟨"-i", by simp [Opt.names], _, rfl, rfl⟩, by decide +kernel, by decide +kernel⟩
  · exact ⟨⟨"--format", by simp [Opt.names], _, ⟨rfl, _, w _ _ (by decide +kernel), rfl⟩, rfl⟩,
      by decide +kernel, by decide +kernel⟩
  · exact ⟨⟨"-m", by simp [Opt.names], _, ⟨by simp, [], rfl, by decide +kernel⟩, rfl⟩,
      by decide +kernel, by decide +kernel⟩
  · exact ⟨⟨"-r", by simp [Opt.names], _, ⟨_, _, [cstr "Box"], ⟨by decide, by decide, rfl⟩,
      w "nextpo2" (cstr "NextPO2") (by decide +kernel), ⟨_, w _ _ (by decide +kernel), rfl⟩, by decide +kernel⟩, rfl⟩,
      by decide +kernel, by decide +kernel⟩
  · refine ⟨⟨"-M", by simp [Opt.names], _, ⟨[cstr "1", cstr "once"], ⟨by decide, by simp, [], [cstr "once"], rfl,
      ⟨_, w _ _ (by decide +kernel), rfl⟩, by decide +kernel⟩, ⟨by simp, by simp, by simp⟩, rfl⟩, rfl⟩,
      by decide +kernel, by decide +kernel⟩
  · refine ⟨⟨"--custom-mip-list", by simp [Opt.names], _, ⟨⟨cstr "\n 2\tONCE  the c.png\n", by decide +kernel, ?_⟩,
      rfl⟩, rfl⟩, by decide +kernel, by decide +kernel⟩
    refine .skip 10 _ _ (by decide +kernel) (.skip 32 _ _ (by decide +kernel)
      (.line _ (cstr "2\tONCE  the c.png") 10 [] [] ?_ (by decide +kernel) .done))
    refine ⟨⟨[cstr "2", cstr "ONCE"], ⟨by decide, by simp, [], [cstr "ONCE"], rfl,
      ⟨_, w _ _ (by decide +kernel), rfl⟩, by decide +kernel⟩, ?_⟩, ⟨116, cstr "he c.png", by decide +kernel,
      by decide +kernel⟩, by decide +kernel, ⟨by simp, by simp, by simp⟩⟩
    exact .word (cstr "2") [9] _ _ (by simp) (by decide +kernel)
      (.word (cstr "ONCE") [32, 32] _ _ (by simp) (by decide +kernel) .file)
  · exact ⟨⟨"--rotate", by simp [Opt.names], _, ⟨by decide, by decide, rfl⟩, by decide +kernel⟩,
      by decide +kernel, by decide +kernel⟩
  · exact ⟨⟨"--swizzle", by simp [Opt.names], _, ⟨98, 71, 114, 88, ⟨'b', by simp [channelLetters], rfl⟩,
      ⟨'G', by simp [channelLetters], rfl⟩, ⟨'r', by simp [channelLetters], rfl⟩,
      ⟨'X', by simp [channelLetters], rfl⟩, by decide +kernel⟩, rfl⟩, by decide +kernel, by decide +kernel⟩
  · exact ⟨⟨"--output", by simp [Opt.names], _, rfl, rfl⟩, by decide +kernel, by decide +kernel⟩

/-- The settings of the example. -/
def sampleSettings : Cmd ℕ :=
  { normalHeight := 1, imageType := .Image, images := [cstr "a.png"], format := .BC7, mipLevels := 3,
    width := 64, height := -2, resizeFilter := .Box, 
    customMips := [(⟨.PosX, 1, 0⟩, cstr "b.png", .Once), (⟨.PosX, 2, 0⟩, cstr "the c.png", .Once)],
    rotate := true, rotateAngle := .CCW90, swizzle := true, redSwzl := .Blue, greenSwzl := .Green,
    blueSwzl := .Red, alphaSwzl := .None, colorMask := ⟨true, true, true, false⟩, alpha := .None,
    output := some (cstr "out.KTX") }

theorem sampleOptions_effects :
    effects sampleEnv (noOptions sampleEnv) (sampleOptions.map (·.2)) = some sampleSettings := by rfl

theorem sampleSettings_complete : Complete sampleEnv.feat sampleSettings .KTX where
  images := by simp [sampleSettings]
  names := by decide +kernel
  output := ⟨_, rfl, .ktx ⟨cstr "out", cstr ".KTX", by decide +kernel, isWord_iff.1 (by decide +kernel)⟩⟩
  format := by decide
  supported := by decide +kernel
  one := by decide
  cube := by decide
  cubes := by decide
  flat := by decide
  few := by decide
  mips := by decide
  levels := by decide
  layers := by decide
  slices := by decide

example : parseCommandLine sampleEnv (argvOf (cstr "cuttlefish") sampleOptions) =
    .ok (some (some (finished sampleSettings .KTX))) :=
  C49_accepted sampleEnv sampleEnv_ordinary _ _ sampleOptions_proper _ _ sampleOptions_effects
    sampleSettings_complete

example : ∀ c', parseCommandLine sampleEnv (argvOf (cstr "cuttlefish") sampleOptions ++ [cstr "--mips"]) ≠
    .ok (some (some c')) :=
  C49_unknown sampleEnv sampleEnv_ordinary _ _ sampleOptions_proper _
    ⟨by unfold IsNumber; decide +kernel, fun f => by rw [← isWord_iff]; cases f <;> decide +kernel,
      fun x => by rw [← isWord_iff]; revert x; decide +kernel, rfl⟩ (by decide +kernel) []

/-! ### Where options do not mean what they say -/

/-- `-t float` before `-f BC6H` is accepted, but the texture gets unsigned floats. -/
theorem C49_fails_order : Proper sampleEnv
      [([cstr "-i", cstr "a"], .input (cstr "a")), ([cstr "-t", cstr "float"], .type .Float),
        ([cstr "-f", cstr "BC6H"], .format .BC6H), ([cstr "-o", cstr "a.dds"], .output (cstr "a.dds"))] ∧
    ∃ c, parseCommandLine sampleEnv [cstr "cuttlefish", cstr "-i", cstr "a", cstr "-t", cstr "float", cstr "-f",
        cstr "BC6H", cstr "-o", cstr "a.dds"] = .ok (some (some c)) ∧ c.type = .UFloat := by
  have hp : Proper sampleEnv
      [([cstr "-i", cstr "a"], .input (cstr "a")), ([cstr "-t", cstr "float"], .type .Float),
        ([cstr "-f", cstr "BC6H"], .format .BC6H), ([cstr "-o", cstr "a.dds"], .output (cstr "a.dds"))] := by
    intro p hp
    simp only [List.mem_cons, List.not_mem_nil, or_false] at hp
    rcases hp with rfl | rfl | rfl | rfl
    · exact ⟨⟨"-i", by simp [Opt.names], _, rfl, rfl⟩, by decide +kernel, by decide +kernel⟩
    · exact ⟨⟨"-t", by simp [Opt.names], _, ⟨_, word_self _, rfl⟩, rfl⟩, by decide +kernel, by decide +kernel⟩
    · exact ⟨⟨"-f", by simp [Opt.names], _, ⟨rfl, _, word_self _, rfl⟩, rfl⟩, by decide +kernel, by decide +kernel⟩
    · exact ⟨⟨"-o", by simp [Opt.names], _, rfl, rfl⟩, by decide +kernel, by decide +kernel⟩
  refine ⟨hp, _, C49_accepted sampleEnv sampleEnv_ordinary (cstr "cuttlefish") _ hp _ .DDS rfl ?_, rfl⟩
  exact {
    images := by decide
    names := by decide +kernel
    output := ⟨_, rfl, .dds ⟨cstr "a", cstr ".dds", by decide +kernel, isWord_iff.1 (by decide +kernel)⟩⟩
    format := by decide
    supported := by decide +kernel
    one := by decide
    cube := by decide
    cubes := by decide
    flat := by decide
    few := by decide
    mips := by decide
    levels := by decide
    layers := by decide
    slices := by decide }

/-- An unknown name of a format is accepted, and ignored, if a format was given before. -/
theorem C49_fails_format : lookupWord (cstr "bogus") (formatNames sampleEnv.feat) = none ∧
    ∃ c, parseCommandLine sampleEnv [cstr "cuttlefish", cstr "-i", cstr "a", cstr "-f", cstr "R8", cstr "-f",
        cstr "bogus", cstr "-o", cstr "a.dds"] = .ok (some (some c)) ∧ c.format = .R8 := by
  refine ⟨by decide +kernel, ?_⟩
  have h : (match parseCommandLine sampleEnv [cstr "cuttlefish", cstr "-i", cstr "a", cstr "-f", cstr "R8",
      cstr "-f", cstr "bogus", cstr "-o", cstr "a.dds"] with
      | .ok (some (some c)) => c.format == .R8
      | _ => false) = true := by decide +kernel
  split at h
  · rename_i c hc
    exact ⟨c, hc, by simpa using h⟩
  · simp at h

end Cuttlefish
