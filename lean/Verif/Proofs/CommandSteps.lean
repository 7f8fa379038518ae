import Verif.Proofs.CommandLine
/-
Which option the parser recognises for each name.
-/
namespace Cuttlefish
variable {H : Type}

/-- The parser at a known argument. -/
theorem step_at (E : CmdEnv H) {argv : List Str} {i : ℕ} {a : Str} (c : Cmd H) {r : Res (StepOut H)}
    (ho : argv[i]? = some a) (h : (Res.ok a >>= fun a => parseBody E argv i c a) = r) :
    parseStep E argv i c = r := by
  rw [← h]
  unfold parseStep
  rw [argAt_ok ho]

theorem at_jobs (E : CmdEnv H) {argv : List Str} {i : ℕ} {a : Str} (c : Cmd H) (ho : argv[i]? = some a)
    (h : matchesArg a "-j" "--jobs" = true) :
    parseStep E argv i c = optJobs argv i c := by
  unfold matchesArg at h
  simp only [Bool.or_eq_true, beq_iff_eq] at h
  rcases h with rfl | rfl <;> exact step_at E c ho rfl

theorem at_quiet (E : CmdEnv H) {argv : List Str} {i : ℕ} {a : Str} (c : Cmd H) (ho : argv[i]? = some a)
    (h : matchesArg a "-q" "--quiet" = true) :
    parseStep E argv i c = .ok (.next i { c with log := .Quiet }) := by
  unfold matchesArg at h
  simp only [Bool.or_eq_true, beq_iff_eq] at h
  rcases h with rfl | rfl <;> exact step_at E c ho rfl

theorem at_verbose (E : CmdEnv H) {argv : List Str} {i : ℕ} {a : Str} (c : Cmd H) (ho : argv[i]? = some a)
    (h : matchesArg a "-v" "--verbose" = true) :
    parseStep E argv i c = .ok (.next i { c with log := .Verbose }) := by
  unfold matchesArg at h
  simp only [Bool.or_eq_true, beq_iff_eq] at h
  rcases h with rfl | rfl <;> exact step_at E c ho rfl

theorem at_input (E : CmdEnv H) {argv : List Str} {i : ℕ} {a : Str} (c : Cmd H) (ho : argv[i]? = some a)
    (h : matchesArg a "-i" "--input" = true) :
    parseStep E argv i c = optInput argv i c := by
  unfold matchesArg at h
  simp only [Bool.or_eq_true, beq_iff_eq] at h
  rcases h with rfl | rfl <;> exact step_at E c ho rfl

theorem at_array (E : CmdEnv H) {argv : List Str} {i : ℕ} {a : Str} (c : Cmd H) (ho : argv[i]? = some a)
    (h : matchesArg a "-a" "--array" = true) :
    parseStep E argv i c = optArray E argv i c := by
  unfold matchesArg at h
  simp only [Bool.or_eq_true, beq_iff_eq] at h
  rcases h with rfl | rfl <;> exact step_at E c ho rfl

theorem at_cube (E : CmdEnv H) {argv : List Str} {i : ℕ} {a : Str} (c : Cmd H) (ho : argv[i]? = some a)
    (h : matchesArg a "-c" "--cube" = true) :
    parseStep E argv i c = optCube E argv i c := by
  unfold matchesArg at h
  simp only [Bool.or_eq_true, beq_iff_eq] at h
  rcases h with rfl | rfl <;> exact step_at E c ho rfl

theorem at_cubeArray (E : CmdEnv H) {argv : List Str} {i : ℕ} {a : Str} (c : Cmd H) (ho : argv[i]? = some a)
    (h : matchesArg a "-C" "--cube-array" = true) :
    parseStep E argv i c = optCubeArray E argv i c := by
  unfold matchesArg at h
  simp only [Bool.or_eq_true, beq_iff_eq] at h
  rcases h with rfl | rfl <;> exact step_at E c ho rfl

theorem at_inputList (E : CmdEnv H) {argv : List Str} {i : ℕ} {a : Str} (c : Cmd H) (ho : argv[i]? = some a)
    (h : matchesArg a "-I" "--input-list" = true) :
    parseStep E argv i c = optInputList E argv i c := by
  unfold matchesArg at h
  simp only [Bool.or_eq_true, beq_iff_eq] at h
  rcases h with rfl | rfl <;> exact step_at E c ho rfl

theorem at_resize (E : CmdEnv H) {argv : List Str} {i : ℕ} {a : Str} (c : Cmd H) (ho : argv[i]? = some a)
    (h : matchesArg a "-r" "--resize" = true) :
    parseStep E argv i c = optResize argv i c := by
  unfold matchesArg at h
  simp only [Bool.or_eq_true, beq_iff_eq] at h
  rcases h with rfl | rfl <;> exact step_at E c ho rfl

theorem at_mipmap (E : CmdEnv H) {argv : List Str} {i : ℕ} {a : Str} (c : Cmd H) (ho : argv[i]? = some a)
    (h : matchesArg a "-m" "--mipmap" = true) :
    parseStep E argv i c = optMipmap argv i c := by
  unfold matchesArg at h
  simp only [Bool.or_eq_true, beq_iff_eq] at h
  rcases h with rfl | rfl <;> exact step_at E c ho rfl

theorem at_customMip (E : CmdEnv H) {argv : List Str} {i : ℕ} {a : Str} (c : Cmd H) (ho : argv[i]? = some a)
    (h : matchesArg a "-M" "--custom-mip" = true) :
    parseStep E argv i c = optCustomMip argv i c := by
  unfold matchesArg at h
  simp only [Bool.or_eq_true, beq_iff_eq] at h
  rcases h with rfl | rfl <;> exact step_at E c ho rfl

theorem at_customMipList (E : CmdEnv H) {argv : List Str} {i : ℕ} (c : Cmd H)
    (ho : argv[i]? = some (cstr "--custom-mip-list")) :
    parseStep E argv i c = optCustomMipList E argv i c := by
  exact step_at E c ho rfl

theorem at_flipX (E : CmdEnv H) {argv : List Str} {i : ℕ} (c : Cmd H)
    (ho : argv[i]? = some (cstr "--flipx")) :
    parseStep E argv i c = .ok (.next i { c with flipX := true }) := by
  exact step_at E c ho rfl

theorem at_flipY (E : CmdEnv H) {argv : List Str} {i : ℕ} (c : Cmd H)
    (ho : argv[i]? = some (cstr "--flipy")) :
    parseStep E argv i c = .ok (.next i { c with flipY := true }) := by
  exact step_at E c ho rfl

theorem at_rotation (E : CmdEnv H) {argv : List Str} {i : ℕ} (c : Cmd H)
    (ho : argv[i]? = some (cstr "--rotate")) :
    parseStep E argv i c = optRotate argv i c := by
  exact step_at E c ho rfl

theorem at_normalMap (E : CmdEnv H) {argv : List Str} {i : ℕ} {a : Str} (c : Cmd H) (ho : argv[i]? = some a)
    (h : matchesArg a "-n" "--normalmap" = true) :
    parseStep E argv i c = optNormalMap E argv i c := by
  unfold matchesArg at h
  simp only [Bool.or_eq_true, beq_iff_eq] at h
  rcases h with rfl | rfl <;> exact step_at E c ho rfl

theorem at_grayscale (E : CmdEnv H) {argv : List Str} {i : ℕ} {a : Str} (c : Cmd H) (ho : argv[i]? = some a)
    (h : matchesArg a "-g" "--grayscale" = true) :
    parseStep E argv i c = .ok (.next i { c with grayscale := true }) := by
  unfold matchesArg at h
  simp only [Bool.or_eq_true, beq_iff_eq] at h
  rcases h with rfl | rfl <;> exact step_at E c ho rfl

theorem at_swizzle (E : CmdEnv H) {argv : List Str} {i : ℕ} {a : Str} (c : Cmd H) (ho : argv[i]? = some a)
    (h : matchesArg a "-s" "--swizzle" = true) :
    parseStep E argv i c = optSwizzle argv i c := by
  unfold matchesArg at h
  simp only [Bool.or_eq_true, beq_iff_eq] at h
  rcases h with rfl | rfl <;> exact step_at E c ho rfl

theorem at_srgb (E : CmdEnv H) {argv : List Str} {i : ℕ} (c : Cmd H)
    (ho : argv[i]? = some (cstr "--srgb")) :
    parseStep E argv i c = .ok (.next i { c with imageColorSpace := .sRGB, textureColorSpace := .sRGB }) := by
  exact step_at E c ho rfl

theorem at_preMultiply (E : CmdEnv H) {argv : List Str} {i : ℕ} (c : Cmd H)
    (ho : argv[i]? = some (cstr "--pre-multiply")) :
    parseStep E argv i c = optPreMultiply i c := by
  exact step_at E c ho rfl

theorem at_dimension (E : CmdEnv H) {argv : List Str} {i : ℕ} {a : Str} (c : Cmd H) (ho : argv[i]? = some a)
    (h : matchesArg a "-d" "--dimension" = true) :
    parseStep E argv i c = optWord argv i c dimensionArg (fun v => { c with dimension := v }) := by
  unfold matchesArg at h
  simp only [Bool.or_eq_true, beq_iff_eq] at h
  rcases h with rfl | rfl <;> exact step_at E c ho rfl

theorem at_format (E : CmdEnv H) {argv : List Str} {i : ℕ} {a : Str} (c : Cmd H) (ho : argv[i]? = some a)
    (h : matchesArg a "-f" "--format" = true) :
    parseStep E argv i c = optFormat E argv i c := by
  unfold matchesArg at h
  simp only [Bool.or_eq_true, beq_iff_eq] at h
  rcases h with rfl | rfl <;> exact step_at E c ho rfl

theorem at_type (E : CmdEnv H) {argv : List Str} {i : ℕ} {a : Str} (c : Cmd H) (ho : argv[i]? = some a)
    (h : matchesArg a "-t" "--type" = true) :
    parseStep E argv i c = optWord argv i c (lookupWord · typeNames) (fun v => { c with type := v }) := by
  unfold matchesArg at h
  simp only [Bool.or_eq_true, beq_iff_eq] at h
  rcases h with rfl | rfl <;> exact step_at E c ho rfl

theorem at_alpha (E : CmdEnv H) {argv : List Str} {i : ℕ} (c : Cmd H)
    (ho : argv[i]? = some (cstr "--alpha")) :
    parseStep E argv i c = optWord argv i c (lookupWord · alphaNames) (fun v => { c with alpha := v, alphaSet := true }) := by
  exact step_at E c ho rfl

theorem at_quality (E : CmdEnv H) {argv : List Str} {i : ℕ} {a : Str} (c : Cmd H) (ho : argv[i]? = some a)
    (h : matchesArg a "-Q" "--quality" = true) :
    parseStep E argv i c = optWord argv i c (lookupWord · qualityNames) (fun v => { c with quality := v }) := by
  unfold matchesArg at h
  simp only [Bool.or_eq_true, beq_iff_eq] at h
  rcases h with rfl | rfl <;> exact step_at E c ho rfl

theorem at_output (E : CmdEnv H) {argv : List Str} {i : ℕ} {a : Str} (c : Cmd H) (ho : argv[i]? = some a)
    (h : matchesArg a "-o" "--output" = true) :
    parseStep E argv i c = optOutput argv i c := by
  unfold matchesArg at h
  simp only [Bool.or_eq_true, beq_iff_eq] at h
  rcases h with rfl | rfl <;> exact step_at E c ho rfl

theorem at_fileFormat (E : CmdEnv H) {argv : List Str} {i : ℕ} (c : Cmd H)
    (ho : argv[i]? = some (cstr "--file-format")) :
    parseStep E argv i c = optWord argv i c (lookupWord · fileTypeNames) (fun v => { c with fileType := v }) := by
  exact step_at E c ho rfl

theorem at_createDir (E : CmdEnv H) {argv : List Str} {i : ℕ} (c : Cmd H)
    (ho : argv[i]? = some (cstr "--create-dir")) :
    parseStep E argv i c = .ok (.next i { c with createOutputDir := true }) := by
  exact step_at E c ho rfl

/-- A pass of the loop that goes on. -/
theorem loop_next {E : CmdEnv H} {argv : List Str} {fuel i i' : ℕ} {c c' : Cmd H}
    (hi : i < argv.length) (h : parseStep E argv i c = .ok (.next i' c')) :
    parseLoop E argv (fuel + 1) i c = parseLoop E argv fuel (i' + 1) c' := by
  conv_lhs => unfold parseLoop
  rw [if_neg (by omega)]
  dsimp only
  rw [h]
  rfl

/-- The end of the loop. -/
theorem loop_end {E : CmdEnv H} {argv : List Str} {fuel i : ℕ} {c : Cmd H} (hi : argv.length ≤ i) :
    parseLoop E argv fuel i c = .ok (some c) := by
  unfold parseLoop
  rw [if_pos hi]

end Cuttlefish
