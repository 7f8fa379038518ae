import Verif.Proofs.CommandKeep
import Verif.Props.C34
/-
C33: a successful command line is a valid job.
-/
namespace Cuttlefish
open Spec
variable {H : Type}

theorem checkKind_valid {c c' : Cmd H} (h : checkKind c = some c') (hd : c.dimension ≠ .Cube) :
    (c'.imageType = .Image → c'.images.length = 1) ∧ (c'.imageType = .Cube → c'.images.length = 6) ∧
    (c'.imageType = .CubeArray → 6 ∣ c'.images.length) ∧
    (c'.dimension = .Cube ↔ c'.imageType = .Cube ∨ c'.imageType = .CubeArray) := by
  unfold checkKind at h
  split at h
  all_goals rename_i ht
  all_goals (repeat' split at h)
  all_goals simp only [Option.some.injEq, reduceCtorEq] at h
  all_goals subst h
  all_goals simp_all
  omega

theorem checkOutput_valid {E : CmdEnv H} {c c' : Cmd H} (h : checkOutput E c = some c') :
    (∀ n ∈ c'.images, n ≠ []) ∧ (∃ o, c'.output = some o) ∧ c'.format ≠ .Unknown ∧ c'.fileType ≠ .Auto ∧
    isFormatValidFile E.feat c'.format c'.type c'.fileType = true ∧
    (c'.textureColorSpace = .sRGB → hasNativeSRGB c'.format c'.type = true) := by
  unfold checkOutput at h
  split at h
  · simp at h
  rename_i hn
  split at h
  · simp at h
  rename_i hf
  split at h
  · simp at h
  rename_i o ho
  dsimp only at h
  split at h
  · simp at h
  rename_i ha
  split at h
  · simp at h
  rename_i hv
  simp only [Option.some.injEq] at h
  subst h
  refine ⟨?_, ⟨o, ho⟩, hf, ha, by simpa using hv, ?_⟩
  · intro n hm he
    refine hn ?_
    rw [List.any_eq_true]
    exact ⟨n, hm, by simp [he]⟩
  · dsimp only
    intro hs
    by_contra hc
    rw [Bool.not_eq_true] at hc
    rw [hc] at hs
    by_cases h2 : c.textureColorSpace = .sRGB
    · simp [h2] at hs
    · simp [h2] at hs

/-- What a successful command line went through. -/
theorem validate_some {E : CmdEnv H} {c c' : Cmd H} (h : validate E c = .ok (some c')) :
    c.images ≠ [] ∧ ∃ c1, checkKind c = some c1 ∧ checkOutput E c1 = some c' ∧
      checkCustomMips c' = .ok true := by
  unfold validate at h
  split at h
  · simp at h
  rename_i hi
  split at h
  · simp at h
  rename_i c1 h1
  split at h
  · simp at h
  rename_i c2 h2
  rw [Res.bind_eq_ok] at h
  obtain ⟨g, hg, h⟩ := h
  cases g with
  | false => simp at h
  | true =>
    simp only [if_true, Res.ok.injEq, Option.some.injEq] at h
    subst h
    exact ⟨by simpa using hi, c1, h1, h2, hg⟩

/-- Every command line that is accepted is a complete and consistent job: for all argument vectors and
list files. -/
theorem C33_job (E : CmdEnv H) (argv : List Str) (c : Cmd H)
    (h : parseCommandLine E argv = .ok (some (some c))) : ValidJob E.feat c := by
  obtain ⟨c0, hk, -, hv, -⟩ := parse_success h
  obtain ⟨hi, c1, h1, h2, -⟩ := validate_some hv
  have e1 := (checkKind_eq h1).1
  have e2 := checkOutput_eq h2
  obtain ⟨k1, k2, k3, k4⟩ := checkKind_valid h1 hk.1
  obtain ⟨o1, o2, o3, o4, o5, o6⟩ := checkOutput_valid h2
  have im : c.images = c1.images := by rw [e2]
  have it : c.imageType = c1.imageType := by rw [e2]
  have di : c.dimension = c1.dimension := by rw [e2]
  exact {
    images := by rw [im, e1]; exact hi
    names := o1, output := o2, format := o3, file := o4, supported := o5, srgb := o6
    one := by rw [im, it]; exact k1
    cube := by rw [im, it]; exact k2
    cubes := by rw [im, it]; exact k3
    kind := by rw [di, it]; exact k4 }

/-! ### Custom mips -/

theorem levelDepth_eq {depth level d : ℕ} (h : levelDepth depth level = .ok d) :
    level < 32 ∧ d = max (depth / 2 ^ level) 1 := by
  unfold levelDepth shr32 at h
  split at h
  · rename_i hl
    simp only [Res.ok_bind, Res.ok.injEq] at h
    exact ⟨hl, by rw [← h, Nat.shiftRight_eq_div_pow]⟩
  · simp at h

/-- The number of indices of a level. -/
def atLevel (is : List ImageIndex) (l : ℕ) : ℕ := (is.filter (fun i => i.mipLevel = l)).length

theorem vresize_getD (l : List ℕ) (n k : ℕ) (h : l.length ≤ n) : (vresize l n 0).getD k 0 = l.getD k 0 := by
  unfold vresize
  rw [List.take_of_length_le h, List.getD_eq_getElem?_getD, List.getD_eq_getElem?_getD]
  by_cases hk : k < l.length
  · rw [List.getElem?_append_left hk]
  · rw [List.getElem?_append_right (by omega), List.getElem?_replicate, List.getElem?_eq_none (by omega)]
    split <;> rfl

theorem countLevel_eq {counts r : List ℕ} {level : ℕ} (hl : level < 32) (h : countLevel counts level = .ok r)
    (hb : counts.getD level 0 + 1 < 2 ^ 32) :
    ∀ k, r.getD k 0 = counts.getD k 0 + if k = level then 1 else 0 := by
  unfold countLevel at h
  dsimp only at h
  have hu : u32 (level + 1) = level + 1 := by unfold u32 pow32; omega
  have hg : ∀ k, (if counts.length ≤ level then vresize counts (u32 (level + 1)) 0 else counts).getD k 0 =
      counts.getD k 0 := by
    intro k
    split
    · rw [hu]; exact vresize_getD _ _ _ (by omega)
    · rfl
  generalize (if counts.length ≤ level then vresize counts (u32 (level + 1)) 0 else counts) = m at h hg
  split at h
  · simp at h
  rename_i n hn
  simp only [Res.ok.injEq] at h
  subst h
  have hn' : counts.getD level 0 = n := by rw [← hg, List.getD_eq_getElem?_getD, hn]; rfl
  have hlt : level < m.length := (List.getElem?_eq_some_iff.1 hn).1
  intro k
  rw [List.getD_eq_getElem?_getD, List.getElem?_set]
  by_cases hk : level = k
  · subst hk
    rw [if_pos rfl, if_pos hlt, if_pos rfl, hn', Option.getD_some]
    unfold u32 pow32
    omega
  · rw [if_neg hk, if_neg (fun e => hk e.symm), ← hg, List.getD_eq_getElem?_getD]
    rfl

/-- What the first loop establishes. -/
theorem checkMips_eq {dim : Dimension} {depth : ℕ} : ∀ {is : List ImageIndex} {counts r : List ℕ},
    checkMips dim depth is counts = .ok (some r) →
    (∀ i ∈ is, 1 ≤ i.mipLevel ∧
      i.depth < if dim = .Dim3D then max (depth / 2 ^ i.mipLevel) 1 else depth) ∧
    (dim = .Dim3D → ∀ n, (∀ k, counts.getD k 0 ≤ n) → n + is.length < 2 ^ 32 →
      ∀ k, r.getD k 0 = counts.getD k 0 + atLevel is k)
  | [], counts, r, h => by
    simp only [checkMips, Res.ok.injEq, Option.some.injEq] at h
    subst h
    exact ⟨by simp, fun _ _ _ _ k => by simp [atLevel]⟩
  | i :: is, counts, r, h => by
    unfold checkMips at h
    rw [Res.bind_eq_ok] at h
    obtain ⟨o, ho, h⟩ := h
    split at h
    · simp at h
    rename_i counts'
    obtain ⟨ih1, ih2⟩ := checkMips_eq h
    unfold checkMip at ho
    split at ho
    · simp at ho
    rename_i h0
    split at ho
    · rename_i hd
      rw [Res.bind_eq_ok] at ho
      obtain ⟨d, hd2, ho⟩ := ho
      rw [Res.bind_eq_ok] at ho
      obtain ⟨cs, hc, ho⟩ := ho
      obtain ⟨hl, rfl⟩ := levelDepth_eq hd2
      simp only [Res.ok.injEq] at ho
      split at ho
      · simp at ho
      rename_i hlt
      simp only [Option.some.injEq] at ho
      subst ho
      refine ⟨?_, ?_⟩
      · intro j hj
        rcases List.mem_cons.1 hj with rfl | hj
        · refine ⟨by omega, ?_⟩
          rw [if_pos hd]
          omega
        · exact ih1 j hj
      · intro hd' n hn hsum k
        simp only [List.length_cons] at hsum
        have hc' := countLevel_eq hl hc (by have := hn i.mipLevel; omega)
        rw [ih2 hd' (n + 1) (fun k => by rw [hc']; have := hn k; split <;> omega) (by omega), hc']
        unfold atLevel
        rw [List.filter_cons]
        by_cases hk : i.mipLevel = k
        · simp [hk]; omega
        · have : k ≠ i.mipLevel := fun e => hk e.symm
          simp [hk, this]
    · rename_i hd
      simp only [Res.ok.injEq] at ho
      split at ho
      · simp at ho
      rename_i hlt
      refine ⟨?_, fun e => absurd e hd⟩
      intro j hj
      rcases List.mem_cons.1 hj with rfl | hj
      · refine ⟨by omega, ?_⟩
        rw [if_neg hd]
        omega
      · exact ih1 j hj

/-- What the second loop establishes. -/
theorem checkCounts_eq {depth : ℕ} : ∀ {l : List ℕ} {i : ℕ}, checkCounts depth i l = .ok true →
    ∀ k, 0 < l.getD k 0 → l.getD k 0 = max (depth / 2 ^ (i + k)) 1
  | [], i, _, k, hk => by simp at hk
  | n :: ns, i, h, k, hk => by
    unfold checkCounts at h
    rw [Res.bind_eq_ok] at h
    obtain ⟨d, hd, h⟩ := h
    split at h
    · simp at h
    rename_i hn
    obtain ⟨-, rfl⟩ := levelDepth_eq hd
    cases k with
    | zero =>
      simp only [List.getD_cons_zero] at hk ⊢
      simp only [Nat.add_zero]
      by_contra hne
      exact hn ⟨hk, hne⟩
    | succ k =>
      simp only [List.getD_cons_succ] at hk ⊢
      rw [checkCounts_eq h k hk]
      congr 3
      omega

theorem checkCustomMips_eq {c : Cmd H} (h : checkCustomMips c = .ok true) :
    (c.customMips ≠ [] → 1 < c.mipLevels) ∧
    ∃ r, checkMips c.dimension (u32 c.images.length) (c.customMips.map (·.1)) [] = .ok (some r) ∧
      checkCounts (u32 c.images.length) 0 r = .ok true := by
  unfold checkCustomMips at h
  split at h
  · simp at h
  rename_i hm
  rw [Res.bind_eq_ok] at h
  obtain ⟨o, ho, h⟩ := h
  split at h
  · simp at h
  · rename_i r
    refine ⟨fun hne => ?_, r, ho, h⟩
    by_contra hc
    apply hm
    simp only [Bool.and_eq_true, decide_eq_true_eq, Bool.not_eq_true']
    exact ⟨by omega, by simpa using hne⟩

/-- The custom mips of an accepted command line are for distinct places, only occur if there are several
levels, are not for the first level, and lie inside the slices or layers of the texture.  Missing: the
number of levels, which depends on the size of the images (see C43), and the layers of cube arrays, which
are compared with the number of faces (`C33_fails_layer`). -/
theorem C33_custom_partial (E : CmdEnv H) (argv : List Str) (c : Cmd H)
    (h : parseCommandLine E argv = .ok (some (some c))) :
    (c.customMips.map (·.1)).Nodup ∧
    ∀ e ∈ c.customMips, 1 < c.mipLevels ∧ 1 ≤ e.1.mipLevel ∧
      (c.dimension ≠ .Cube → e.1.depth < mipDepth c e.1.mipLevel) ∧
      (c.dimension = .Cube → e.1.depth < c.images.length) := by
  obtain ⟨c0, hk, -, hv, -⟩ := parse_success h
  obtain ⟨-, c1, h1, h2, h3⟩ := validate_some hv
  have e1 := (checkKind_eq h1).1
  have e2 := checkOutput_eq h2
  have em : c.customMips = c0.customMips := by rw [e2]; dsimp only; rw [e1]
  refine ⟨by rw [em]; exact hk.2, ?_⟩
  obtain ⟨hl, r, hr, -⟩ := checkCustomMips_eq h3
  intro e he
  obtain ⟨l1, l2⟩ := (checkMips_eq hr).1 e.1 (List.mem_map.2 ⟨e, he, rfl⟩)
  have hu : u32 c.images.length ≤ c.images.length := Nat.mod_le _ _
  refine ⟨hl (List.ne_nil_of_mem he), l1, ?_, ?_⟩
  · intro hd
    unfold mipDepth
    split
    · rename_i h3
      rw [if_pos h3] at l2
      have := Nat.div_le_div_right (c := 2 ^ e.1.mipLevel) hu
      omega
    · rename_i h3
      exact absurd h3 hd
    · rename_i h3 _
      rw [if_neg h3] at l2
      omega
  · intro hd
    rw [hd, if_neg (by simp)] at l2
    omega

/-- If a 3D texture has a custom mip at a level then it has one for every slice of that level, provided
that no cube face is named. -/
theorem C33_slices (E : CmdEnv H) (argv : List Str) (c : Cmd H)
    (h : parseCommandLine E argv = .ok (some (some c))) (hd : c.dimension = .Dim3D)
    (hf : ∀ e ∈ c.customMips, e.1.cubeFace = .PosX) (hn : c.images.length < 2 ^ 32)
    (hm : c.customMips.length < 2 ^ 32) :
    ∀ e ∈ c.customMips, ∀ slice < mipDepth c e.1.mipLevel,
      ∃ e' ∈ c.customMips, e'.1 = ⟨.PosX, e.1.mipLevel, slice⟩ := by
  obtain ⟨hnd, hin⟩ := C33_custom_partial E argv c h
  obtain ⟨c0, hk, -, hv, -⟩ := parse_success h
  obtain ⟨-, c1, h1, h2, h3⟩ := validate_some hv
  obtain ⟨-, r, hr, hc⟩ := checkCustomMips_eq h3
  have cnt := (checkMips_eq hr).2 hd 0 (by simp) (by simpa using hm)
  intro e he slice hs
  have hul : u32 c.images.length = c.images.length := Nat.mod_eq_of_lt hn
  have hmem : e.1 ∈ c.customMips.map (·.1) := List.mem_map.2 ⟨e, he, rfl⟩
  have hcl := cnt e.1.mipLevel
  simp only [List.getD_nil, Nat.zero_add] at hcl
  have hpos : 0 < r.getD e.1.mipLevel 0 := by
    rw [hcl]
    unfold atLevel
    exact List.length_pos_of_mem (List.mem_filter.2 ⟨hmem, by simp⟩)
  have hall := checkCounts_eq hc e.1.mipLevel hpos
  rw [Nat.zero_add, hul, hcl] at hall
  have hD : mipDepth c e.1.mipLevel = max (c.images.length / 2 ^ e.1.mipLevel) 1 := by
    unfold mipDepth; rw [hd]
  rw [← hD] at hall
  -- the slices of the level, as a set of numbers below the depth with as many elements
  set L := ((c.customMips.map (·.1)).filter (fun i => i.mipLevel = e.1.mipLevel)) with hL
  have hface : ∀ i ∈ L, i.cubeFace = .PosX ∧ i.mipLevel = e.1.mipLevel ∧ i.depth < mipDepth c e.1.mipLevel := by
    intro i hi
    obtain ⟨hi1, hi2⟩ := List.mem_filter.1 hi
    obtain ⟨x, hx, rfl⟩ := List.mem_map.1 hi1
    have hlv : x.1.mipLevel = e.1.mipLevel := by simpa using hi2
    exact ⟨hf x hx, hlv, hlv ▸ (hin x hx).2.2.1 (by rw [hd]; simp)⟩
  have hnodup : (L.map (·.depth)).Nodup := by
    refine List.Nodup.map_on ?_ (hnd.filter _)
    intro a ha b hb hab
    obtain ⟨a1, a2, -⟩ := hface a ha
    obtain ⟨b1, b2, -⟩ := hface b hb
    cases a; cases b
    simp_all
  have hsub : (L.map (·.depth)).toFinset ⊆ Finset.range (mipDepth c e.1.mipLevel) := by
    intro d hd
    rw [List.mem_toFinset, List.mem_map] at hd
    obtain ⟨i, hi, rfl⟩ := hd
    exact Finset.mem_range.2 (hface i hi).2.2
  have hcard : (L.map (·.depth)).toFinset.card = mipDepth c e.1.mipLevel := by
    rw [List.toFinset_card_of_nodup hnodup, List.length_map]
    exact hall
  have heq := Finset.eq_of_subset_of_card_le hsub (by rw [hcard, Finset.card_range])
  have : slice ∈ (L.map (·.depth)).toFinset := by rw [heq]; exact Finset.mem_range.2 hs
  rw [List.mem_toFinset, List.mem_map] at this
  obtain ⟨i, hi, rfl⟩ := this
  obtain ⟨i1, i2, -⟩ := hface i hi
  obtain ⟨hi1, -⟩ := List.mem_filter.1 hi
  obtain ⟨x, hx, rfl⟩ := List.mem_map.1 hi1
  refine ⟨x, hx, ?_⟩
  rcases hx1 : x.1 with ⟨f, l, d⟩
  rw [hx1] at i1 i2
  dsimp only at i1 i2
  rw [i1, i2]

/-- An accepted command line, step by step. -/
theorem parse_done {E : CmdEnv H} {argv : List Str} {c0 c1 c2 c : Cmd H} (h1 : argv.length ≠ 1)
    (h2 : ((argv.drop 1).any fun a => matchesArg a "-h" "--help") = false)
    (h3 : parseLoop E argv argv.length 1 { normalHeight := E.one } = .ok (some c0))
    (h4 : c0.success = true) (h5 : c0.images.isEmpty = false) (h6 : checkKind c0 = some c1)
    (h7 : checkOutput E c1 = some c2) (h8 : checkCustomMips c2 = .ok true) (h9 : c2 = c) :
    parseCommandLine E argv = .ok (some (some c)) := by
  unfold parseCommandLine
  rw [if_neg h1, if_neg (by rw [h2]; simp), h3, Res.ok_bind]
  dsimp only
  unfold parseValidate validate
  rw [if_pos h4, if_neg (by rw [h5]; simp), h6]
  dsimp only
  rw [h7]
  dsimp only
  rw [h8, Res.ok_bind, Res.ok_bind, if_pos rfl, h9]
  rfl

/-- A single cube has one layer, but a custom mip for layer 3 is accepted. -/
theorem C33_fails_layer (E : CmdEnv H) (h : E.files (cstr "l") = some (cstr "a\na\na\na\na\na")) :
    ∃ c, parseCommandLine E [cstr "cuttlefish", cstr "-I", cstr "cube", cstr "l", cstr "-f", cstr "R8",
        cstr "-o", cstr "a.dds", cstr "-m", cstr "-M", cstr "1", cstr "3", cstr "b"] = .ok (some (some c)) ∧
      ∃ e ∈ c.customMips, ¬ e.1.depth < mipDepth c e.1.mipLevel := by
  generalize hargv : [cstr "cuttlefish", cstr "-I", cstr "cube", cstr "l", cstr "-f", cstr "R8",
        cstr "-o", cstr "a.dds", cstr "-m", cstr "-M", cstr "1", cstr "3", cstr "b"] = argv
  have hlen : argv.length = 13 := by rw [← hargv]; rfl
  have hl : readImageList E.files [] (cstr "l") = .ok (some (List.replicate 6 (cstr "a"))) := by
    unfold readImageList; rw [h]; rfl
  have s1 : parseStep E argv 1 { normalHeight := E.one } =
      .ok (.next 3 { normalHeight := E.one, imageType := .Cube, images := List.replicate 6 (cstr "a") }) := by
    subst hargv
    refine (at_inputList E _ rfl rfl).trans ?_
    show (readImageList E.files [] (cstr "l") >>= _) = _
    rw [hl]; rfl
  have s2 (c : Cmd H) : parseStep E argv 4 c = .ok (.next 5 { c with format := .R8 }) := by
    rw [at_format E c (a := cstr "-f") (by subst hargv; rfl) rfl]
    unfold optFormat
    rw [if_neg (by omega), argAt_ok (a := cstr "R8") (by subst hargv; rfl), Res.ok_bind,
      show lookupWord (cstr "R8") (formatNames E.feat) = some .R8 from rfl]
    rfl
  have s3 (c : Cmd H) (hc : c.output = none) :
      parseStep E argv 6 c = .ok (.next 7 { c with output := some (cstr "a.dds") }) := by
    rw [at_output E c (a := cstr "-o") (by subst hargv; rfl) rfl]
    unfold optOutput
    rw [if_neg (by omega), hc, if_neg (by simp), argAt_ok (a := cstr "a.dds") (by subst hargv; rfl)]
    rfl
  have s5 (c : Cmd H) : parseStep E argv 8 c = .ok (.next 8 { c with mipLevels := pow32 - 1 }) := by
    subst hargv; exact (at_mipmap E _ rfl rfl).trans rfl
  have s6 (c : Cmd H) (hc : c.customMips = []) : parseStep E argv 9 c =
      .ok (.next 12 { c with customMips := [(⟨.PosX, 1, 3⟩, cstr "b", .Continue)] }) := by
    rw [at_customMip E c (a := cstr "-M") (by subst hargv; rfl) rfl]
    unfold optCustomMip
    rw [hc]
    subst hargv
    rfl
  have hloop : ∃ c0, parseLoop E argv argv.length 1 { normalHeight := E.one } = .ok (some c0) ∧
      c0 = { normalHeight := E.one, imageType := .Cube, images := List.replicate 6 (cstr "a"), format := .R8, output := some (cstr "a.dds"), mipLevels := pow32 - 1, customMips := [(⟨.PosX, 1, 3⟩, cstr "b", .Continue)] } := by
    rw [hlen, loop_next (by omega) s1, loop_next (by omega) (s2 _), loop_next (by omega) (s3 _ rfl),
      loop_next (by omega) (s5 _), loop_next (by omega) (s6 _ rfl), loop_end (by omega)]
    exact ⟨_, rfl, rfl⟩
  obtain ⟨c0, hloop, rfl⟩ := hloop
  refine ⟨_, parse_done (by omega) (by subst hargv; decide +kernel) hloop rfl rfl rfl rfl ?_ rfl, ?_⟩
  · rfl
  · refine ⟨_, List.mem_singleton_self _, ?_⟩
    show ¬ 3 < 6 / 6
    omega

/-! A 3D texture of two slices with a custom second level is accepted, so the conditions of the theorems
are met. -/

theorem sample_job (E : CmdEnv H) (h : E.files (cstr "l") = some (cstr "x\ny")) :
    ∃ c, parseCommandLine E [cstr "cuttlefish", cstr "-I", cstr "array", cstr "l",
        cstr "-f", cstr "R8", cstr "-o", cstr "a.dds", cstr "-d", cstr "3", cstr "-m", cstr "-M", cstr "1",
        cstr "b"] = .ok (some (some c)) ∧
      c.dimension = .Dim3D ∧ c.customMips = [(⟨.PosX, 1, 0⟩, cstr "b", .Continue)] ∧
      c.images = [cstr "x", cstr "y"] := by
  generalize hargv : [cstr "cuttlefish", cstr "-I", cstr "array", cstr "l",
        cstr "-f", cstr "R8", cstr "-o", cstr "a.dds", cstr "-d", cstr "3", cstr "-m", cstr "-M", cstr "1",
        cstr "b"] = argv
  have hlen : argv.length = 14 := by rw [← hargv]; rfl
  have hl : readImageList E.files [] (cstr "l") = .ok (some [cstr "x", cstr "y"]) := by
    unfold readImageList; rw [h]; rfl
  have s1 : parseStep E argv 1 { normalHeight := E.one } =
      .ok (.next 3 { normalHeight := E.one, imageType := .Array, images := [cstr "x", cstr "y"] }) := by
    subst hargv
    refine (at_inputList E _ rfl rfl).trans ?_
    show (readImageList E.files [] (cstr "l") >>= _) = _
    rw [hl]; rfl
  have s2 (c : Cmd H) : parseStep E argv 4 c = .ok (.next 5 { c with format := .R8 }) := by
    rw [at_format E c (a := cstr "-f") (by subst hargv; rfl) rfl]
    unfold optFormat
    rw [if_neg (by omega), argAt_ok (a := cstr "R8") (by subst hargv; rfl), Res.ok_bind,
      show lookupWord (cstr "R8") (formatNames E.feat) = some .R8 from rfl]
    rfl
  have s3 (c : Cmd H) (hc : c.output = none) :
      parseStep E argv 6 c = .ok (.next 7 { c with output := some (cstr "a.dds") }) := by
    rw [at_output E c (a := cstr "-o") (by subst hargv; rfl) rfl]
    unfold optOutput
    rw [if_neg (by omega), hc, if_neg (by simp), argAt_ok (a := cstr "a.dds") (by subst hargv; rfl)]
    rfl
  have s4 (c : Cmd H) : parseStep E argv 8 c = .ok (.next 9 { c with dimension := .Dim3D }) := by
    subst hargv; exact (at_dimension E _ rfl rfl).trans rfl
  have s5 (c : Cmd H) : parseStep E argv 10 c = .ok (.next 10 { c with mipLevels := pow32 - 1 }) := by
    subst hargv; exact (at_mipmap E _ rfl rfl).trans rfl
  have s6 (c : Cmd H) (hc : c.customMips = []) : parseStep E argv 11 c =
      .ok (.next 13 { c with customMips := [(⟨.PosX, 1, 0⟩, cstr "b", .Continue)] }) := by
    rw [at_customMip E c (a := cstr "-M") (by subst hargv; rfl) rfl]
    unfold optCustomMip
    rw [hc]
    subst hargv
    rfl
  have hloop : ∃ c0, parseLoop E argv argv.length 1 { normalHeight := E.one } = .ok (some c0) ∧
      c0 = { normalHeight := E.one, imageType := .Array, images := [cstr "x", cstr "y"], format := .R8, output := some (cstr "a.dds"), dimension := .Dim3D, mipLevels := pow32 - 1, customMips := [(⟨.PosX, 1, 0⟩, cstr "b", .Continue)] } := by
    rw [hlen, loop_next (by omega) s1, loop_next (by omega) (s2 _), loop_next (by omega) (s3 _ rfl),
      loop_next (by omega) (s4 _), loop_next (by omega) (s5 _), loop_next (by omega) (s6 _ rfl),
      loop_end (by omega)]
    exact ⟨_, rfl, rfl⟩
  obtain ⟨c0, hloop, rfl⟩ := hloop
  refine ⟨_, parse_done (by omega) (by subst hargv; decide +kernel) hloop rfl rfl rfl rfl ?_ rfl, ?_⟩
  · unfold checkCustomMips
    dsimp only
    rw [if_neg (by simp [pow32])]
    rfl
  · exact ⟨rfl, rfl, rfl⟩

end Cuttlefish
