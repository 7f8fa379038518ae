import Verif.Proofs.Options
import Verif.Props.C33
/-
The end of the parser: the file type and the tests of the whole command line.
-/
namespace Cuttlefish
open Spec
variable {H : Type}

theorem ending_iff {ext : String} {name : Str} : endsWithCase name (cstr ext) = true ↔ Extension ext name := by
  unfold endsWithCase Extension
  rw [Bool.and_eq_true, decide_eq_true_iff, strcase_map]
  constructor
  · rintro ⟨h1, h2⟩
    exact ⟨_, _, (List.take_append_drop (name.length - (cstr ext).length) name).symm, word_map.2 h2⟩
  · rintro ⟨stem, e, rfl, hw⟩
    have hl : e.length = (cstr ext).length := by
      unfold Word at hw
      exact hw.length_eq
    rw [List.length_append, hl]
    refine ⟨by omega, ?_⟩
    rw [show stem.length + (cstr ext).length - (cstr ext).length = stem.length by omega, List.drop_left]
    exact word_map.1 hw

theorem ending_last {ext : String} {name : Str} {x : UInt8} (h : Extension ext name)
    (hx : (cstr ext).getLast? = some x) : name.getLast?.map lowerAscii = some (lowerAscii x) := by
  obtain ⟨stem, e, rfl, hw⟩ := h
  have hm := word_map.1 hw
  have : (e.map lowerAscii).getLast? = some (lowerAscii x) := by rw [hm, List.getLast?_map, hx]; rfl
  rw [List.getLast?_map] at this
  cases he : e.getLast? with
  | none => rw [he] at this; simp at this
  | some y =>
    rw [he] at this
    rw [List.getLast?_append, he]
    exact this

/-- The type of a file by its name. -/
theorem fileType_iff {name : Str} {ft : FileType} (h : ft ≠ .Auto) : fileType name = ft ↔ NamedType name ft := by
  have d1 : [0x2E, 0x64, 0x64, 0x73] = cstr ".dds" := by decide
  have d2 : [0x2E, 0x6B, 0x74, 0x78] = cstr ".ktx" := by decide
  have d3 : [0x2E, 0x70, 0x76, 0x72] = cstr ".pvr" := by decide
  have l1 : Extension ".dds" name → name.getLast?.map lowerAscii = some 0x73 := fun h =>
    ending_last (x := 0x73) h (by decide +kernel)
  have l2 : Extension ".ktx" name → name.getLast?.map lowerAscii = some 0x78 := fun h =>
    ending_last (x := 0x78) h (by decide +kernel)
  have l3 : Extension ".pvr" name → name.getLast?.map lowerAscii = some 0x72 := fun h =>
    ending_last (x := 0x72) h (by decide +kernel)
  unfold fileType
  rw [d1, d2, d3]
  constructor
  · intro e
    split at e
    · rename_i h1; subst e; exact .dds (ending_iff.1 h1)
    split at e
    · rename_i h1; subst e; exact .ktx (ending_iff.1 h1)
    split at e
    · rename_i h1; subst e; exact .pvr (ending_iff.1 h1)
    · exact absurd e.symm h
  · intro e
    cases e with
    | dds h1 => rw [if_pos (ending_iff.2 h1)]
    | ktx h1 =>
      rw [if_neg, if_pos (ending_iff.2 h1)]
      intro h2
      have := (l1 (ending_iff.1 h2)).symm.trans (l2 h1)
      simp at this
    | pvr h1 =>
      rw [if_neg, if_neg, if_pos (ending_iff.2 h1)]
      · intro h2
        have := (l2 (ending_iff.1 h2)).symm.trans (l3 h1)
        simp at this
      · intro h2
        have := (l1 (ending_iff.1 h2)).symm.trans (l3 h1)
        simp at this

theorem outputType_iff {c : Cmd H} {o : Str} {ft : FileType} :
    OutputType c o ft ↔ checkFileType c.fileType o = ft ∧ ft ≠ .Auto := by
  unfold OutputType checkFileType
  split
  · rename_i h
    constructor
    · intro hn
      have : ft ≠ .Auto := by rintro rfl; cases hn
      exact ⟨(fileType_iff this).2 hn, this⟩
    · rintro ⟨h1, h2⟩
      exact (fileType_iff h2).1 h1
  · rename_i h
    constructor
    · rintro rfl; exact ⟨rfl, h⟩
    · rintro ⟨rfl, -⟩; rfl

/-- The settings that a successful command line ends with. -/
theorem validate_finished {E : CmdEnv H} {c c' : Cmd H} (h : validate E c = .ok (some c')) :
    c' = finished c c'.fileType ∧ ∃ o, c.output = some o ∧ OutputType c o c'.fileType := by
  obtain ⟨-, c1, h1, h2, -⟩ := validate_some h
  have k : c1 = { c with dimension := if c.imageType = .Cube ∨ c.imageType = .CubeArray then .Cube
      else c.dimension } := by
    unfold checkKind at h1
    split at h1
    all_goals rename_i ht
    all_goals (repeat' split at h1)
    all_goals simp only [Option.some.injEq, reduceCtorEq] at h1
    all_goals subst h1
    · rw [if_neg (by simp [ht])]
    · rw [if_neg (by simp [ht])]
    · rw [if_pos (by simp [ht])]
    · rw [if_pos (by simp [ht])]
  unfold checkOutput at h2
  split at h2
  · simp at h2
  split at h2
  · simp at h2
  split at h2
  · simp at h2
  rename_i o ho
  dsimp only at h2
  split at h2
  · simp at h2
  rename_i ha
  split at h2
  · simp at h2
  simp only [Option.some.injEq] at h2
  subst h2
  dsimp only
  refine ⟨?_, o, by rw [k] at ho; exact ho, outputType_iff.2 ⟨by rw [k], ha⟩⟩
  unfold finished
  rw [k]
  simp

/-! ### Complete command lines pass the tests -/

theorem levelDepth_pass (depth : ℕ) {level : ℕ} (h : level < 32) :
    levelDepth depth level = .ok (max (depth / 2 ^ level) 1) := by
  unfold levelDepth shr32
  rw [if_pos h, Res.ok_bind, Nat.shiftRight_eq_div_pow]

theorem countLevel_pass {counts : List ℕ} {level : ℕ} (h : level < 32) (hc : counts.length ≤ 32) :
    ∃ r, countLevel counts level = .ok r ∧ r.length ≤ 32 := by
  unfold countLevel
  dsimp only
  have hu : u32 (level + 1) = level + 1 := by unfold u32 pow32; omega
  have hlen : level < (if counts.length ≤ level then vresize counts (u32 (level + 1)) 0 else counts).length ∧
      (if counts.length ≤ level then vresize counts (u32 (level + 1)) 0 else counts).length ≤ 32 := by
    split
    · rw [hu]
      unfold vresize
      simp
      omega
    · omega
  rw [List.getElem?_eq_getElem hlen.1]
  exact ⟨_, rfl, by rw [List.length_set]; exact hlen.2⟩

theorem checkMips_pass {dim : Dimension} {depth : ℕ} : ∀ {is : List ImageIndex} {counts : List ℕ},
    counts.length ≤ 32 →
    (∀ i ∈ is, 1 ≤ i.mipLevel ∧ (dim ≠ .Dim3D → i.depth < depth) ∧
      (dim = .Dim3D → i.mipLevel < 32 ∧ i.depth < max (depth / 2 ^ i.mipLevel) 1)) →
    ∃ r, checkMips dim depth is counts = .ok (some r) ∧ r.length ≤ 32 ∧ (dim ≠ .Dim3D → r = counts)
  | [], counts, hc, _ => ⟨counts, rfl, hc, fun _ => rfl⟩
  | i :: is, counts, hc, h => by
    obtain ⟨h1, h2, h3⟩ := h i List.mem_cons_self
    have h' := fun j hj => h j (List.mem_cons_of_mem _ hj)
    unfold checkMips checkMip
    rw [if_neg (by omega)]
    by_cases hd : dim = .Dim3D
    · obtain ⟨hl, hlt⟩ := h3 hd
      obtain ⟨r, hr, hrl⟩ := countLevel_pass hl hc
      rw [if_pos hd, levelDepth_pass depth hl, Res.ok_bind, hr, Res.ok_bind, Res.ok_bind, if_neg (by omega)]
      obtain ⟨r', e1, e2, -⟩ := checkMips_pass hrl h'
      exact ⟨r', e1, e2, fun hn => absurd hd hn⟩
    · have := h2 hd
      rw [if_neg hd, Res.ok_bind, if_neg (by omega)]
      exact checkMips_pass hc h'

theorem checkCounts_pass {depth : ℕ} : ∀ {l : List ℕ} {i : ℕ}, i + l.length ≤ 32 →
    (∀ k, 0 < l.getD k 0 → l.getD k 0 = max (depth / 2 ^ (i + k)) 1) → checkCounts depth i l = .ok true
  | [], i, _, _ => rfl
  | n :: ns, i, hl, h => by
    simp only [List.length_cons] at hl
    unfold checkCounts
    rw [levelDepth_pass depth (by omega), Res.ok_bind, if_neg]
    · refine checkCounts_pass (by omega) fun k hk => ?_
      have := h (k + 1) (by simpa using hk)
      simp only [List.getD_cons_succ] at this
      rw [this, show i + (k + 1) = i + 1 + k by omega]
    · rintro ⟨h0, hne⟩
      exact hne (h 0 h0)

/-- The number of custom mips of a level that has one for every slice. -/
theorem slices_count {is : List ImageIndex} (hn : is.Nodup) {l D : ℕ}
    (h : ∀ i ∈ is, i.mipLevel = l → i.cubeFace = .PosX ∧ i.depth < D)
    (hall : ∀ s < D, (⟨.PosX, l, s⟩ : ImageIndex) ∈ is) : atLevel is l = D := by
  unfold atLevel
  have hp : (is.filter (fun i => i.mipLevel = l)).Perm
      ((List.range D).map fun s => (⟨.PosX, l, s⟩ : ImageIndex)) := by
    rw [List.perm_ext_iff_of_nodup (hn.filter _)]
    · intro i
      rw [List.mem_filter, List.mem_map]
      constructor
      · rintro ⟨h1, h2⟩
        have h2 : i.mipLevel = l := by simpa using h2
        obtain ⟨h3, h4⟩ := h i h1 h2
        exact ⟨i.depth, List.mem_range.2 h4, by cases i; simp_all⟩
      · rintro ⟨s, hs, rfl⟩
        exact ⟨hall s (List.mem_range.1 hs), by simp⟩
    · refine List.Nodup.map ?_ List.nodup_range
      intro a b e
      simpa using e
  rw [hp.length_eq]
  simp

theorem atLevel_pos {is : List ImageIndex} {l : ℕ} (h : 0 < atLevel is l) : ∃ i ∈ is, i.mipLevel = l := by
  unfold atLevel at h
  obtain ⟨i, hi⟩ := List.exists_mem_of_length_pos h
  rw [List.mem_filter] at hi
  exact ⟨i, hi.1, by simpa using hi.2⟩

/-- A complete command line passes all tests. -/
theorem validate_complete {E : CmdEnv H} {c : Cmd H} {ft : FileType} (hk : Kept c) (h : Complete E.feat c ft) :
    validate E c = .ok (some (finished c ft)) := by
  have k : checkKind c = some { c with dimension := if c.imageType = .Cube ∨ c.imageType = .CubeArray then .Cube
      else c.dimension } := by
    unfold checkKind
    split
    all_goals rename_i ht
    · rw [if_neg (by simpa using h.one ht), if_neg (by simp [ht])]
    · rw [if_neg (by simp [ht])]
    · rw [if_neg (by simpa using h.cube ht), if_neg (by simpa using h.flat (.inl ht)), if_pos (.inl ht)]
    · rw [if_neg (by simpa using Nat.mod_eq_zero_of_dvd (h.cubes ht)), if_neg (by simpa using h.flat (.inr ht)),
        if_pos (.inr ht)]
  obtain ⟨o, ho, hft⟩ := h.output
  obtain ⟨hft1, hft2⟩ := outputType_iff.1 hft
  have hout : checkOutput E { c with dimension := if c.imageType = .Cube ∨ c.imageType = .CubeArray then .Cube
      else c.dimension } = some (finished c ft) := by
    unfold checkOutput
    dsimp only
    rw [if_neg (by
      rw [List.any_eq_true]
      rintro ⟨n, hn, he⟩
      exact h.names n hn (by simpa using he)), if_neg h.format, ho]
    dsimp only
    rw [hft1, if_neg hft2, if_neg (by rw [h.supported]; simp)]
    unfold finished
    simp [ho]
  have hdim : (finished c ft).dimension = .Dim3D ↔ c.dimension = .Dim3D := by
    unfold finished
    dsimp only
    split
    · rename_i hc
      rw [h.flat hc]
      simp
    · rfl
  have hmips : checkCustomMips (finished c ft) = .ok true := by
    unfold checkCustomMips
    have hlen : u32 (finished c ft).images.length = c.images.length := Nat.mod_eq_of_lt h.few.1
    have e1 : (finished c ft).customMips = c.customMips := rfl
    have e2 : (finished c ft).mipLevels = c.mipLevels := rfl
    dsimp only
    rw [hlen, e1, e2, if_neg (by
      simp only [Bool.and_eq_true, decide_eq_true_eq, Bool.not_eq_true', not_and, Bool.not_eq_false]
      intro hm
      by_contra hne
      have := h.mips (by simpa using hne)
      omega)]
    have hpre : ∀ i ∈ c.customMips.map (·.1), 1 ≤ i.mipLevel ∧
        ((finished c ft).dimension ≠ .Dim3D → i.depth < c.images.length) ∧
        ((finished c ft).dimension = .Dim3D → i.mipLevel < 32 ∧
          i.depth < max (c.images.length / 2 ^ i.mipLevel) 1) := by
      intro i hi
      obtain ⟨e, he, rfl⟩ := List.mem_map.1 hi
      refine ⟨h.levels e he, fun hd => h.layers (fun hc => hd (hdim.2 hc)) e he, fun hd => ?_⟩
      obtain ⟨a, -, b, -⟩ := h.slices (hdim.1 hd) e he
      exact ⟨a, b⟩
    obtain ⟨r, hr, hrl, hr2⟩ := checkMips_pass (counts := []) (by simp) hpre
    rw [hr, Res.ok_bind]
    dsimp only
    by_cases hd : c.dimension = .Dim3D
    · have hd' := hdim.2 hd
      have cnt := (checkMips_eq hr).2 hd' 0 (by simp) (by simpa using h.few.2)
      refine checkCounts_pass (by omega) fun k hk0 => ?_
      have ck := cnt k
      simp only [List.getD_nil, Nat.zero_add] at ck
      rw [ck] at hk0 ⊢
      obtain ⟨i, hi, rfl⟩ := atLevel_pos hk0
      obtain ⟨e, he, rfl⟩ := List.mem_map.1 hi
      rw [Nat.zero_add]
      refine slices_count hk.2 ?_ ?_
      · intro j hj hl
        obtain ⟨x, hx, rfl⟩ := List.mem_map.1 hj
        obtain ⟨-, a, b, -⟩ := h.slices hd x hx
        rw [hl] at b
        exact ⟨a, b⟩
      · intro s hs
        obtain ⟨x, hx, hxe⟩ := (h.slices hd e he).2.2.2 s hs
        exact List.mem_map.2 ⟨x, hx, hxe⟩
    · rw [hr2 fun hc => hd (hdim.1 hc)]
      rfl
  unfold validate
  rw [if_neg (by simpa using h.images), k]
  dsimp only
  rw [hout]
  dsimp only
  rw [hmips, Res.ok_bind, if_pos rfl]

end Cuttlefish
