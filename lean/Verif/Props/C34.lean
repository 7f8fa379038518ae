import Verif.Proofs.CommandSafe
import Verif.Proofs.CommandSteps
/-
C34: command line parsing is memory safe.
-/
namespace Cuttlefish
open Spec
variable {H : Type}

theorem levelDepth_ok {depth level : ℕ} (h : level < 32) :
    levelDepth depth level = .ok (max (depth >>> level) 1) := by
  unfold levelDepth shr32
  rw [if_pos h]
  rfl

theorem countLevel_ok {counts : List ℕ} {level : ℕ} (h : level < 32) (hc : counts.length ≤ 32) :
    ∃ r, countLevel counts level = .ok r ∧ r.length ≤ 32 := by
  unfold countLevel
  have hu : u32 (level + 1) = level + 1 := by unfold u32 pow32; omega
  have hl : (if counts.length ≤ level then vresize counts (u32 (level + 1)) 0 else counts).length ≤ 32 ∧
      level < (if counts.length ≤ level then vresize counts (u32 (level + 1)) 0 else counts).length := by
    split
    · rw [vresize_length, hu]; omega
    · omega
  dsimp only
  generalize (if counts.length ≤ level then vresize counts (u32 (level + 1)) 0 else counts) = l at hl ⊢
  rw [List.getElem?_eq_getElem hl.2]
  exact ⟨_, rfl, by rw [List.length_set]; exact hl.1⟩

theorem checkMips_ok (dim : Dimension) (depth : ℕ) : ∀ (is : List ImageIndex) (counts : List ℕ),
    (dim = .Dim3D → ∀ i ∈ is, i.mipLevel < 32) → counts.length ≤ 32 →
    ∃ r, checkMips dim depth is counts = .ok r ∧ ∀ l, r = some l → l.length ≤ 32
  | [], counts, _, hc => ⟨_, rfl, by rintro l e; simp only [Option.some.injEq] at e; exact e ▸ hc⟩
  | i :: is, counts, h, hc => by
    unfold checkMips checkMip
    have ih := checkMips_ok dim depth is
    have h' : dim = .Dim3D → ∀ i ∈ is, i.mipLevel < 32 := fun hd j hj => h hd j (List.mem_cons_of_mem _ hj)
    split
    · exact ⟨_, rfl, by simp⟩
    split
    · rename_i hd
      rw [levelDepth_ok (h hd i List.mem_cons_self), Res.ok_bind]
      obtain ⟨r, e, hr⟩ := countLevel_ok (h hd i List.mem_cons_self) hc
      rw [e, Res.ok_bind, Res.ok_bind]
      split
      · exact ⟨_, rfl, by simp⟩
      · rename_i e2
        split at e2
        · simp at e2
        · simp only [Option.some.injEq] at e2
          exact e2 ▸ ih r h' hr
    · rw [Res.ok_bind]
      split
      · exact ⟨_, rfl, by simp⟩
      · rename_i e2
        split at e2
        · simp at e2
        · simp only [Option.some.injEq] at e2
          exact e2 ▸ ih counts h' hc

theorem checkCounts_ok (depth : ℕ) : ∀ (l : List ℕ) (i : ℕ), i + l.length ≤ 32 →
    ∃ r, checkCounts depth i l = .ok r
  | [], _, _ => ⟨_, rfl⟩
  | n :: ns, i, h => by
    simp only [List.length_cons] at h
    unfold checkCounts
    rw [levelDepth_ok (by omega), Res.ok_bind]
    split
    · exact ⟨_, rfl⟩
    · exact checkCounts_ok depth ns (i + 1) (by omega)

theorem checkKind_eq {c c' : Cmd H} (h : checkKind c = some c') :
    c' = { c with dimension := c'.dimension } ∧ (c'.dimension = c.dimension ∨ c'.dimension = .Cube) := by
  unfold checkKind at h
  split at h
  all_goals (repeat' split at h)
  all_goals simp only [Option.some.injEq, reduceCtorEq] at h
  all_goals subst h
  all_goals simp

theorem checkOutput_eq {E : CmdEnv H} {c c' : Cmd H} (h : checkOutput E c = some c') :
    c' = { c with fileType := c'.fileType, textureColorSpace := c'.textureColorSpace } := by
  unfold checkOutput at h
  split at h
  · simp at h
  split at h
  · simp at h
  split at h
  · simp at h
  dsimp only at h
  split at h
  · simp at h
  split at h
  · simp at h
  · simp only [Option.some.injEq] at h
    rw [← h]

theorem validate_ok {E : CmdEnv H} {c : Cmd H}
    (h : c.dimension = .Dim3D → ∀ e ∈ c.customMips, e.1.mipLevel < 32) : ∃ r, validate E c = .ok r := by
  unfold validate
  split
  · exact ⟨_, rfl⟩
  cases hk : checkKind c with
  | none => exact ⟨_, rfl⟩
  | some c1 =>
    dsimp only
    cases ho : checkOutput E c1 with
    | none => exact ⟨_, rfl⟩
    | some c2 =>
      dsimp only
      obtain ⟨k1, k2⟩ := checkKind_eq hk
      have o1 := checkOutput_eq ho
      have hd : c2.dimension = c1.dimension := by rw [o1]
      have hm : c2.customMips = c.customMips := by rw [o1]; dsimp only; rw [k1]
      have key : c2.dimension = .Dim3D → ∀ i ∈ c2.customMips.map (·.1), i.mipLevel < 32 := by
        intro h3 i hi
        rw [hm] at hi
        obtain ⟨e, he, rfl⟩ := List.mem_map.1 hi
        refine h ?_ e he
        rcases k2 with k2 | k2
        · rw [← k2, ← hd, h3]
        · rw [hd, k2] at h3; simp at h3
      unfold checkCustomMips
      split
      · exact ⟨_, rfl⟩
      · obtain ⟨r, e, hr⟩ := checkMips_ok c2.dimension (u32 c2.images.length) _ [] key (by simp)
        dsimp only
        rw [e, Res.ok_bind]
        cases r with
        | none => exact ⟨_, rfl⟩
        | some l =>
          obtain ⟨b, e2⟩ := checkCounts_ok (u32 c2.images.length) l 0 (by simpa using hr l rfl)
          dsimp only
          rw [e2]
          exact ⟨_, rfl⟩

/-- Parsing ends, reads only arguments that exist and writes only inside the image list, for all
argument vectors in which
* the numbers are below 2^61,
* list files are not combined with cube faces, and
* custom mips of 3D textures have levels below 32.

All contents of list files are covered, as long as they are shorter than 2^61 bytes.

Partial: each of the three conditions is needed, see the theorems `C34_fails_…`. -/
theorem C34_safe_partial (E : CmdEnv H) (argv : List Str) (hne : argv ≠ []) (hargc : argv.length < 2 ^ 31)
    (hf : ∀ n content, E.files n = some content → content.length < 2 ^ 61)
    (hs : ∀ a ∈ argv, SmallNumber a) (hx : NoMix argv) (hl : SmallLevels argv) :
    ∃ r, parseCommandLine E argv = .ok r := by
  have endOk (r : Option (Cmd H)) : ∃ r', parseEnd argv r = .ok r' := by
    cases r with
    | some c => exact ⟨_, rfl⟩
    | none =>
      unfold parseEnd
      dsimp only
      rw [argAt_lt (List.length_pos_iff.2 hne)]
      exact ⟨_, rfl⟩
  unfold parseCommandLine
  split
  · exact endOk none
  split
  · exact endOk none
  obtain ⟨r, e, hr⟩ := safe_loop (E := E) hs hx hf (by omega) argv.length 1 { normalHeight := E.one }
    ⟨by simp, by simp, by simp, by simp, by simp⟩ (by omega)
  rw [e, Res.ok_bind]
  cases r with
  | none => exact ⟨_, rfl⟩
  | some c =>
    dsimp only
    unfold parseValidate
    split
    · rename_i hsucc
      obtain ⟨j, hinv⟩ := hr c rfl hsucc
      have : c.dimension = .Dim3D → ∀ e ∈ c.customMips, e.1.mipLevel < 32 := by
        intro h3
        by_cases h : cstr "3" ∈ argv
        · exact hinv.level h hl
        · exact absurd h3 (hinv.dim h)
      obtain ⟨v, e2⟩ := validate_ok (E := E) this
      rw [e2, Res.ok_bind]
      exact endOk v
    · rw [Res.ok_bind]
      exact endOk none

/-- Texts without a minus sign and with at most 18 characters are small numbers, or no numbers. -/
theorem C34_small (a : Str) (h1 : 45 ∉ a) (h2 : a.length ≤ 18) : SmallNumber a := by
  intro v hv
  have bound : ∀ (l : Str) (v : ℕ), (∀ b ∈ l, isDigitByte b = true) →
      l.foldl (fun v b => 10 * v + (b.toNat - 48)) v < (v + 1) * 10 ^ l.length := by
    intro l
    induction l with
    | nil => intro v _; simp
    | cons b l ih =>
      intro v hd
      have hb := hd b List.mem_cons_self
      unfold isDigitByte at hb
      simp at hb
      refine (ih (10 * v + (b.toNat - 48)) (fun x hx => hd x (List.mem_cons_of_mem _ hx))).trans_le ?_
      rw [List.length_cons, pow_succ]
      have : 10 * v + (b.toNat - 48) + 1 ≤ (v + 1) * 10 := by omega
      calc _ ≤ ((v + 1) * 10) * 10 ^ l.length := Nat.mul_le_mul_right _ this
        _ = _ := by ring
  unfold strtoulAll at hv
  split at hv
  · simp at hv
  · rename_i neg n hsc
    unfold scanNumber at hsc
    split at hsc
    · simp only [Option.some.injEq, Prod.mk.injEq] at hsc
      obtain ⟨rfl, rfl⟩ := hsc
      simp at hv
      omega
    · dsimp only at hsc
      split at hsc
      · simp at hsc
      · rename_i hd
        simp only [Option.some.injEq, Prod.mk.injEq] at hsc
        obtain ⟨e1, e2⟩ := hsc
        simp only [Bool.or_eq_true, Bool.not_eq_true', not_or, Bool.not_eq_false, List.all_eq_true] at hd
        have hsub : ∀ b ∈ a.dropWhile isSpaceByte, b ∈ a := fun b hb =>
          (List.dropWhile_suffix _).subset hb
        have hlen : (a.dropWhile isSpaceByte).length ≤ a.length := (List.dropWhile_suffix _).length_le
        generalize a.dropWhile isSpaceByte = d at *
        have hneg : neg = false ∧ (splitSign d).2.length ≤ d.length := by
          cases d with
          | nil => exact ⟨e1 ▸ rfl, le_rfl⟩
          | cons b bs =>
            unfold splitSign at e1 ⊢
            dsimp only at e1 ⊢
            have hb : b.toNat ≠ 45 := by
              intro h
              apply h1
              have : b = 45 := UInt8.toNat_inj.1 h
              exact this ▸ hsub b List.mem_cons_self
            rw [if_neg (by simpa using hb)] at e1 ⊢
            split at e1
            · rename_i h; rw [if_pos h]; exact ⟨e1.symm, by simp⟩
            · rename_i h; rw [if_neg h]; exact ⟨e1.symm, le_rfl⟩
        have hb := bound (splitSign d).2 0 hd.2
        have : n < 10 ^ 18 := by
          rw [← e2]
          refine hb.trans_le ?_
          rw [Nat.zero_add, Nat.one_mul]
          exact Nat.pow_le_pow_right (by norm_num) (by omega)
        rw [hneg.1] at hv
        rw [if_neg (by omega)] at hv
        simp at hv
        omega

/-! ### Why the conditions are needed -/

/-- A negative index writes outside of the image list. -/
theorem C34_fails_index (E : CmdEnv H) :
    parseCommandLine E [cstr "cuttlefish", cstr "-a", cstr "-1", cstr "a.png"] = .ub := rfl

/-- So does a negative cube index. -/
theorem C34_fails_cube_index (E : CmdEnv H) :
    parseCommandLine E [cstr "cuttlefish", cstr "-C", cstr "-1", cstr "+x", cstr "a.png"] = .ub := rfl

/-- A list with one name for a cube, followed by a cube face: the list has no entry for the face. -/
theorem C34_fails_list (E : CmdEnv H) (h : E.files (cstr "l") = some (cstr "a")) :
    parseCommandLine E [cstr "cuttlefish", cstr "-I", cstr "cube", cstr "l", cstr "-c", cstr "-x",
      cstr "b"] = .ub := by
  have hl : readImageList E.files [] (cstr "l") = .ok (some [cstr "a"]) := by
    unfold readImageList; rw [h]; rfl
  have hstep : parseStep E [cstr "cuttlefish", cstr "-I", cstr "cube", cstr "l", cstr "-c", cstr "-x",
      cstr "b"] 1 { normalHeight := E.one } =
      .ok (.next 3 { normalHeight := E.one, imageType := .Cube, images := [cstr "a"] }) := by
    show (readImageList E.files [] (cstr "l") >>= _) = _
    rw [hl]; rfl
  unfold parseCommandLine
  rw [if_neg (by decide), if_neg (by decide)]
  show ((parseStep E _ 1 _ >>= _) >>= _) = _
  rw [hstep]
  rfl

/-- A custom mip of level 32 of a 3D texture: the depth is shifted by 32 bits. -/
theorem C34_fails_level (E : CmdEnv H) :
    parseCommandLine E [cstr "cuttlefish", cstr "-i", cstr "a", cstr "-f", cstr "R8", cstr "-o",
      cstr "a.dds", cstr "-d", cstr "3", cstr "-m", cstr "-M", cstr "32", cstr "b"] = .ub := by
  unfold parseCommandLine
  rw [if_neg (by decide), if_neg (by decide +kernel)]
  generalize hargv : [cstr "cuttlefish", cstr "-i", cstr "a", cstr "-f", cstr "R8", cstr "-o",
      cstr "a.dds", cstr "-d", cstr "3", cstr "-m", cstr "-M", cstr "32", cstr "b"] = argv
  have hlen : argv.length = 13 := by rw [← hargv]; rfl
  have s1 : parseStep E argv 1 { normalHeight := E.one } =
      .ok (.next 2 { normalHeight := E.one, images := [cstr "a"] }) := by
    subst hargv; exact (at_input E _ rfl rfl).trans rfl
  have s2 (c : Cmd H) : parseStep E argv 3 c = .ok (.next 4 { c with format := .R8 }) := by
    rw [at_format E c (a := cstr "-f") (by subst hargv; rfl) rfl]
    unfold optFormat
    rw [if_neg (by omega), argAt_ok (a := cstr "R8") (by subst hargv; rfl), Res.ok_bind,
      show lookupWord (cstr "R8") (formatNames E.feat) = some .R8 from rfl]
    rfl
  have s3 (c : Cmd H) (hc : c.output = none) :
      parseStep E argv 5 c = .ok (.next 6 { c with output := some (cstr "a.dds") }) := by
    rw [at_output E c (a := cstr "-o") (by subst hargv; rfl) rfl]
    unfold optOutput
    rw [if_neg (by omega), hc, if_neg (by simp), argAt_ok (a := cstr "a.dds") (by subst hargv; rfl)]
    rfl
  have s4 (c : Cmd H) : parseStep E argv 7 c = .ok (.next 8 { c with dimension := .Dim3D }) := by
    subst hargv; exact (at_dimension E _ rfl rfl).trans rfl
  have s5 (c : Cmd H) : parseStep E argv 9 c = .ok (.next 9 { c with mipLevels := pow32 - 1 }) := by
    subst hargv; exact (at_mipmap E _ rfl rfl).trans rfl
  have s6 (c : Cmd H) (hc : c.customMips = []) : parseStep E argv 10 c =
      .ok (.next 12 { c with customMips := [(⟨.PosX, 32, 0⟩, cstr "b", .Continue)] }) := by
    rw [at_customMip E c (a := cstr "-M") (by subst hargv; rfl) rfl]
    unfold optCustomMip
    rw [hc]
    subst hargv
    rfl
  rw [hlen, loop_next (by omega) s1, loop_next (by omega) (s2 _), loop_next (by omega) (s3 _ rfl),
    loop_next (by omega) (s4 _), loop_next (by omega) (s5 _), loop_next (by omega) (s6 _ rfl),
    loop_end (by omega)]
  rfl

/-- Without any argument, not even the program name, the name is read for the message. -/
theorem C34_fails_empty (E : CmdEnv H) : parseCommandLine E [] = .ub := rfl

/-! A command line with several options that meets the conditions. -/

example : let argv := ["cuttlefish", "-a", "1", "a.png", "--array", "b.png", "-m", "3", "box", "-M", "1", "2",
      "once", "c.png", "-f", "BC7", "-o", "out/x.ktx", "-d", "3", "-j"].map cstr
    (∀ a ∈ argv, SmallNumber a) ∧ NoMix argv ∧ SmallLevels argv := by
  refine ⟨?_, .inl ?_, .inr ⟨by decide +kernel, ?_⟩⟩
  · intro a ha v hv
    have : ∀ a ∈ ["cuttlefish", "-a", "1", "a.png", "--array", "b.png", "-m", "3", "box", "-M", "1", "2",
      "once", "c.png", "-f", "BC7", "-o", "out/x.ktx", "-d", "3", "-j"].map cstr,
      (strtoulAll a).all (fun v => decide (v < 2 ^ 61)) = true := by decide +kernel
    have := this a ha
    rw [hv] at this
    simpa using this
  · unfold Uses; decide +kernel
  · intro i o a v ho hm ha hv
    have key : ∀ i < 21, ((["cuttlefish", "-a", "1", "a.png", "--array", "b.png", "-m", "3", "box", "-M", "1",
        "2", "once", "c.png", "-f", "BC7", "-o", "out/x.ktx", "-d", "3", "-j"].map cstr)[i]?.all
          (fun o => matchesArg o "-M" "--custom-mip" = true → ((["cuttlefish", "-a", "1", "a.png", "--array",
        "b.png", "-m", "3", "box", "-M", "1", "2", "once", "c.png", "-f", "BC7", "-o", "out/x.ktx", "-d", "3",
        "-j"].map cstr)[i + 1]?.all (fun a => (strtoulAll a).all (fun v => v % 2 ^ 32 < 32))))) = true := by
      decide +kernel
    have hi : i < 21 := (List.getElem?_eq_some_iff.1 ho).1
    have := key i hi
    rw [ho, ha, Option.all_some, Option.all_some, hv, Option.all_some] at this
    simpa [hm] using this

end Cuttlefish
