import Verif.Proofs.OptionLists
/-
What the parser does with each option.
-/
namespace Cuttlefish
open Spec
variable {H : Type}

/-- The option is refused: the parser fails, or an exception ends the program, or the program has no
meaning. -/
def Refused (x : Res (StepOut H)) : Prop :=
  x = .ub ∨ x = .ok .abort ∨ ∃ c, x = .ok (.stop c) ∧ c.success = false

theorem refused_fail (c : Cmd H) : Refused c.fail := .inr (.inr ⟨_, rfl, rfl⟩)

/-- A pass of the loop does what an option should do. -/
def Does (x : Res (StepOut H)) (n : ℕ) (r : Option (Cmd H)) : Prop :=
  match r with
  | some c' => x = .ok (.next n c')
  | none => Refused x

theorem does_some {x : Res (StepOut H)} {n : ℕ} {c : Cmd H} (h : x = .ok (.next n c)) : Does x n (some c) := h

/-- What follows an option is not one of its arguments. -/
def Follows (E : CmdEnv H) (rest : List Str) : Prop := ∀ a ∈ rest.head?, Separate E a

/-- What is known of the command line while it is parsed. -/
structure Parsing (c : Cmd H) : Prop where
  kind : c.images = [] → c.imageType = .Image
  few : c.images.length < 2 ^ 62

/-! ### Reading arguments -/

theorem readIndex_at (argv : List Str) (i : ℕ) : readIndex argv i =
    .ok (argv[i + 1]?.bind fun a => (strtoulAll a).map fun v => (v, i + 1)) := by
  unfold readIndex
  split
  · rename_i h
    rw [List.getElem?_eq_none h]; rfl
  · rename_i h
    rw [argAt_lt (by omega), List.getElem?_eq_getElem (by omega)]; rfl

theorem readWord_at {α : Type} (argv : List Str) (i : ℕ) (t : List (String × α)) : readWord argv i t =
    .ok (argv[i + 1]?.bind fun a => (lookupWord a t).map fun v => (v, i + 1)) := by
  unfold readWord
  split
  · rename_i h
    rw [List.getElem?_eq_none h]; rfl
  · rename_i h
    rw [argAt_lt (by omega), List.getElem?_eq_getElem (by omega)]; rfl

theorem readSize_at (argv : List Str) (i : ℕ) : readSize argv i =
    .ok (argv[i + 1]?.bind fun a => (sizeArg a).map fun v => (v, i + 1)) := by
  unfold readSize
  split
  · rename_i h
    rw [List.getElem?_eq_none h]; rfl
  · rename_i h
    rw [argAt_lt (by omega), List.getElem?_eq_getElem (by omega)]; rfl

theorem readHeight_at (E : CmdEnv H) (argv : List Str) (i : ℕ) : readHeight E argv i =
    .ok (argv[i + 1]?.bind fun a => (E.strtod a).map fun v => (v, i + 1)) := by
  unfold readHeight
  split
  · rename_i h
    rw [argAt_lt (by omega), List.getElem?_eq_getElem (by omega)]; rfl
  · rename_i h
    rw [List.getElem?_eq_none (by omega)]; rfl

/-- The arguments of an option on the command line. -/
structure Here (argv : List Str) (i : ℕ) (args rest : List Str) : Prop where
  at_ : ∀ k, argv[i + 1 + k]? = (args ++ rest)[k]?
  len : argv.length = i + 1 + args.length + rest.length

theorem here_of {argv : List Str} {i : ℕ} {a : Str} {args rest : List Str}
    (h : argv.drop i = a :: (args ++ rest)) : argv[i]? = some a ∧ Here argv i args rest := by
  have h0 : argv[i]? = some a := by
    have := congrArg (fun l => l[0]?) h
    simpa using this
  refine ⟨h0, ⟨fun k => ?_, ?_⟩⟩
  · have := congrArg (fun l => l[k + 1]?) h
    simp only [List.getElem?_drop, List.getElem?_cons_succ] at this
    rw [← this]
    congr 1; omega
  · have := congrArg List.length h
    simp only [List.length_drop, List.length_cons, List.length_append] at this
    omega

theorem follows_number {E : CmdEnv H} {rest : List Str} (h : Follows E rest) :
    ∀ a ∈ rest.head?, ¬ IsNumber a := fun a ha => (h a ha).1

theorem filter_free {a : Str} (h : ∀ f, ¬ Word (filterName f) a) : lookupWord a filterNames = none := by
  refine lookup_none fun e he => ?_
  simp only [filterNames, List.mem_cons, List.not_mem_nil, or_false] at he
  rcases he with rfl | rfl | rfl | rfl | rfl
  · exact h .Box
  · exact h .Linear
  · exact h .Cubic
  · exact h .CatmullRom
  · exact h .BSpline

theorem follows_filter {E : CmdEnv H} {rest : List Str} (h : Follows E rest) :
    ∀ a ∈ rest.head?, lookupWord a filterNames = none := fun a ha => filter_free (h a ha).2.1

theorem follows_wrap {E : CmdEnv H} {rest : List Str} (h : Follows E rest) :
    ∀ a ∈ rest.head?, lookupWord a wrapNames = none := fun a ha => wrap_free (h a ha).2.2.1

/-! ### The options -/

theorem does_jobs {argv : List Str} {i : ℕ} {rest : List Str} {n : Option ℕ} (c : Cmd H)
    (hn : ∀ k ∈ n, k < 2 ^ 32) (h : Here argv i (maybeNumber n) rest) {E : CmdEnv H} (hf : Follows E rest) :
    optJobs argv i c = .ok (.next (i + (maybeNumber n).length) { c with jobs := n.getD (2 ^ 32 - 1) }) := by
  unfold optJobs
  have h1 := h.at_ 0
  have hl := h.len
  cases n with
  | some k =>
    have : k < 2 ^ 32 := hn k rfl
    rw [if_pos (by simp [maybeNumber] at hl; omega), argAt_ok (a := decimal k) (by simpa [maybeNumber] using h1),
      Res.ok_bind, strtol_small (by omega) (by omega)]
    dsimp only
    have e : toU32 (k : ℤ) = k := by unfold toU32; omega
    rw [e]
    rfl
  | none =>
    split
    · rename_i hi
      rw [argAt_lt hi, Res.ok_bind]
      have hr : argv[i + 1] ∈ rest.head? := by
        rw [Option.mem_def, List.head?_eq_getElem?, ← List.getElem?_eq_getElem]
        simpa [maybeNumber] using h1.symm
      rw [(not_number (follows_number hf _ hr)).2]
      rfl
    · rfl

theorem does_input {argv : List Str} {i : ℕ} {rest : List Str} {f : Str} {c : Cmd H} (hp : Parsing c)
    (h : Here argv i [f] rest) (E : CmdEnv H) :
    Does (optInput argv i c) (i + 1) ((Opt.input f).effect E c) := by
  unfold optInput
  dsimp only [Opt.effect]
  have h1 := h.at_ 0
  have hl := h.len
  by_cases he : c.images = []
  · rw [if_neg (by simp [he]), if_neg (by simp at hl; omega), if_pos he, he,
      argAt_ok (a := f) (by simpa using h1), Res.ok_bind, ← hp.kind he]
    exact rfl
  · rw [if_pos (by simpa using he), if_neg he]
    exact refused_fail c

/-- Putting an image into its place. -/
theorem put_eq {E : CmdEnv H} {c : Cmd H} {grow : Bool} {need k : ℕ} {f : Str} {i : ℕ} {t : ImageType}
    (ht : c.imageType = t) (hg : grow = true → c.images.length ≤ need) :
    Does (putImage E c grow need k f i) i
      (if grow = true → need ≤ E.maxImages then
        (giveName c.images (if grow then need else 0) k f).map fun l => { c with imageType := t, images := l }
      else none) := by
  unfold putImage
  cases grow with
  | true =>
    simp only [forall_const, Bool.true_and, decide_eq_true_eq, if_true]
    by_cases hm : need ≤ E.maxImages
    · rw [if_neg (by omega), if_pos hm]
      unfold giveName vresize
      rw [List.take_of_length_le (hg rfl)]
      dsimp only
      cases hk : (c.images ++ List.replicate (need - c.images.length) [])[k]? with
      | none => rw [if_neg (by simp)]; exact .inl rfl
      | some old =>
        dsimp only
        by_cases ho : old = []
        · subst ho
          rw [if_neg (by simp), if_pos rfl, ← ht]
          exact rfl
        · rw [if_pos (by simpa using ho), if_neg (by simpa using ho)]
          exact refused_fail _
    · rw [if_pos (by omega), if_neg hm]
      exact .inr (.inl rfl)
  | false =>
    simp only [Bool.false_and, Bool.false_eq_true, if_false, false_imp_iff, if_true]
    unfold giveName
    rw [show 0 - c.images.length = 0 by omega, List.replicate_zero, List.append_nil]
    dsimp only
    cases hk : c.images[k]? with
    | none => rw [if_neg (by simp)]; exact .inl rfl
    | some old =>
      dsimp only
      by_cases ho : old = []
      · subst ho
        rw [if_neg (by simp), if_pos rfl, ← ht]
        exact rfl
      · rw [if_pos (by simpa using ho), if_neg (by simpa using ho)]
        exact refused_fail _

/-- The kind of texture is set by the first image. -/
theorem kind_set {c : Cmd H} {t : ImageType} :
    (if c.images.isEmpty then { c with imageType := t } else c).images = c.images ∧
    (mayAdd c t → (if c.images.isEmpty then { c with imageType := t } else c).imageType = t) ∧
    (∀ l : List Str, { (if c.images.isEmpty then { c with imageType := t } else c) with
      imageType := t, images := l } = { c with imageType := t, images := l }) := by
  by_cases h : c.images = []
  · rw [if_pos (by simpa using h)]
    exact ⟨rfl, fun _ => rfl, fun _ => rfl⟩
  · rw [if_neg (by simpa using h)]
    exact ⟨rfl, fun hm => hm.resolve_left h, fun _ => rfl⟩

theorem does_array {E : CmdEnv H} (hE : Ordinary E) {argv : List Str} {i : ℕ} {rest : List Str} {n : Option ℕ}
    {f : Str} {c : Cmd H} (hp : Parsing c) (hf : n = none → ¬ IsNumber f) (hn : ∀ k ∈ n, k < 2 ^ 61)
    (h : Here argv i (maybeNumber n ++ [f]) rest) :
    Does (optArray E argv i c) (i + (maybeNumber n ++ [f]).length) ((Opt.array n f).effect E c) := by
  unfold optArray
  dsimp only [Opt.effect]
  have hl := h.len
  have hk : n.getD c.images.length < 2 ^ 62 := by
    cases n with
    | none => exact hp.few
    | some k => have := hn k rfl; simpa using (by omega : k < 2 ^ 62)
  by_cases hm : mayAdd c .Array
  · have hm' : ¬ ((!c.images.isEmpty && c.imageType != .Array) = true) := by
      rcases hm with hm | hm <;> simp [hm]
    rw [if_neg hm']
    obtain ⟨k1, k2, k3⟩ := kind_set (c := c) (t := .Array)
    generalize (if c.images.isEmpty then { c with imageType := .Array } else c) = c' at k1 k2 k3
    have hidx : arrayIndex argv i c'.images.length =
        .ok (n.getD c.images.length, i + (maybeNumber n).length) := by
      unfold arrayIndex
      rw [k1]
      cases n with
      | some k =>
        have : k < 2 ^ 61 := hn k rfl
        have h1 := h.at_ 0
        simp only [maybeNumber, Option.map_some, Option.toList_some, List.cons_append, List.getElem?_cons_zero,
          Nat.add_zero] at h1
        rw [if_pos (by simp [maybeNumber] at hl; omega), readIndex_at, h1, Option.bind_some,
          strtoul_small (by omega)]
        rfl
      | none =>
        have h1 := h.at_ 0
        simp only [maybeNumber, Option.map_none, Option.toList_none, List.nil_append, List.cons_append,
          List.getElem?_cons_zero, Nat.add_zero] at h1
        split
        · rw [readIndex_at, h1, Option.bind_some, (not_number (hf rfl)).1]
          rfl
        · rfl
    rw [if_neg (by simp at hl; omega), hidx, Res.ok_bind]
    dsimp only
    rw [argAt_ok (a := f) (by
      have := h.at_ (maybeNumber n).length
      rw [List.append_assoc, List.getElem?_append_right (Nat.le_refl _), Nat.sub_self] at this
      rw [show i + (maybeNumber n).length + 1 = i + 1 + (maybeNumber n).length by omega]
      exact this), Res.ok_bind,
      show (n.getD c.images.length + 1) % 2 ^ 64 = n.getD c.images.length + 1 from Nat.mod_eq_of_lt (by omega)]
    have := put_eq (E := E) (c := c') (grow := decide (c'.images.length ≤ n.getD c.images.length))
      (need := n.getD c.images.length + 1) (k := n.getD c.images.length) (f := f)
      (i := i + (maybeNumber n).length + 1) (t := .Array) (k2 hm) (by simp; omega)
    simp only [k3, k1, decide_eq_true_eq] at this
    rw [show i + (maybeNumber n ++ [f]).length = i + (maybeNumber n).length + 1 by simp; omega, k1]
    refine (congrArg (Does _ _) ?_).mpr this
    have hiff : (mayAdd c ImageType.Array ∧ (c.images.length ≤ n.getD c.images.length → n.getD c.images.length < E.maxImages)) ↔
        (c.images.length ≤ n.getD c.images.length → n.getD c.images.length + 1 ≤ E.maxImages) :=
      ⟨fun h => h.2, fun h => ⟨hm, h⟩⟩
    rw [if_congr hiff rfl rfl]
    congr 2
    by_cases hle : c.images.length ≤ n.getD c.images.length
    · rw [if_pos hle]
    · rw [if_neg hle]
      unfold giveName
      rw [show n.getD c.images.length + 1 - c.images.length = 0 by omega, show 0 - c.images.length = 0 by omega]
  · have hm' : (!c.images.isEmpty && c.imageType != .Array) = true := by
      unfold mayAdd at hm
      rw [not_or] at hm
      simpa using hm
    rw [if_pos hm', if_neg (fun e => hm e.1)]
    exact refused_fail c

theorem faceSlot_eq (f : CubeFace) : f.toNat = faceSlot f := by cases f <;> rfl

theorem faceSlot_lt (f : CubeFace) : faceSlot f < 6 := by cases f <;> decide

theorem does_cube {E : CmdEnv H} {argv : List Str} {i : ℕ} {rest : List Str} {face : CubeFace} {w f : Str}
    {c : Cmd H} (hw : Word (faceName face) w) (h : Here argv i [w, f] rest) :
    Does (optCube E argv i c) (i + 2) ((Opt.cube face f).effect E c) := by
  unfold optCube
  dsimp only [Opt.effect]
  have hl := h.len
  have h1 : argv[i + 1]? = some w := h.at_ 0
  have h2 : argv[i + 1 + 1]? = some f := h.at_ 1
  by_cases hm : mayAdd c .Cube
  · have hm' : ¬ ((!c.images.isEmpty && c.imageType != .Cube) = true) := by
      rcases hm with hm | hm <;> simp [hm]
    rw [if_neg hm', if_pos hm, if_neg (by simp at hl; omega), readWord_at, Res.ok_bind, h1, Option.bind_some,
      lookup_word hw, lookup_face]
    dsimp only [Option.map_some]
    rw [argAt_ok h2, Res.ok_bind, faceSlot_eq]
    by_cases he : c.images = []
    · rw [if_pos (by simpa using he), if_pos he]
      have := put_eq (E := E) (c := { c with imageType := .Cube, images := vresize c.images 6 [] }) (grow := false)
        (need := 0) (k := faceSlot face) (f := f) (i := i + 1 + 1) (t := .Cube) rfl (by simp)
      simp only [Bool.false_eq_true, false_imp_iff, if_true, if_false] at this
      refine (congrArg (Does _ _) ?_).mpr this
      congr 1
      rw [he]
      rfl
    · rw [if_neg (by simpa using he), if_neg he]
      have := put_eq (E := E) (c := c) (grow := false)
        (need := 0) (k := faceSlot face) (f := f) (i := i + 1 + 1) (t := .Cube) (hm.resolve_left he) (by simp)
      simpa only [Bool.false_eq_true, false_imp_iff, if_true, if_false] using this
  · have hm' : (!c.images.isEmpty && c.imageType != .Cube) = true := by
      unfold mayAdd at hm
      rw [not_or] at hm
      simpa using hm
    rw [if_pos hm', if_neg hm]
    exact refused_fail c

theorem does_cubeArray {E : CmdEnv H} {argv : List Str} {i : ℕ} {rest : List Str} {n : ℕ} {face : CubeFace}
    {w f : Str} {c : Cmd H} (hn : n < 2 ^ 61) (hw : Word (faceName face) w)
    (h : Here argv i [decimal n, w, f] rest) :
    Does (optCubeArray E argv i c) (i + 3) ((Opt.cubeArray n face f).effect E c) := by
  unfold optCubeArray
  dsimp only [Opt.effect]
  have hl := h.len
  have h1 : argv[i + 1]? = some (decimal n) := h.at_ 0
  have h2 : argv[i + 1 + 1]? = some w := h.at_ 1
  have h3 : argv[i + 1 + 1 + 1]? = some f := h.at_ 2
  have hs := faceSlot_lt face
  by_cases hm : mayAdd c .CubeArray
  · have hm' : ¬ ((!c.images.isEmpty && c.imageType != .CubeArray) = true) := by
      rcases hm with hm | hm <;> simp [hm]
    rw [if_neg hm']
    obtain ⟨k1, k2, k3⟩ := kind_set (c := c) (t := .CubeArray)
    generalize (if c.images.isEmpty then { c with imageType := .CubeArray } else c) = c' at k1 k2 k3
    rw [if_neg (by simp at hl; omega), readIndex_at, Res.ok_bind, h1, Option.bind_some,
      strtoul_small (by omega)]
    dsimp only [Option.map_some]
    rw [readWord_at, Res.ok_bind, h2, Option.bind_some, lookup_word hw, lookup_face]
    dsimp only [Option.map_some]
    rw [argAt_ok h3, Res.ok_bind, faceSlot_eq, Nat.mod_eq_of_lt (by omega : n * 6 < 2 ^ 64),
      Nat.mod_eq_of_lt (by omega : (n + 1) * 6 < 2 ^ 64), Nat.mod_eq_of_lt (by omega : n * 6 + faceSlot face < 2 ^ 64)]
    have := put_eq (E := E) (c := c') (grow := decide (c'.images.length ≤ n * 6))
      (need := (n + 1) * 6) (k := n * 6 + faceSlot face) (f := f) (i := i + 1 + 1 + 1) (t := .CubeArray) (k2 hm)
      (by simp; omega)
    simp only [k3, k1, decide_eq_true_eq] at this
    rw [k1]
    refine (congrArg (Does _ _) ?_).mpr this
    rw [if_congr (and_iff_right hm) rfl rfl]
  · have hm' : (!c.images.isEmpty && c.imageType != .CubeArray) = true := by
      unfold mayAdd at hm
      rw [not_or] at hm
      simpa using hm
    rw [if_pos hm', if_neg (fun e => hm e.1)]
    exact refused_fail c

theorem does_inputList {E : CmdEnv H} {argv : List Str} {i : ℕ} {rest : List Str} {t : ImageType} {w f : Str}
    {c : Cmd H} (hw : Word (listName t) w) (h : Here argv i [w, f] rest) :
    Does (optInputList E argv i c) (i + 2) ((Opt.inputList t f).effect E c) := by
  unfold optInputList
  dsimp only [Opt.effect]
  have hl := h.len
  have h1 : argv[i + 1]? = some w := h.at_ 0
  have h2 : argv[i + 1 + 1]? = some f := h.at_ 1
  by_cases he : c.images = []
  · rw [if_neg (by simp [he]), if_neg (by simp at hl; omega), if_pos he, argAt_ok h1, Res.ok_bind, lookup_word hw,
      lookup_list]
    dsimp only
    rw [argAt_ok h2, Res.ok_bind, he, readList_eq, Res.ok_bind]
    cases E.files f with
    | none => exact refused_fail _
    | some text => exact rfl
  · rw [if_pos (by simpa using he), if_neg he]
    exact refused_fail c

theorem rest_head {argv : List Str} {i : ℕ} {args rest : List Str} (h : Here argv i args rest) :
    argv[i + args.length + 1]? = rest.head? := by
  have := h.at_ args.length
  rw [List.getElem?_append_right (Nat.le_refl _), Nat.sub_self, ← List.head?_eq_getElem?] at this
  rw [← this]
  congr 1; omega

/-- An optional filter at the end of an option. -/
theorem filter_at {argv : List Str} {i : ℕ} {pre fs rest : List Str} {x : Option ResizeFilter}
    (h : Here argv i (pre ++ fs) rest) (hf : MaybeWord filterName x fs) {E : CmdEnv H} (hr : Follows E rest) :
    readWord argv (i + pre.length) filterNames =
      .ok (x.map fun v => (v, i + (pre ++ fs).length)) := by
  rw [readWord_at]
  cases x with
  | none =>
    obtain rfl : fs = [] := hf
    rw [List.append_nil] at h
    rw [rest_head h]
    cases hh : rest.head? with
    | none => rfl
    | some a => rw [Option.bind_some, follows_filter hr a hh]; rfl
  | some v =>
    obtain ⟨w, hw, rfl⟩ := hf
    have := h.at_ pre.length
    rw [List.append_assoc, List.getElem?_append_right (Nat.le_refl _), Nat.sub_self] at this
    rw [show i + pre.length + 1 = i + 1 + pre.length by omega, this]
    simp only [List.cons_append, List.getElem?_cons_zero, Option.bind_some, lookup_word hw, lookup_filter,
      Option.map_some, List.length_append, List.length_cons, List.length_nil]
    congr 3; omega

theorem does_resize {argv : List Str} {i : ℕ} {rest : List Str} {w h : SizeOpt} {x : Option ResizeFilter}
    {a b : Str} {fs : List Str} (c : Cmd H) (ha : SizeText w a) (hb : SizeText h b)
    (hf : MaybeWord filterName x fs) (hh : Here argv i (a :: b :: fs) rest) {E : CmdEnv H} (hr : Follows E rest) :
    optResize argv i c = .ok (.next (i + (a :: b :: fs).length) { c with
      width := sizeCode w, height := sizeCode h, resizeFilter := x.getD c.resizeFilter }) := by
  unfold optResize
  have hl := hh.len
  have h1 : argv[i + 1]? = some a := hh.at_ 0
  have h2 : argv[i + 1 + 1]? = some b := hh.at_ 1
  have hflt : readWord argv (i + 1 + 1) filterNames = _ :=
    filter_at (pre := [a, b]) (fs := fs) hh hf hr
  rw [if_neg (by simp at hl; omega), readSize_at, Res.ok_bind, h1, Option.bind_some, size_text ha]
  dsimp only [Option.map_some]
  rw [readSize_at, Res.ok_bind, h2, Option.bind_some, size_text hb]
  dsimp only [Option.map_some]
  rw [hflt, Res.ok_bind]
  cases x with
  | none =>
    obtain rfl : fs = [] := hf
    rfl
  | some v => rfl

theorem does_mipmap {argv : List Str} {i : ℕ} {rest : List Str} {n : Option ℕ} {x : Option ResizeFilter}
    {fs : List Str} (c : Cmd H) (hn : ∀ k ∈ n, k < 2 ^ 32) (hf : MaybeWord filterName x fs)
    (hh : Here argv i (maybeNumber n ++ fs) rest) {E : CmdEnv H} (hr : Follows E rest) :
    optMipmap argv i c = .ok (.next (i + (maybeNumber n ++ fs).length) { c with
      mipLevels := n.getD (2 ^ 32 - 1), mipFilter := x.getD c.mipFilter }) := by
  unfold optMipmap
  have hlev : mipmapLevels argv i = .ok (n.getD (2 ^ 32 - 1), i + (maybeNumber n).length) := by
    unfold mipmapLevels
    rw [readIndex_at, Res.ok_bind]
    have h1 := hh.at_ 0
    rw [Nat.add_zero] at h1
    rw [h1]
    cases n with
    | some k =>
      have : k < 2 ^ 32 := hn k rfl
      simp only [maybeNumber, Option.map_some, Option.toList_some, List.cons_append, List.getElem?_cons_zero,
        Option.bind_some, strtoul_small (by omega : k < 2 ^ 64), u32_small this]
      rfl
    | none =>
      have hnone : ∀ a, ((maybeNumber none ++ fs) ++ rest)[0]? = some a → strtoulAll a = none := by
        intro a hal
        cases x with
        | none =>
          obtain rfl : fs = [] := hf
          exact (not_number (follows_number hr a (by
            rw [List.head?_eq_getElem?]; simpa [maybeNumber] using hal))).1
        | some v =>
          obtain ⟨w, hw, rfl⟩ := hf
          simp [maybeNumber] at hal
          subst hal
          exact (not_number (filter_not_number hw)).1
      cases hal : ((maybeNumber none ++ fs) ++ rest)[0]? with
      | none => rfl
      | some a => rw [Option.bind_some, hnone a hal]; rfl
  rw [hlev, Res.ok_bind]
  dsimp only
  rw [filter_at hh hf hr, Res.ok_bind]
  cases x with
  | none =>
    obtain rfl : fs = [] := hf
    simp only [List.append_nil]
    rfl
  | some v => rfl

theorem does_customMip {argv : List Str} {i : ℕ} {rest : List Str} {e : MipEntry} {ms : List Str} (c : Cmd H)
    (hms : MipWords e ms) (hu : Unambiguous e e.file) (h : Here argv i (ms ++ [e.file]) rest) (E : CmdEnv H) :
    Does (optCustomMip argv i c) (i + (ms ++ [e.file]).length) ((Opt.customMip e).effect E c) := by
  unfold optCustomMip
  dsimp only [Opt.effect]
  obtain ⟨hlv, hd, fs, rs, hf, hr, rfl⟩ := hms
  have hl := h.len
  have hat : ∀ k, argv[i + 1 + k]? =
      (decimal e.level :: (maybeNumber e.depth ++ (fs ++ (rs ++ (e.file :: rest)))))[k]? := by
    intro k
    have := h.at_ k
    simpa [List.append_assoc] using this
  have hlen1 : (maybeNumber e.depth).length ≤ 1 := by unfold maybeNumber; cases e.depth <;> simp
  rw [if_neg (by simp at hl; omega), readIndex_at, Res.ok_bind, hat 0, List.getElem?_cons_zero, Option.bind_some,
    strtoul_small (by omega)]
  dsimp only [Option.map_some]
  -- depth
  have hdep : orDefault (readIndex argv (i + 1)) 0 (i + 1) =
      .ok (e.depth.getD 0, i + 1 + (maybeNumber e.depth).length) := by
    unfold orDefault
    rw [readIndex_at, Res.ok_bind, show i + 1 + 1 = i + 1 + (0 + 1) by omega, hat (0 + 1),
      List.getElem?_cons_succ]
    cases hd' : e.depth with
    | some d =>
      have : d < 2 ^ 32 := hd d hd'
      simp only [maybeNumber, Option.map_some, Option.toList_some, List.cons_append, List.getElem?_cons_zero,
        Option.bind_some, strtoul_small (by omega : d < 2 ^ 64)]
      rfl
    | none =>
      have hn : ∀ a, (maybeNumber none ++ (fs ++ (rs ++ (e.file :: rest))))[0]? = some a →
          strtoulAll a = none := by
        intro a ha
        cases hf' : e.face with
        | some f =>
          rw [hf'] at hf
          obtain ⟨x, hx, rfl⟩ := hf
          simp [maybeNumber] at ha
          subst ha
          exact (not_number (face_not_number hx)).1
        | none =>
          rw [hf'] at hf
          obtain rfl : fs = [] := hf
          cases hr' : e.replace with
          | some f =>
            rw [hr'] at hr
            obtain ⟨x, hx, rfl⟩ := hr
            simp [maybeNumber] at ha
            subst ha
            exact (not_number (replace_not_number hx)).1
          | none =>
            rw [hr'] at hr
            obtain rfl : rs = [] := hr
            simp [maybeNumber] at ha
            subst ha
            exact (not_number (hu.1 hd' hf' hr')).1
      cases ha : (maybeNumber none ++ (fs ++ (rs ++ (e.file :: rest))))[0]? with
      | none => rfl
      | some a => rw [Option.bind_some, hn a ha]; rfl
  rw [hdep, Res.ok_bind]
  dsimp only
  -- face
  have hface : orDefault (readWord argv (i + 1 + (maybeNumber e.depth).length) cubeFaces) .PosX
      (i + 1 + (maybeNumber e.depth).length) =
      .ok (e.face.getD .PosX, i + 1 + (maybeNumber e.depth).length + fs.length) := by
    unfold orDefault
    rw [readWord_at, Res.ok_bind, Nat.add_assoc (i + 1), hat, List.getElem?_cons_succ,
      List.getElem?_append_right (Nat.le_refl _), Nat.sub_self]
    cases hf' : e.face with
    | some f =>
      rw [hf'] at hf
      obtain ⟨x, hx, rfl⟩ := hf
      rw [List.cons_append, List.getElem?_cons_zero, Option.bind_some, lookup_word hx, lookup_face]
      rfl
    | none =>
      rw [hf'] at hf
      obtain rfl : fs = [] := hf
      have hn : ∀ a, (rs ++ (e.file :: rest))[0]? = some a → lookupWord a cubeFaces = none := by
        intro a ha
        cases hr' : e.replace with
        | some f =>
          rw [hr'] at hr
          obtain ⟨x, hx, rfl⟩ := hr
          simp at ha
          subst ha
          exact replace_not_face hx
        | none =>
          rw [hr'] at hr
          obtain rfl : rs = [] := hr
          simp at ha
          subst ha
          exact face_free (hu.2.1 hf' hr')
      rw [List.nil_append]
      cases ha : (rs ++ (e.file :: rest))[0]? with
      | none => rfl
      | some a => rw [Option.bind_some, hn a ha]; rfl
  rw [hface, Res.ok_bind]
  dsimp only
  -- replacement
  have hrep : orDefault (readWord argv (i + 1 + (maybeNumber e.depth).length + fs.length) mipReplacements) .Continue
      (i + 1 + (maybeNumber e.depth).length + fs.length) =
      .ok (e.replace.getD .Continue, i + 1 + (maybeNumber e.depth).length + fs.length + rs.length) := by
    unfold orDefault
    rw [readWord_at, Res.ok_bind, show i + 1 + (maybeNumber e.depth).length + fs.length + 1 =
        i + 1 + ((maybeNumber e.depth).length + fs.length + 1) by omega, hat, List.getElem?_cons_succ,
      List.getElem?_append_right (by omega), List.getElem?_append_right (by omega),
      show (maybeNumber e.depth).length + fs.length - (maybeNumber e.depth).length - fs.length = 0 by omega]
    cases hr' : e.replace with
    | some f =>
      rw [hr'] at hr
      obtain ⟨x, hx, rfl⟩ := hr
      rw [List.cons_append, List.getElem?_cons_zero, Option.bind_some, lookup_word hx, lookup_replace]
      show Res.ok (f, _) = Res.ok (f, _)
      rw [show i + 1 + ((maybeNumber e.depth).length + fs.length + 1) =
        i + 1 + (maybeNumber e.depth).length + fs.length + [x].length by simp; omega]
    | none =>
      rw [hr'] at hr
      obtain rfl : rs = [] := hr
      rw [List.nil_append, List.getElem?_cons_zero, Option.bind_some, replace_free (hu.2.2 hr')]
      rfl
  rw [hrep, Res.ok_bind]
  dsimp only
  rw [if_neg (by simp at hl; omega), argAt_ok (a := e.file) (by
    rw [show i + 1 + (maybeNumber e.depth).length + fs.length + rs.length + 1 =
        i + 1 + ((maybeNumber e.depth).length + fs.length + rs.length + 1) by omega, hat, List.getElem?_cons_succ,
      List.getElem?_append_right (by omega), List.getElem?_append_right (by omega),
      List.getElem?_append_right (by omega),
      show (maybeNumber e.depth).length + fs.length + rs.length - (maybeNumber e.depth).length - fs.length -
        rs.length = 0 by omega]
    rfl), Res.ok_bind]
  have hdd : e.depth.getD 0 < 2 ^ 32 := by
    cases h : e.depth with
    | none => simp
    | some d => exact hd d h
  rw [emplace_eq, u32_small hlv, u32_small hdd]
  unfold addMip
  dsimp only
  by_cases hin : (⟨e.face.getD .PosX, e.level, e.depth.getD 0⟩ : ImageIndex) ∈ c.customMips.map (·.1)
  · rw [if_pos hin]
    exact refused_fail c
  · rw [if_neg hin]
    show Res.ok _ = Res.ok _
    congr 2
    simp; omega

theorem does_customMipList {E : CmdEnv H} {argv : List Str} {i : ℕ} {rest : List Str} {f text : Str}
    {es : List MipEntry} (c : Cmd H) (hf : E.files f = some text) (ht : MipText es text)
    (h : Here argv i [f] rest) :
    Does (optCustomMipList E argv i c) (i + 1) ((Opt.customMipList f es).effect E c) := by
  unfold optCustomMipList
  dsimp only [Opt.effect]
  have hl := h.len
  have h1 : argv[i + 1]? = some f := h.at_ 0
  rw [if_neg (by simp at hl; omega), argAt_ok h1, Res.ok_bind, readMips_eq hf ht, Res.ok_bind]
  cases addMips c.customMips es with
  | none => exact refused_fail c
  | some m => exact rfl

theorem rotation_turnOf (d : ℤ) : rotation d = turnOf d := by
  unfold rotation turnOf
  rcases Int.lt_or_le 0 d with hp | hp
  · rw [Int.tmod_eq_emod_of_nonneg hp.le]
    by_cases h90 : d % 90 = 0
    · simp only [h90, ne_eq, not_true_eq_false, if_false]
      have hq : Int.tdiv d 90 = d / 90 := Int.tdiv_eq_ediv_of_nonneg hp.le
      have hm : Int.tmod (d / 90) 4 = (d / 90) % 4 := Int.tmod_eq_emod_of_nonneg (by omega)
      rw [hq, hm]
      have : (d / 90) % 4 = 0 ∨ (d / 90) % 4 = 1 ∨ (d / 90) % 4 = 2 ∨ (d / 90) % 4 = 3 := by omega
      rcases this with h | h | h | h
      · rw [if_neg (by omega), if_neg (by omega), if_neg (by omega), if_pos (by omega), if_pos (by omega)]
      · rw [if_neg (by omega), if_neg (by omega), if_neg (by omega), if_neg (by omega), if_pos (by omega),
          if_neg (by omega), if_pos hp, if_pos (by omega)]
      · rw [if_neg (by omega), if_neg (by omega), if_neg (by omega), if_neg (by omega), if_neg (by omega),
          if_pos (by omega), if_neg (by omega), if_pos hp, if_neg (by omega), if_pos (by omega)]
      · rw [if_neg (by omega), if_neg (by omega), if_neg (by omega), if_neg (by omega), if_neg (by omega),
          if_neg (by omega), if_pos (by omega), if_neg (by omega), if_pos hp, if_neg (by omega), if_neg (by omega)]
    · rw [if_pos h90, if_pos h90]
  · obtain ⟨m, rfl⟩ : ∃ m : ℤ, d = -m := ⟨-d, by omega⟩
    have hm0 : 0 ≤ m := by omega
    rw [Int.neg_tmod, Int.tmod_eq_emod_of_nonneg hm0]
    by_cases h90 : m % 90 = 0
    · have h91 : -m % 90 = 0 := by omega
      simp only [h90, h91, ne_eq, neg_zero, not_true_eq_false, if_false]
      have hq : Int.tdiv (-m) 90 = -(m / 90) := by rw [Int.neg_tdiv, Int.tdiv_eq_ediv_of_nonneg hm0]
      have hm : Int.tmod (-(m / 90)) 4 = -((m / 90) % 4) := by
        rw [Int.neg_tmod, Int.tmod_eq_emod_of_nonneg (by omega)]
      rw [hq, hm]
      have : (m / 90) % 4 = 0 ∨ (m / 90) % 4 = 1 ∨ (m / 90) % 4 = 2 ∨ (m / 90) % 4 = 3 := by omega
      rcases this with h | h | h | h
      · rw [if_neg (by omega), if_neg (by omega), if_neg (by omega), if_pos (by omega), if_pos (by omega)]
      · rw [if_neg (by omega), if_neg (by omega), if_pos (by omega), if_neg (by omega), if_neg (by omega),
          if_pos (by omega)]
      · rw [if_neg (by omega), if_pos (by omega), if_neg (by omega), if_neg (by omega), if_neg (by omega),
          if_pos (by omega)]
      · rw [if_pos (by omega), if_neg (by omega), if_neg (by omega), if_neg (by omega), if_neg (by omega)]
    · rw [if_pos (by omega), if_pos (by omega)]

theorem does_rotate {argv : List Str} {i : ℕ} {rest : List Str} {d : ℤ} (c : Cmd H) (h1 : -2 ^ 63 ≤ d)
    (h2 : d < 2 ^ 63) (h : Here argv i [decimal d] rest) (E : CmdEnv H) :
    Does (optRotate argv i c) (i + 1) ((Opt.rotate d).effect E c) := by
  unfold optRotate
  dsimp only [Opt.effect]
  have hl := h.len
  have ha : argv[i + 1]? = some (decimal d) := h.at_ 0
  rw [if_neg (by simp at hl; omega), argAt_ok ha, Res.ok_bind]
  unfold rotateArg
  rw [strtol_small h1 h2]
  dsimp only
  rw [rotation_turnOf]
  rcases turnOf d with _ | _ | a
  · exact refused_fail c
  · exact rfl
  · exact rfl

/-- The optional wrapping of a normal map. -/
theorem wrap_at {argv : List Str} {i : ℕ} {us post : List Str} {x : Option (Bool × Bool)} (o : NormalOptions)
    (hat : ∀ k, argv[i + 1 + k]? = (us ++ post)[k]?) (hx : x ≠ some (false, false))
    (hf : MaybeWord wrapName x us)
    (hp : ∀ a ∈ post.head?, lookupWord a wrapNames = none) :
    orDefault (readWord argv i wrapNames) o i =
      .ok ((x.map fun w => { wrapX := w.1, wrapY := w.2 }).getD o, i + us.length) := by
  unfold orDefault
  have h0 := hat 0
  rw [Nat.add_zero] at h0
  rw [readWord_at, Res.ok_bind, h0]
  cases x with
  | none =>
    obtain rfl : us = [] := hf
    rw [List.nil_append, ← List.head?_eq_getElem?]
    cases hh : post.head? with
    | none => rfl
    | some a => rw [Option.bind_some, hp a hh]; rfl
  | some v =>
    obtain ⟨w, hw, rfl⟩ := hf
    rw [List.cons_append, List.getElem?_cons_zero, Option.bind_some, lookup_word hw,
      lookup_wrap v (fun e => hx (by rw [e]))]
    rfl

theorem does_normalMap {E : CmdEnv H} {argv : List Str} {i : ℕ} {args rest : List Str}
    {x : Option (Bool × Bool)} {y : Option H} (c : Cmd H) (ha : (Opt.normalMap x y).Args E args)
    (h : Here argv i args rest) (hr : Follows E rest) :
    Does (optNormalMap E argv i c) (i + args.length) ((Opt.normalMap x y).effect E c) := by
  unfold optNormalMap
  dsimp only [Opt.effect]
  cases y with
  | none =>
    obtain ⟨hx, hw⟩ := ha
    rw [wrap_at c.normalOptions h.at_ hx hw (follows_wrap hr), Res.ok_bind]
    dsimp only
    unfold orDefault
    rw [readHeight_at, Res.ok_bind, rest_head h]
    cases hh : rest.head? with
    | none => exact rfl
    | some a =>
      rw [Option.bind_some, (hr a hh).2.2.2]
      exact rfl
  | some v =>
    obtain ⟨hx, us, a, hw, hs, hfree, rfl⟩ := ha
    have hat : ∀ k, argv[i + 1 + k]? = (us ++ (a :: rest))[k]? := by
      intro k
      have := h.at_ k
      rwa [List.append_assoc] at this
    rw [wrap_at c.normalOptions hat hx hw (by
      intro b hb
      obtain rfl : a = b := by simpa using hb
      exact wrap_free hfree), Res.ok_bind]
    dsimp only
    unfold orDefault
    rw [readHeight_at, Res.ok_bind, show i + us.length + 1 = i + 1 + us.length by omega, hat,
      List.getElem?_append_right (Nat.le_refl _), Nat.sub_self, List.getElem?_cons_zero, Option.bind_some, hs]
    show Res.ok _ = Res.ok _
    congr 2
    simp; omega

theorem does_swizzle {argv : List Str} {i : ℕ} {rest : List Str} {r g b a : Channel} {l1 l2 l3 l4 : UInt8}
    (c : Cmd H) (h1 : ChannelLetter r l1) (h2 : ChannelLetter g l2) (h3 : ChannelLetter b l3)
    (h4 : ChannelLetter a l4) (h : Here argv i [[l1, l2, l3, l4]] rest) (E : CmdEnv H) :
    Does (optSwizzle argv i c) (i + 1) ((Opt.swizzle r g b a).effect E c) := by
  unfold optSwizzle
  dsimp only [Opt.effect]
  have hl := h.len
  have ha : argv[i + 1]? = some [l1, l2, l3, l4] := h.at_ 0
  rw [if_neg (by simp at hl; omega), argAt_ok ha, Res.ok_bind]
  have hs : swizzleArg [l1, l2, l3, l4] = some (r, g, b, a) := by
    unfold swizzleArg
    dsimp only
    rw [channel_letter h1, channel_letter h2, channel_letter h3, channel_letter h4]
    rfl
  rw [hs]
  have hm : ∀ x : Channel, (x != .None) = decide (x ≠ .None) := by intro x; cases x <;> rfl
  have hmask : maskAfter c.colorMask r g b a =
      { r := c.colorMask.r && decide (r ≠ .None), g := c.colorMask.g && decide (g ≠ .None),
        b := c.colorMask.b && decide (b ≠ .None), a := c.colorMask.a && decide (a ≠ .None) } := by
    unfold maskAfter
    simp only [hm]
  show Res.ok _ = Res.ok _
  rw [hmask]
  congr 3
  refine if_congr ?_ rfl rfl
  cases c.alphaSet <;> cases c.colorMask.a <;> simp

theorem does_word {α : Type} {argv : List Str} {i : ℕ} {rest : List Str} {w : Str} (c : Cmd H)
    {find : Str → Option α} {set : α → Cmd H} {v : α} (hv : find w = some v) (h : Here argv i [w] rest) :
    optWord argv i c find set = .ok (.next (i + 1) (set v)) := by
  unfold optWord
  have hl := h.len
  have ha : argv[i + 1]? = some w := h.at_ 0
  rw [if_neg (by simp at hl; omega), argAt_ok ha, Res.ok_bind, hv]

theorem does_format {E : CmdEnv H} {argv : List Str} {i : ℕ} {rest : List Str} {f : Format} {w : Str}
    (c : Cmd H) (hf : inBuild E.feat f) (hw : Word (formatName f) w) (h : Here argv i [w] rest) :
    Does (optFormat E argv i c) (i + 1) ((Opt.format f).effect E c) := by
  unfold optFormat
  dsimp only [Opt.effect]
  have hl := h.len
  have ha : argv[i + 1]? = some w := h.at_ 0
  rw [if_neg (by simp at hl; omega), argAt_ok ha, Res.ok_bind, lookup_word hw, lookup_format E.feat f hf]
  dsimp only [Option.getD_some]
  rw [if_neg (by rintro rfl; exact hf)]
  exact rfl

theorem does_output {argv : List Str} {i : ℕ} {rest : List Str} {f : Str} (c : Cmd H)
    (h : Here argv i [f] rest) (E : CmdEnv H) :
    Does (optOutput argv i c) (i + 1) ((Opt.output f).effect E c) := by
  unfold optOutput
  dsimp only [Opt.effect]
  have hl := h.len
  have ha : argv[i + 1]? = some f := h.at_ 0
  rw [if_neg (by simp at hl; omega)]
  by_cases ho : c.output = none
  · rw [if_neg (by simp [ho]), argAt_ok ha, Res.ok_bind, if_pos ho]
    exact rfl
  · rw [if_pos (by simpa [Option.isSome_iff_ne_none] using ho), if_neg ho]
    exact refused_fail c

end Cuttlefish
