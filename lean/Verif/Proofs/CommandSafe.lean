import Verif.Proofs.CommandLine
/-
The command line parser ends and stays inside its arrays.
-/
namespace Cuttlefish
open Spec
variable {H : Type}

/-! ### Streams -/

/-- What is left to do with a stream. -/
def TextStream.left (s : TextStream) : ℕ := s.rest.length + (if s.good then 1 else 0)

theorem get_left (s : TextStream) : s.get.2.left ≤ s.left ∧ (s.good = true → s.get.2.left < s.left) := by
  unfold TextStream.get
  rcases s with ⟨rest, good⟩
  cases good <;> cases rest <;> simp [TextStream.left]

theorem get_rest {s s' : TextStream} {b : UInt8} (h : s.get = (some b, s')) :
    s'.rest.length + 1 = s.rest.length ∧ s.good = true := by
  unfold TextStream.get at h
  rcases s with ⟨rest, good⟩
  cases good <;> cases rest <;> simp at h
  obtain ⟨rfl, rfl⟩ := h
  simp

theorem readUntil_ok : ∀ (fuel : ℕ) (out : Str) (s : TextStream) (delims : Str), s.rest.length < fuel →
    ∃ r, readUntilChar fuel out s delims = .ok r ∧ r.2.2.left ≤ s.left ∧
      (s.good = true → r.2.2.left < s.left)
  | 0, _, _, _, h => by omega
  | fuel + 1, out, s, delims, h => by
    unfold readUntilChar
    have hl := get_left s
    rcases hg : s.get with ⟨o, s'⟩
    rw [hg] at hl
    cases o with
    | none => exact ⟨_, rfl, hl⟩
    | some b =>
      obtain ⟨h1, h2⟩ := get_rest hg
      dsimp only
      split
      · exact ⟨_, rfl, hl⟩
      · obtain ⟨r, e, a, b'⟩ := readUntil_ok fuel (out ++ [b]) s' delims (by omega)
        dsimp only at hl
        refine ⟨r, e, by omega, fun hgd => ?_⟩
        have := hl.2 hgd
        omega

theorem nextToken_ok : ∀ (fuel : ℕ) (out : Str) (s : TextStream) (delims terms : Str) (last : Option UInt8),
    s.left < fuel → ∃ r, nextTokenLoop fuel out s delims terms last = .ok r ∧ r.2.2.left ≤ s.left ∧
      (s.good = true → (∃ l, last = some l ∧ isCharInStr l terms = false) → r.2.2.left < s.left)
  | 0, _, _, _, _, _, h => by omega
  | fuel + 1, out, s, delims, terms, last, h => by
    unfold nextTokenLoop
    cases last with
    | none => exact ⟨_, rfl, le_rfl, by rintro - ⟨l, h, -⟩; simp at h⟩
    | some l =>
      dsimp only
      split
      · rename_i hc
        refine ⟨_, rfl, le_rfl, ?_⟩
        rintro hg ⟨l', hl', ht⟩
        simp only [Option.some.injEq] at hl'
        subst hl'
        simp [hg, ht] at hc
      · rename_i hc
        have hg : s.good = true := by
          rcases hs : s.good with _ | _
          · simp [hs] at hc
          · rfl
        obtain ⟨r, e, a, b⟩ := readUntil_ok (s.rest.length + 1) out s delims (by omega)
        rw [e, Res.ok_bind]
        have b' := b hg
        split
        · exact ⟨r, rfl, a, fun _ _ => b'⟩
        · obtain ⟨r2, e2, a2, -⟩ := nextToken_ok fuel r.2.1 r.2.2 delims terms r.1 (by omega)
          exact ⟨r2, e2, by omega, fun _ _ => by omega⟩

theorem readNextToken_ok (out : Str) (s : TextStream) (delims terms : Str) (last : Option UInt8)
    (app : Bool) : ∃ r, readNextToken out s delims terms last app = .ok r ∧ r.2.2.left ≤ s.left ∧
      (s.good = true → (∃ l, last = some l ∧ isCharInStr l terms = false) → r.2.2.left < s.left) := by
  unfold readNextToken
  apply nextToken_ok
  unfold TextStream.left
  split <;> omega

theorem imageList_ok : ∀ (fuel : ℕ) (images : List Str) (s : TextStream), s.left < fuel →
    ∃ l, imageListLoop fuel images s = .ok l ∧ l.length ≤ images.length + s.left
  | 0, _, _, h => by omega
  | fuel + 1, images, s, h => by
    unfold imageListLoop
    split
    · exact ⟨_, rfl, by omega⟩
    · rename_i hg
      obtain ⟨r, e, -, b⟩ := readUntil_ok (s.rest.length + 1) [] s newlines (by omega)
      rw [e, Res.ok_bind]
      have := b (by simpa using hg)
      obtain ⟨l, e2, hl⟩ := imageList_ok fuel (if r.2.1.isEmpty then images else images ++ [r.2.1]) r.2.2
        (by omega)
      refine ⟨l, e2, hl.trans ?_⟩
      split <;> simp <;> omega

theorem readImageList_ok (files : Str → Option Str) (images : List Str) (name : Str) :
    ∃ r, readImageList files images name = .ok r ∧ ∀ l, r = some l →
      ∃ content, files name = some content ∧ l.length ≤ images.length + content.length + 1 := by
  unfold readImageList
  cases files name with
  | none => exact ⟨_, rfl, by simp⟩
  | some content =>
    obtain ⟨l, e, hl⟩ := imageList_ok (content.length + 2) images ⟨content, true⟩ (by simp [TextStream.left])
    dsimp only
    rw [e]
    refine ⟨_, rfl, ?_⟩
    intro l' e'
    simp only [Option.some.injEq] at e'
    subst e'
    exact ⟨content, rfl, by simp [TextStream.left] at hl; omega⟩

theorem optionalToken_ok {α : Type} (v : Option α) (d : α) (out : Str) (s : TextStream)
    (last : Option UInt8) : ∃ r, optionalToken v d out s last = .ok r ∧ r.2.2.2.left ≤ s.left := by
  unfold optionalToken
  cases v with
  | none => exact ⟨_, rfl, le_rfl⟩
  | some a =>
    obtain ⟨r, e, h, -⟩ := readNextToken_ok out s whitespace newlines last false
    dsimp only
    rw [e]
    exact ⟨_, rfl, h⟩

theorem customMipLine_ok (m : CustomMipFiles) (level : ℕ) (out : Str) (s : TextStream)
    (last : Option UInt8) : ∃ r, customMipLine m level out s last = .ok r ∧
      ∀ m' s', r = some (m', s') → s'.left ≤ s.left := by
  unfold customMipLine
  obtain ⟨r, e, h, -⟩ := readNextToken_ok out s whitespace newlines last false
  rw [e, Res.ok_bind]
  obtain ⟨d, e2, h2⟩ := optionalToken_ok (strtoulAll r.2.1) 0 r.2.1 r.2.2 r.1
  rw [e2, Res.ok_bind]
  obtain ⟨f, e3, h3⟩ := optionalToken_ok (lookupWord (cString d.2.2.1) cubeFaces) .PosX d.2.2.1 d.2.2.2 d.2.1
  rw [e3, Res.ok_bind]
  obtain ⟨p, e4, h4⟩ := optionalToken_ok (lookupWord (cString f.2.2.1) mipReplacements) .Continue f.2.2.1
    f.2.2.2 f.2.1
  rw [e4, Res.ok_bind]
  obtain ⟨n, e5, h5, -⟩ := readNextToken_ok p.2.2.1 p.2.2.2 newlines newlines p.2.1 true
  rw [e5, Res.ok_bind]
  split
  · exact ⟨_, rfl, by simp⟩
  · refine ⟨_, rfl, ?_⟩
    intro m' s' hm
    simp only [Option.map_eq_some_iff, Prod.mk.injEq] at hm
    obtain ⟨_, -, -, rfl⟩ := hm
    omega

theorem customMipLoop_ok : ∀ (fuel : ℕ) (m : CustomMipFiles) (s : TextStream), s.left < fuel →
    ∃ r, customMipLoop fuel m s = .ok r
  | 0, _, _, h => by omega
  | fuel + 1, m, s, h => by
    unfold customMipLoop
    split
    · exact ⟨_, rfl⟩
    · rename_i hg
      obtain ⟨r, e, -, b⟩ := readNextToken_ok [] s whitespace newlines (some 0) false
      rw [e, Res.ok_bind]
      have hlt := b (by simpa using hg) ⟨0, rfl, by decide⟩
      split
      · exact customMipLoop_ok fuel m r.2.2 (by omega)
      · cases strtoulAll r.2.1 with
        | none => exact ⟨_, rfl⟩
        | some level =>
          dsimp only
          obtain ⟨l, e2, h2⟩ := customMipLine_ok m level r.2.1 r.2.2 r.1
          rw [e2, Res.ok_bind]
          cases l with
          | none => exact ⟨_, rfl⟩
          | some p =>
            have := h2 p.1 p.2 rfl
            exact customMipLoop_ok fuel p.1 p.2 (by omega)

theorem readCustomMipList_ok (files : Str → Option Str) (m : CustomMipFiles) (name : Str) :
    ∃ r, readCustomMipList files m name = .ok r := by
  unfold readCustomMipList
  cases files name with
  | none => exact ⟨_, rfl⟩
  | some content => exact customMipLoop_ok _ _ _ (by simp [TextStream.left])

/-! ### Arguments -/

theorem argAt_lt {argv : List Str} {i : ℕ} (h : i < argv.length) : argAt argv i = .ok argv[i] := by
  unfold argAt
  rw [List.getElem?_eq_getElem h]

theorem readIndex_ok (argv : List Str) (i : ℕ) : ∃ o, readIndex argv i = .ok o ∧
    ∀ v i', o = some (v, i') → i' = i + 1 ∧ ∃ h : i + 1 < argv.length, strtoulAll argv[i + 1] = some v := by
  unfold readIndex
  split
  · exact ⟨_, rfl, by simp⟩
  · rename_i h
    rw [argAt_lt (by omega), Res.ok_bind]
    refine ⟨_, rfl, ?_⟩
    intro v i' e
    simp only [Option.map_eq_some_iff, Prod.mk.injEq] at e
    obtain ⟨_, e1, rfl, rfl⟩ := e
    exact ⟨rfl, by omega, e1⟩

theorem readWord_ok {α : Type} (argv : List Str) (i : ℕ) (t : List (String × α)) :
    ∃ o, readWord argv i t = .ok o ∧ ∀ v i', o = some (v, i') → i' = i + 1 ∧ i + 1 < argv.length := by
  unfold readWord
  split
  · exact ⟨_, rfl, by simp⟩
  · rename_i h
    rw [argAt_lt (by omega), Res.ok_bind]
    refine ⟨_, rfl, ?_⟩
    intro v i' e
    simp only [Option.map_eq_some_iff, Prod.mk.injEq] at e
    obtain ⟨_, e1, rfl, rfl⟩ := e
    exact ⟨rfl, by omega⟩

theorem readSize_ok (argv : List Str) (i : ℕ) :
    ∃ o, readSize argv i = .ok o ∧ ∀ v i', o = some (v, i') → i' = i + 1 ∧ i + 1 < argv.length := by
  unfold readSize
  split
  · exact ⟨_, rfl, by simp⟩
  · rename_i h
    rw [argAt_lt (by omega), Res.ok_bind]
    refine ⟨_, rfl, ?_⟩
    intro v i' e
    simp only [Option.map_eq_some_iff, Prod.mk.injEq] at e
    obtain ⟨_, e1, rfl, rfl⟩ := e
    exact ⟨rfl, by omega⟩

theorem readHeight_ok (E : CmdEnv H) (argv : List Str) (i : ℕ) :
    ∃ o, readHeight E argv i = .ok o ∧ ∀ v i', o = some (v, i') → i' = i + 1 ∧ i + 1 < argv.length := by
  unfold readHeight
  split
  · rename_i h
    rw [argAt_lt (by omega), Res.ok_bind]
    refine ⟨_, rfl, ?_⟩
    intro v i' e
    simp only [Option.map_eq_some_iff, Prod.mk.injEq] at e
    obtain ⟨_, e1, rfl, rfl⟩ := e
    exact ⟨rfl, by omega⟩
  · exact ⟨_, rfl, by simp⟩

theorem orDefault_ok {α : Type} {r : Res (Option (α × ℕ))} {argv : List Str} {i : ℕ} (d : α)
    (hi : i < argv.length) (h : ∃ o, r = .ok o ∧ ∀ v i', o = some (v, i') → i' = i + 1 ∧ i + 1 < argv.length) :
    ∃ v, orDefault r d i = .ok v ∧ i ≤ v.2 ∧ v.2 < argv.length := by
  obtain ⟨o, rfl, h⟩ := h
  unfold orDefault
  cases o with
  | none => exact ⟨_, rfl, le_rfl, hi⟩
  | some v =>
    obtain ⟨v, i'⟩ := v
    obtain ⟨rfl, h2⟩ := h v i' rfl
    exact ⟨_, rfl, by simp, h2⟩

theorem vresize_length {α : Type} (l : List α) (n : ℕ) (d : α) : (vresize l n d).length = n := by
  unfold vresize; simp; omega

/-- What the loop keeps: the images fit the kind as long as no list file is used, the dimension is
not 3D if `3` is not an argument, and the custom mips have small levels. -/
structure LoopInv (argv : List Str) (i : ℕ) (c : Cmd H) : Prop where
  len : c.images.length ≤ 6 * (2 ^ 61 + 1) + i
  cube : ¬ Uses argv "-I" "--input-list" → c.imageType = .Cube → c.images.length = 6
  cubes : ¬ Uses argv "-I" "--input-list" → c.imageType = .CubeArray →
    0 < c.images.length ∧ 6 ∣ c.images.length
  dim : cstr "3" ∉ argv → c.dimension ≠ .Dim3D
  level : cstr "3" ∈ argv → SmallLevels argv → ∀ e ∈ c.customMips, e.1.mipLevel < 32

/-- A pass of the loop that is safe and keeps the invariant. -/
def SafeStep (argv : List Str) (i : ℕ) (r : Res (StepOut H)) : Prop :=
  ∃ o, r = .ok o ∧ match o with
    | .next i' c' => i ≤ i' ∧ i' < argv.length ∧ LoopInv argv i' c'
    | .stop c' => c'.success = false
    | .abort => True

theorem safe_fail {argv : List Str} {i : ℕ} (c : Cmd H) : SafeStep argv i c.fail :=
  ⟨_, rfl, rfl⟩

/-- An option that changes other fields only. -/
theorem safe_next {argv : List Str} {i i' : ℕ} {c c' : Cmd H} (h : LoopInv argv i c) (h1 : i ≤ i')
    (h2 : i' < argv.length) (e1 : c'.imageType = c.imageType) (e2 : c'.images = c.images)
    (e3 : c'.dimension = c.dimension) (e4 : c'.customMips = c.customMips) :
    SafeStep argv i (.ok (.next i' c')) := by
  refine ⟨_, rfl, ?_⟩
  refine ⟨h1, h2, ?_, ?_, ?_, ?_, ?_⟩
  · rw [e2]; exact h.len.trans (by omega)
  · rw [e1, e2]; exact h.cube
  · rw [e1, e2]; exact h.cubes
  · rw [e3]; exact h.dim
  · rw [e4]; exact h.level

theorem safe_jobs {argv : List Str} {i : ℕ} {c : Cmd H} (h : LoopInv argv i c) (hi : i < argv.length) :
    SafeStep argv i (optJobs argv i c) := by
  unfold optJobs
  split
  · rw [argAt_lt (by omega), Res.ok_bind]
    split
    · exact safe_next h (by omega) (by omega) rfl rfl rfl rfl
    · exact safe_next h le_rfl hi rfl rfl rfl rfl
  · exact safe_next h le_rfl hi rfl rfl rfl rfl

theorem safe_input {argv : List Str} {i : ℕ} {c : Cmd H} (h : LoopInv argv i c) (hi : i < argv.length) :
    SafeStep argv i (optInput argv i c) := by
  unfold optInput
  split
  · exact safe_fail c
  split
  · exact safe_fail c
  · rename_i he hl
    rw [argAt_lt (by omega), Res.ok_bind]
    have hnil : c.images = [] := by simpa using he
    refine ⟨_, rfl, ?_⟩
    refine ⟨by omega, by omega, by simp [hnil]; omega, ?_, ?_, h.dim, h.level⟩
    · intro hu ht
      have := h.cube hu ht
      rw [hnil] at this; simp at this
    · intro hu ht
      have := (h.cubes hu ht).1
      rw [hnil] at this; simp at this

/-- Storing an image inside the array. -/
theorem safe_put {E : CmdEnv H} {argv : List Str} {i i' : ℕ} {c : Cmd H} {grow : Bool} {need index : ℕ}
    {file : Str} (h1 : i ≤ i') (h2 : i' < argv.length)
    (hx : index < (if grow then need else c.images.length))
    (hinv : ∀ images : List Str, images.length = (if grow then need else c.images.length) →
      LoopInv argv i' { c with images }) :
    SafeStep argv i (putImage E c grow need index file i') := by
  unfold putImage
  split
  · exact ⟨_, rfl, trivial⟩
  · have hlen : (if grow = true then vresize c.images need [] else c.images).length =
        (if grow then need else c.images.length) := by
      split
      · exact vresize_length _ _ _
      · rfl
    dsimp only
    generalize (if grow = true then vresize c.images need [] else c.images) = images at hlen ⊢
    rw [List.getElem?_eq_getElem (by rw [hlen]; exact hx)]
    dsimp only
    split
    · exact safe_fail _
    · refine ⟨_, rfl, ?_⟩
      exact ⟨h1, h2, hinv _ (by rw [List.length_set, hlen])⟩

theorem small_bound {argv : List Str} (hs : ∀ a ∈ argv, SmallNumber a) {i v : ℕ} (h : i < argv.length)
    (hv : strtoulAll argv[i] = some v) : v < 2 ^ 61 := hs _ (List.getElem_mem h) v hv

theorem arrayIndex_ok {argv : List Str} (hs : ∀ a ∈ argv, SmallNumber a) {i n : ℕ}
    (hi : i + 1 < argv.length) : ∃ r, arrayIndex argv i n = .ok r ∧ i ≤ r.2 ∧ r.2 + 1 < argv.length ∧
      (r.1 = n ∨ r.1 < 2 ^ 61) := by
  unfold arrayIndex
  split
  · rename_i h
    obtain ⟨o, e, ho⟩ := readIndex_ok argv i
    rw [e, Res.ok_bind]
    cases o with
    | none => exact ⟨_, rfl, le_rfl, hi, .inl rfl⟩
    | some p =>
      obtain ⟨v, i'⟩ := p
      obtain ⟨rfl, hl, hv⟩ := ho v i' rfl
      exact ⟨_, rfl, by simp, by simpa using h, .inr (small_bound hs hl hv)⟩
  · exact ⟨_, rfl, le_rfl, hi, .inl rfl⟩

theorem safe_array {E : CmdEnv H} {argv : List Str} (hs : ∀ a ∈ argv, SmallNumber a)
    {i : ℕ} {c : Cmd H} (hi : i < 2 ^ 32) (h : LoopInv argv i c) :
    SafeStep argv i (optArray E argv i c) := by
  unfold optArray
  split
  · exact safe_fail c
  · rename_i hk
    set c2 : Cmd H := if c.images.isEmpty = true then { c with imageType := .Array } else c with hc2
    have ht : c2.imageType = .Array := by
      rw [hc2]
      split
      · rfl
      · rename_i he
        simpa [he] using hk
    have him : c2.images = c.images := by rw [hc2]; split <;> rfl
    have hdim : c2.dimension = c.dimension := by rw [hc2]; split <;> rfl
    have hcm : c2.customMips = c.customMips := by rw [hc2]; split <;> rfl
    dsimp only
    split
    · exact safe_fail c2
    · rename_i hl
      obtain ⟨r, e, a1, a2, a3⟩ := arrayIndex_ok (n := c2.images.length) hs (i := i) (by omega)
      rw [e, Res.ok_bind, argAt_lt a2, Res.ok_bind]
      have hmod : (r.1 + 1) % 2 ^ 64 = r.1 + 1 := by
        have := h.len
        rw [him] at a3
        apply Nat.mod_eq_of_lt; omega
      refine safe_put (by omega) a2 ?_ ?_
      · rw [hmod]
        split
        · omega
        · rename_i hg
          simpa using hg
      · intro images hi
        have hl := h.len
        refine ⟨?_, ?_, ?_, ?_, ?_⟩
        · dsimp only
          rw [hi, hmod, him] 
          rw [him] at a3
          split <;> omega
        · intro _ h'; simp [ht] at h'
        · intro _ h'; simp [ht] at h'
        · simpa [hdim] using h.dim
        · simpa [hcm] using h.level

theorem face_lt (f : CubeFace) : f.toNat < 6 := by cases f <;> decide

theorem safe_cube {E : CmdEnv H} {argv : List Str} {i : ℕ} {c : Cmd H} (h : LoopInv argv i c)
    (hu : ¬ Uses argv "-I" "--input-list") : SafeStep argv i (optCube E argv i c) := by
  unfold optCube
  split
  · exact safe_fail c
  · rename_i hk
    set c2 : Cmd H := if c.images.isEmpty = true then
      { c with imageType := .Cube, images := vresize c.images 6 [] } else c with hc2
    have hlen : c2.images.length = 6 := by
      rw [hc2]
      split
      · exact vresize_length _ _ _
      · rename_i he
        exact h.cube hu (by simpa [he] using hk)
    have ht : c2.imageType = .Cube := by
      rw [hc2]
      split
      · rfl
      · rename_i he
        simpa [he] using hk
    have hdim : c2.dimension = c.dimension := by rw [hc2]; split <;> rfl
    have hcm : c2.customMips = c.customMips := by rw [hc2]; split <;> rfl
    dsimp only
    split
    · exact safe_fail c2
    · rename_i hl
      obtain ⟨o, e, ho⟩ := readWord_ok argv i cubeFaces
      rw [e, Res.ok_bind]
      cases o with
      | none => exact safe_fail c2
      | some p =>
        obtain ⟨face, i'⟩ := p
        obtain ⟨rfl, h2⟩ := ho face i' rfl
        dsimp only
        rw [argAt_lt (show i + 1 + 1 < argv.length by omega), Res.ok_bind]
        refine safe_put (by omega) (by omega) ?_ ?_
        · simpa [hlen] using face_lt face
        · intro images hi
          refine ⟨?_, ?_, ?_, ?_, ?_⟩
          · have : images.length = 6 := by simpa [hlen] using hi
            dsimp only; omega
          · intro _ _; simpa [hlen] using hi
          · intro _ h'; simp [ht] at h'
          · simpa [hdim] using h.dim
          · simpa [hcm] using h.level

theorem safe_cubes {E : CmdEnv H} {argv : List Str} (hs : ∀ a ∈ argv, SmallNumber a) {i : ℕ} {c : Cmd H}
    (h : LoopInv argv i c) (hu : ¬ Uses argv "-I" "--input-list") :
    SafeStep argv i (optCubeArray E argv i c) := by
  unfold optCubeArray
  split
  · exact safe_fail c
  · rename_i hk
    set c2 : Cmd H := if c.images.isEmpty = true then { c with imageType := .CubeArray } else c with hc2
    have hdvd : 6 ∣ c2.images.length := by
      rw [hc2]
      split
      · rename_i he
        have : c.images = [] := by simpa using he
        simp [this]
      · rename_i he
        exact (h.cubes hu (by simpa [he] using hk)).2
    have ht : c2.imageType = .CubeArray := by
      rw [hc2]
      split
      · rfl
      · rename_i he
        simpa [he] using hk
    have hdim : c2.dimension = c.dimension := by rw [hc2]; split <;> rfl
    have hcm : c2.customMips = c.customMips := by rw [hc2]; split <;> rfl
    dsimp only
    split
    · exact safe_fail c2
    · rename_i hl
      obtain ⟨o, e, ho⟩ := readIndex_ok argv i
      rw [e, Res.ok_bind]
      cases o with
      | none => exact safe_fail c2
      | some p =>
        obtain ⟨n, i1⟩ := p
        obtain ⟨rfl, hl1, hv⟩ := ho n i1 rfl
        have hn := small_bound hs hl1 hv
        dsimp only
        obtain ⟨o2, e2, ho2⟩ := readWord_ok argv (i + 1) cubeFaces
        rw [e2, Res.ok_bind]
        cases o2 with
        | none => exact safe_fail c2
        | some p2 =>
          obtain ⟨face, i'⟩ := p2
          obtain ⟨rfl, h2⟩ := ho2 face i' rfl
          dsimp only
          rw [argAt_lt (show i + 1 + 1 + 1 < argv.length by omega), Res.ok_bind]
          have hf := face_lt face
          have m1 : n * 6 % 2 ^ 64 = n * 6 := Nat.mod_eq_of_lt (by omega)
          have m2 : (n + 1) * 6 % 2 ^ 64 = (n + 1) * 6 := Nat.mod_eq_of_lt (by omega)
          have m3 : (n * 6 + face.toNat) % 2 ^ 64 = n * 6 + face.toNat := Nat.mod_eq_of_lt (by omega)
          rw [m1, m2, m3]
          obtain ⟨k, hk⟩ := hdvd
          refine safe_put (by omega) (by omega) ?_ ?_
          · split
            · omega
            · rename_i hg
              have hg : ¬ c2.images.length ≤ n * 6 := by simpa using hg
              omega
          · intro images hi
            have : 0 < images.length ∧ 6 ∣ images.length := by
              rw [hi]
              split
              · omega
              · rename_i hg
                have hg : ¬ c2.images.length ≤ n * 6 := by simpa using hg
                omega
            have hl' := h.len
            refine ⟨?_, ?_, ?_, ?_, ?_⟩
            · dsimp only
              rw [hi]
              have : c2.images.length = c.images.length := by rw [hc2]; split <;> rfl
              split <;> omega
            · intro _ h'; simp [ht] at h'
            · intro _ _; exact this
            · simpa [hdim] using h.dim
            · simpa [hcm] using h.level

theorem safe_inputList {E : CmdEnv H} {argv : List Str} {i : ℕ} {c : Cmd H} (h : LoopInv argv i c)
    (hf : ∀ n content, E.files n = some content → content.length < 2 ^ 61)
    (hu : Uses argv "-I" "--input-list") : SafeStep argv i (optInputList E argv i c) := by
  unfold optInputList
  split
  · exact safe_fail c
  rename_i hnil
  split
  · exact safe_fail c
  · rename_i hl
    rw [argAt_lt (show i + 1 < argv.length by omega), Res.ok_bind]
    split
    · exact safe_fail c
    · rw [argAt_lt (show i + 2 < argv.length by omega), Res.ok_bind]
      obtain ⟨o, e, hlen⟩ := readImageList_ok E.files c.images argv[i + 2]
      rw [e, Res.ok_bind]
      cases o with
      | none => exact safe_fail _
      | some images =>
        refine ⟨_, rfl, ?_⟩
        refine ⟨by omega, by omega, ?_, fun h' => absurd hu h', fun h' => absurd hu h', h.dim, h.level⟩
        obtain ⟨content, hc, hl2⟩ := hlen images rfl
        have := hf _ _ hc
        have hz : c.images = [] := by simpa using hnil
        rw [hz, List.length_nil] at hl2
        dsimp only
        omega

theorem safe_resize {argv : List Str} {i : ℕ} {c : Cmd H} (h : LoopInv argv i c) :
    SafeStep argv i (optResize argv i c) := by
  unfold optResize
  split
  · exact safe_fail c
  · obtain ⟨o, e, ho⟩ := readSize_ok argv i
    rw [e, Res.ok_bind]
    cases o with
    | none => exact safe_fail c
    | some p =>
      obtain ⟨w, i1⟩ := p
      obtain ⟨rfl, h1⟩ := ho w i1 rfl
      dsimp only
      obtain ⟨o, e, ho⟩ := readSize_ok argv (i + 1)
      rw [e, Res.ok_bind]
      cases o with
      | none => exact safe_fail _
      | some p =>
        obtain ⟨w, i1⟩ := p
        obtain ⟨rfl, h1⟩ := ho w i1 rfl
        dsimp only
        obtain ⟨o, e, ho⟩ := readWord_ok argv (i + 1 + 1) filterNames
        rw [e, Res.ok_bind]
        cases o with
        | none => exact safe_next h (by omega) (by omega) rfl rfl rfl rfl
        | some p =>
          obtain ⟨w, i1⟩ := p
          obtain ⟨rfl, h1⟩ := ho w i1 rfl
          exact safe_next h (by omega) (by omega) rfl rfl rfl rfl

theorem mipmapLevels_ok (argv : List Str) {i : ℕ} (hi : i < argv.length) :
    ∃ r, mipmapLevels argv i = .ok r ∧ i ≤ r.2 ∧ r.2 < argv.length := by
  unfold mipmapLevels
  obtain ⟨o, e, ho⟩ := readIndex_ok argv i
  rw [e, Res.ok_bind]
  cases o with
  | none => exact ⟨_, rfl, le_rfl, hi⟩
  | some p =>
    obtain ⟨v, i'⟩ := p
    obtain ⟨rfl, h, -⟩ := ho v i' rfl
    exact ⟨_, rfl, by simp, h⟩

theorem safe_mipmap {argv : List Str} {i : ℕ} {c : Cmd H} (h : LoopInv argv i c) (hi : i < argv.length) :
    SafeStep argv i (optMipmap argv i c) := by
  unfold optMipmap
  obtain ⟨r, e, a1, a2⟩ := mipmapLevels_ok argv hi
  rw [e, Res.ok_bind]
  obtain ⟨o, e, ho⟩ := readWord_ok argv r.2 filterNames
  rw [e, Res.ok_bind]
  cases o with
  | none => exact safe_next h a1 a2 rfl rfl rfl rfl
  | some p =>
    obtain ⟨w, i1⟩ := p
    obtain ⟨rfl, h1⟩ := ho w i1 rfl
    exact safe_next h (by omega) (by omega) rfl rfl rfl rfl

theorem mem_emplace {m m' : CustomMipFiles} {x : ImageIndex} {f : Str} {r : MipReplacement}
    (h : m.emplace x f r = some m') : m' = m ++ [(x, f, r)] ∧ ∀ e ∈ m, e.1 ≠ x := by
  unfold CustomMipFiles.emplace at h
  split at h
  · simp at h
  · rename_i hc
    simp only [Option.some.injEq] at h
    refine ⟨h.symm, ?_⟩
    intro e he hx
    apply hc
    rw [List.any_eq_true]
    exact ⟨e, he, by simp [hx]⟩

theorem safe_customMip {argv : List Str} {i : ℕ} {c : Cmd H} (h : LoopInv argv i c)
    (hi : i < argv.length) (ho : matchesArg argv[i] "-M" "--custom-mip" = true) :
    SafeStep argv i (optCustomMip argv i c) := by
  unfold optCustomMip
  split
  · exact safe_fail c
  · obtain ⟨o, e, hl⟩ := readIndex_ok argv i
    rw [e, Res.ok_bind]
    cases o with
    | none => exact safe_fail c
    | some p =>
      obtain ⟨level, i1⟩ := p
      obtain ⟨rfl, h1, hv⟩ := hl level i1 rfl
      dsimp only
      have weak (j : ℕ) : ∃ o, readIndex argv j = .ok o ∧
          ∀ v i', o = some (v, i') → i' = j + 1 ∧ j + 1 < argv.length := by
        obtain ⟨o, e, h⟩ := readIndex_ok argv j
        exact ⟨o, e, fun v i' hvi => ⟨(h v i' hvi).1, (h v i' hvi).2.1⟩⟩
      obtain ⟨d, e, d1, d2⟩ := orDefault_ok 0 h1 (weak (i + 1))
      rw [e, Res.ok_bind]
      obtain ⟨f, e, f1, f2⟩ := orDefault_ok .PosX d2 (readWord_ok argv d.2 cubeFaces)
      rw [e, Res.ok_bind]
      obtain ⟨p, e, p1, p2⟩ := orDefault_ok .Continue f2 (readWord_ok argv f.2 mipReplacements)
      rw [e, Res.ok_bind]
      split
      · exact safe_fail c
      · rw [argAt_lt (show p.2 + 1 < argv.length by omega), Res.ok_bind]
        cases hm : c.customMips.emplace ⟨f.1, u32 level, u32 d.1⟩ argv[p.2 + 1] p.1 with
        | none => exact safe_fail c
        | some m =>
          refine ⟨_, rfl, ?_⟩
          refine ⟨by omega, by omega, h.len.trans (by omega), h.cube, h.cubes, h.dim, ?_⟩
          intro h3 hsl e he
          rw [(mem_emplace hm).1] at he
          rcases List.mem_append.1 he with he | he
          · exact h.level h3 hsl e he
          · simp only [List.mem_singleton] at he
            subst he
            rcases hsl with hsl | ⟨-, hsl⟩
            · exact absurd h3 hsl
            · have := hsl i _ _ level (List.getElem?_eq_getElem hi) ho (List.getElem?_eq_getElem h1) hv
              unfold u32 pow32
              simpa using this

theorem safe_customMipList {E : CmdEnv H} {argv : List Str} {i : ℕ} {c : Cmd H} (h : LoopInv argv i c)
    (hi : i < argv.length) (ho : argv[i] = cstr "--custom-mip-list") :
    SafeStep argv i (optCustomMipList E argv i c) := by
  unfold optCustomMipList
  split
  · exact safe_fail c
  · rename_i hl
    rw [argAt_lt (show i + 1 < argv.length by omega), Res.ok_bind]
    obtain ⟨o, e⟩ := readCustomMipList_ok E.files c.customMips argv[i + 1]
    rw [e, Res.ok_bind]
    cases o with
    | none => exact safe_fail c
    | some m =>
      refine ⟨_, rfl, ?_⟩
      refine ⟨by omega, by omega, h.len.trans (by omega), h.cube, h.cubes, h.dim, ?_⟩
      intro h3 hsl
      rcases hsl with hsl | ⟨hsl, -⟩
      · exact absurd h3 hsl
      · exact absurd (ho ▸ List.getElem_mem hi) hsl

theorem safe_rotate {argv : List Str} {i : ℕ} {c : Cmd H} (h : LoopInv argv i c) :
    SafeStep argv i (optRotate argv i c) := by
  unfold optRotate
  split
  · exact safe_fail c
  · rw [argAt_lt (show i + 1 < argv.length by omega), Res.ok_bind]
    split
    · exact safe_fail c
    · exact safe_next h (by omega) (by omega) rfl rfl rfl rfl
    · exact safe_next h (by omega) (by omega) rfl rfl rfl rfl

theorem safe_normalMap {E : CmdEnv H} {argv : List Str} {i : ℕ} {c : Cmd H} (h : LoopInv argv i c)
    (hi : i < argv.length) : SafeStep argv i (optNormalMap E argv i c) := by
  unfold optNormalMap
  obtain ⟨w, e, w1, w2⟩ := orDefault_ok c.normalOptions hi (readWord_ok argv i wrapNames)
  rw [e, Res.ok_bind]
  obtain ⟨d, e, d1, d2⟩ := orDefault_ok c.normalHeight w2 (readHeight_ok E argv w.2)
  rw [e, Res.ok_bind]
  exact safe_next h (by omega) (by omega) rfl rfl rfl rfl

theorem safe_swizzle {argv : List Str} {i : ℕ} {c : Cmd H} (h : LoopInv argv i c) :
    SafeStep argv i (optSwizzle argv i c) := by
  unfold optSwizzle
  split
  · exact safe_fail c
  · rw [argAt_lt (show i + 1 < argv.length by omega), Res.ok_bind]
    split
    · exact safe_fail c
    · exact safe_next h (by omega) (by omega) rfl rfl rfl rfl

theorem safe_word {α : Type} {argv : List Str} {i : ℕ} {c : Cmd H} {find : Str → Option α}
    {set : α → Cmd H} (h : ∀ a ∈ argv, ∀ v, find a = some v → LoopInv argv (i + 1) (set v)) :
    SafeStep argv i (optWord argv i c find set) := by
  unfold optWord
  split
  · exact safe_fail c
  · rw [argAt_lt (show i + 1 < argv.length by omega), Res.ok_bind]
    cases hf : find argv[i + 1] with
    | none => exact safe_fail c
    | some v =>
      refine ⟨_, rfl, ?_⟩
      exact ⟨by omega, by omega, h _ (List.getElem_mem _) v hf⟩

theorem safe_format {E : CmdEnv H} {argv : List Str} {i : ℕ} {c : Cmd H} (h : LoopInv argv i c) :
    SafeStep argv i (optFormat E argv i c) := by
  unfold optFormat
  split
  · exact safe_fail c
  · rw [argAt_lt (show i + 1 < argv.length by omega), Res.ok_bind]
    dsimp only
    split
    · exact safe_fail c
    · exact safe_next h (by omega) (by omega) rfl rfl rfl rfl

theorem safe_output {argv : List Str} {i : ℕ} {c : Cmd H} (h : LoopInv argv i c) :
    SafeStep argv i (optOutput argv i c) := by
  unfold optOutput
  split
  · exact safe_fail c
  split
  · exact safe_fail c
  · rw [argAt_lt (show i + 1 < argv.length by omega), Res.ok_bind]
    exact safe_next h (by omega) (by omega) rfl rfl rfl rfl

theorem LoopInv.same {argv : List Str} {i i' : ℕ} {c c' : Cmd H} (h : LoopInv argv i c) (hi : i ≤ i')
    (e1 : c'.imageType = c.imageType) (e2 : c'.images = c.images) (e3 : c'.dimension = c.dimension)
    (e4 : c'.customMips = c.customMips) : LoopInv argv i' c' :=
  ⟨by rw [e2]; exact h.len.trans (by omega), by rw [e1, e2]; exact h.cube, by rw [e1, e2]; exact h.cubes, by rw [e3]; exact h.dim,
    by rw [e4]; exact h.level⟩

theorem uses_of {argv : List Str} {i : ℕ} {a b : String} (hi : i < argv.length)
    (h : matchesArg argv[i] a b = true) : Uses argv a b := by
  unfold matchesArg at h
  simp only [Bool.or_eq_true, beq_iff_eq] at h
  rcases h with h | h
  · exact .inl (h ▸ List.getElem_mem hi)
  · exact .inr (h ▸ List.getElem_mem hi)

theorem safe_ite {argv : List Str} {i : ℕ} {p : Prop} [Decidable p] {a b : Res (StepOut H)}
    (h1 : p → SafeStep argv i a) (h2 : ¬ p → SafeStep argv i b) : SafeStep argv i (if p then a else b) := by
  by_cases h : p
  · rw [if_pos h]; exact h1 h
  · rw [if_neg h]; exact h2 h

/-- One pass of the loop. -/
theorem safe_step {E : CmdEnv H} {argv : List Str} (hs : ∀ a ∈ argv, SmallNumber a) (hx : NoMix argv)
    (hf : ∀ n content, E.files n = some content → content.length < 2 ^ 61)
    (hargc : argv.length < 2 ^ 32) {i : ℕ} {c : Cmd H} (h : LoopInv argv i c) (hi : i < argv.length) :
    SafeStep argv i (parseStep E argv i c) := by
  unfold parseStep
  rw [argAt_lt hi, Res.ok_bind]
  unfold parseBody
  have same (c' : Cmd H) (e1 : c'.imageType = c.imageType) (e2 : c'.images = c.images)
    (e3 : c'.dimension = c.dimension) (e4 : c'.customMips = c.customMips) :
    SafeStep argv i (.ok (.next i c')) := safe_next h le_rfl hi e1 e2 e3 e4
  refine safe_ite (fun _ => safe_jobs h hi) fun _ => ?_
  refine safe_ite (fun _ => same _ rfl rfl rfl rfl) fun _ => ?_
  refine safe_ite (fun _ => same _ rfl rfl rfl rfl) fun _ => ?_
  refine safe_ite (fun _ => safe_input h hi) fun _ => ?_
  refine safe_ite (fun _ => safe_array hs (by omega) h) fun _ => ?_
  refine safe_ite (fun hc =>
    safe_cube h (hx.resolve_right (fun hn => hn.1 (uses_of hi hc)))) fun _ => ?_
  refine safe_ite (fun hc =>
    safe_cubes hs h (hx.resolve_right (fun hn => hn.2 (uses_of hi hc)))) fun _ => ?_
  refine safe_ite (fun hc => safe_inputList h hf (uses_of hi hc)) fun _ => ?_
  refine safe_ite (fun _ => safe_resize h) fun _ => ?_
  refine safe_ite (fun _ => safe_mipmap h hi) fun _ => ?_
  refine safe_ite (fun hc => safe_customMip h hi hc) fun _ => ?_
  refine safe_ite (fun hc => safe_customMipList h hi (by simpa using hc)) fun _ => ?_
  refine safe_ite (fun _ => same _ rfl rfl rfl rfl) fun _ => ?_
  refine safe_ite (fun _ => same _ rfl rfl rfl rfl) fun _ => ?_
  refine safe_ite (fun _ => safe_rotate h) fun _ => ?_
  refine safe_ite (fun _ => safe_normalMap h hi) fun _ => ?_
  refine safe_ite (fun _ => same _ rfl rfl rfl rfl) fun _ => ?_
  refine safe_ite (fun _ => safe_swizzle h) fun _ => ?_
  refine safe_ite (fun _ => same _ rfl rfl rfl rfl) fun _ => ?_
  refine safe_ite (fun _ => same _ rfl rfl rfl rfl) fun _ => ?_
  refine safe_ite (fun _ => safe_word fun a ha v hv =>
    ⟨h.len.trans (by omega), h.cube, h.cubes, ?_, h.level⟩) fun _ => ?_
  · intro h3 hd
    unfold dimensionArg at hv
    dsimp only at hd
    subst hd
    split at hv
    · simp at hv
    split at hv
    · simp at hv
    split at hv
    · rename_i h'
      have h' : a = cstr "3" := by simpa using h'
      exact h3 (h' ▸ ha)
    · simp at hv
  refine safe_ite (fun _ => safe_format h) fun _ => ?_
  refine safe_ite (fun _ => safe_word fun a ha v hv => h.same (by omega) rfl rfl rfl rfl) fun _ => ?_
  refine safe_ite (fun _ => safe_word fun a ha v hv => h.same (by omega) rfl rfl rfl rfl) fun _ => ?_
  refine safe_ite (fun _ => safe_word fun a ha v hv => h.same (by omega) rfl rfl rfl rfl) fun _ => ?_
  refine safe_ite (fun _ => safe_output h) fun _ => ?_
  refine safe_ite (fun _ => safe_word fun a ha v hv => h.same (by omega) rfl rfl rfl rfl) fun _ => ?_
  exact safe_ite (fun _ => same _ rfl rfl rfl rfl) fun _ => same _ rfl rfl rfl rfl

/-- The whole loop. -/
theorem safe_loop {E : CmdEnv H} {argv : List Str} (hs : ∀ a ∈ argv, SmallNumber a) (hx : NoMix argv)
    (hf : ∀ n content, E.files n = some content → content.length < 2 ^ 61)
    (hargc : argv.length < 2 ^ 32) : ∀ (fuel i : ℕ) (c : Cmd H), LoopInv argv i c →
    argv.length ≤ fuel + i → ∃ r, parseLoop E argv fuel i c = .ok r ∧
      ∀ c', r = some c' → c'.success = true → ∃ j, LoopInv argv j c'
  | 0, i, c, h, hfu => by
    unfold parseLoop
    rw [if_pos (by omega)]
    exact ⟨_, rfl, by rintro c' hc -; simp only [Option.some.injEq] at hc; exact ⟨i, hc ▸ h⟩⟩
  | fuel + 1, i, c, h, hfu => by
    unfold parseLoop
    by_cases hi : argv.length ≤ i
    · rw [if_pos hi]
      exact ⟨_, rfl, by rintro c' hc -; simp only [Option.some.injEq] at hc; exact ⟨i, hc ▸ h⟩⟩
    · rw [if_neg hi]
      obtain ⟨o, e, ho⟩ := safe_step (E := E) hs hx hf hargc h (by omega)
      dsimp only
      rw [e, Res.ok_bind]
      cases o with
      | next i' c' =>
        obtain ⟨h1, h2, h3⟩ := ho
        exact safe_loop hs hx hf hargc fuel (i' + 1) c' (h3.same (by omega) rfl rfl rfl rfl) (by omega)
      | stop c' =>
        refine ⟨_, rfl, ?_⟩
        rintro d hd hs
        simp only [Option.some.injEq] at hd
        subst hd
        rw [show c'.success = false from ho] at hs
        simp at hs
      | abort => exact ⟨_, rfl, by simp⟩

end Cuttlefish
