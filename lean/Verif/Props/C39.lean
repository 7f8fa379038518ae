import Verif.Spec.Directory
import Mathlib.Data.List.Range
/-
C39: creation of the output directory.
-/
namespace Cuttlefish
open Spec
variable {σ π : Type}

/-- The positions of the separators from a position on. -/
def separators (path : Str) (start : ℕ) : List ℕ :=
  (List.range path.length).filter (fun k => decide (start ≤ k) && decide (path[k]? = some 47))

theorem separators_find (path : Str) (start : ℕ) :
    findSeparator path start = (separators path start).head? := by
  unfold findSeparator separators
  rw [List.head?_filter]

theorem filter_range_step {p : ℕ → Bool} {n start k : ℕ} {ks : List ℕ}
    (h : (List.range n).filter (fun i => decide (start ≤ i) && p i) = k :: ks) :
    ks = (List.range n).filter (fun i => decide (k + 1 ≤ i) && p i) ∧ k < n ∧ start ≤ k ∧ p k = true := by
  have hs : ((List.range n).filter (fun i => decide (start ≤ i) && p i)).Pairwise (· < ·) :=
    List.Pairwise.filter _ List.pairwise_lt_range
  have hm : k ∈ (List.range n).filter (fun i => decide (start ≤ i) && p i) := by rw [h]; simp
  simp only [List.mem_filter, List.mem_range, Bool.and_eq_true, decide_eq_true_eq] at hm
  refine ⟨?_, hm.1, hm.2.1, hm.2.2⟩
  rw [h, List.pairwise_cons] at hs
  have e : (List.range n).filter (fun i => decide (k + 1 ≤ i) && p i) =
      ((List.range n).filter (fun i => decide (start ≤ i) && p i)).filter (fun i => decide (k + 1 ≤ i)) := by
    rw [List.filter_filter]
    congr 1
    funext i
    by_cases hi : k + 1 ≤ i
    · have : start ≤ i := by omega
      simp [hi, this]
    · simp [hi]
  rw [e, h, List.filter_cons, if_neg (by simp)]
  symm
  rw [List.filter_eq_self]
  intro a ha
  exact decide_eq_true (hs.1 a ha)

theorem cString_set {path : Str} {k : ℕ} (hk : k < path.length) (h0 : (0 : UInt8) ∉ path) :
    cString (path.set k 0) = path.take k := by
  unfold cString
  rw [List.set_eq_take_append_cons_drop, if_pos hk, List.takeWhile_append_of_pos]
  · simp
  · intro b hb
    have : b ∈ path := List.mem_of_mem_take hb
    simp only [bne_iff_ne, ne_eq]
    rintro rfl
    exact h0 this

theorem createParentLoop_eq (mkdir : σ → Str → σ × MkdirResult) (path : Str) (h0 : (0 : UInt8) ∉ path) :
    ∀ (fuel prev : ℕ) (s : σ), (separators path (prev + 1)).length < fuel →
    createParentLoop mkdir path fuel prev s =
      .ok (makeAll mkdir ((separators path (prev + 1)).map path.take) s)
  | 0, _, _, h => by omega
  | fuel + 1, prev, s, h => by
    unfold createParentLoop
    rw [separators_find]
    cases hs : separators path (prev + 1) with
    | nil => rfl
    | cons k ks =>
      rw [hs] at h
      obtain ⟨e, hk, -, -⟩ := filter_range_step hs
      have e : ks = separators path (k + 1) := e
      subst e
      simp only [List.head?_cons, List.map_cons, makeAll]
      rw [cString_set hk h0]
      rcases hm : mkdir s (path.take k) with ⟨s', r⟩
      cases r with
      | error => rfl
      | created => exact createParentLoop_eq mkdir path h0 fuel k s' (by simpa using h)
      | exists_ => exact createParentLoop_eq mkdir path h0 fuel k s' (by simpa using h)

/-- For every path and every file system: the directories above the file are created in order,
outermost first, nothing is called after the first error, and success is reported exactly when there was
none. -/
theorem C39_order (mkdir : σ → Str → σ × MkdirResult) (path : Str) (h0 : (0 : UInt8) ∉ path) (s : σ) :
    createParentDir mkdir path s = .ok (makeAll mkdir (ancestors path) s) := by
  unfold createParentDir
  rw [createParentLoop_eq mkdir path h0]
  · rfl
  · unfold separators
    have := List.length_filter_le (fun k => decide (0 + 1 ≤ k) && decide (path[k]? = some 47))
      (List.range path.length)
    rw [List.length_range] at this
    omega

/-- A name in front of a separator, and the only such names: `ancestors` lists the directories above. -/
theorem C39_ancestors (path p : Str) :
    p ∈ ancestors path ↔ p ≠ [] ∧ ∃ rest, path = p ++ 47 :: rest := by
  unfold ancestors
  simp only [List.mem_map, List.mem_filter, List.mem_range, Bool.and_eq_true, decide_eq_true_eq]
  constructor
  · rintro ⟨k, ⟨hk, h1, h2⟩, rfl⟩
    refine ⟨?_, path.drop (k + 1), ?_⟩
    · intro he
      have := congrArg List.length he
      rw [List.length_take] at this
      simp only [List.length_nil] at this
      omega
    · have h3 := List.getElem_eq_iff hk |>.2 h2
      conv_lhs => rw [← List.take_append_drop k path]
      rw [List.drop_eq_getElem_cons hk, h3]
  · rintro ⟨hp, rest, rfl⟩
    refine ⟨p.length, ⟨by simp, ⟨List.length_pos_iff.2 hp, by simp⟩⟩, by simp⟩

section
variable {place : Str → π} {look : σ → π → Entry} {mkdir : σ → Str → σ × MkdirResult}

theorem makeAll_effect (L : LawfulMkdir place look mkdir) : ∀ (ps : List Str) (s : σ),
    (∀ x, look (makeAll mkdir ps s).2 x = look s x ∨
      (look s x = .nothing ∧ look (makeAll mkdir ps s).2 x = .directory ∧ ∃ p ∈ ps, place p = x)) ∧
    ((makeAll mkdir ps s).1 = true ↔ ∀ p ∈ ps, look (makeAll mkdir ps s).2 (place p) ≠ .nothing)
  | [], s => by simp [makeAll]
  | p :: ps, s => by
    rcases hm : mkdir s p with ⟨s', r⟩
    cases r with
    | error =>
      obtain ⟨rfl, hn⟩ := L.error s p s' hm
      simp only [makeAll, hm]
      refine ⟨fun x => .inl trivial, ?_⟩
      simp [hn]
    | created =>
      obtain ⟨h1, h2, h3⟩ := L.created s p s' hm
      obtain ⟨i1, i2⟩ := makeAll_effect L ps s'
      simp only [makeAll, hm]
      refine ⟨fun x => ?_, ?_⟩
      · by_cases hx : x = place p
        · subst hx
          right
          refine ⟨h1, ?_, p, List.mem_cons_self, rfl⟩
          rcases i1 (place p) with i | i
          · rw [i, h2]
          · exact i.2.1
        · rw [← h3 x hx]
          rcases i1 x with i | ⟨i, j, q, hq, e⟩
          · exact .inl i
          · exact .inr ⟨i, j, q, List.mem_cons_of_mem _ hq, e⟩
      · rw [i2]
        constructor
        · intro h q hq
          rcases List.mem_cons.1 hq with rfl | hq
          · rcases i1 (place q) with i | i
            · rw [i, h2]; simp
            · rw [i.2.1]; simp
          · exact h q hq
        · exact fun h q hq => h q (List.mem_cons_of_mem _ hq)
    | exists_ =>
      obtain ⟨rfl, hn⟩ := L.exists_ s p s' hm
      obtain ⟨i1, i2⟩ := makeAll_effect L ps s'
      simp only [makeAll, hm]
      refine ⟨fun x => ?_, ?_⟩
      · rcases i1 x with i | ⟨i, j, q, hq, e⟩
        · exact .inl i
        · exact .inr ⟨i, j, q, List.mem_cons_of_mem _ hq, e⟩
      · rw [i2]
        constructor
        · intro h q hq
          rcases List.mem_cons.1 hq with rfl | hq
          · rcases i1 (place q) with i | i
            · rw [i]; exact hn
            · rw [i.2.1]; simp
          · exact h q hq
        · exact fun h q hq => h q (List.mem_cons_of_mem _ hq)

/-- On a file system that follows the rules of `mkdir`: only missing ancestors are created, as
directories; everything else stays as it was; and success is reported exactly when all ancestors exist
afterwards. -/
theorem C39_effect (L : LawfulMkdir place look mkdir) (path : Str) (h0 : (0 : UInt8) ∉ path) (s : σ) :
    ∃ ok s', createParentDir mkdir path s = .ok (ok, s') ∧
      (∀ x, look s' x = look s x ∨
        (look s x = .nothing ∧ look s' x = .directory ∧ ∃ p ∈ ancestors path, place p = x)) ∧
      (ok = true ↔ ∀ p ∈ ancestors path, look s' (place p) ≠ .nothing) := by
  rw [C39_order mkdir path h0]
  exact ⟨_, _, rfl, makeAll_effect L _ s⟩

end

/-! A file system with directories and files, in which a directory can be made if its parent is one. -/

/-- The parts of a name between separators. -/
def parts (p : Str) : List Str := (p.splitOn 47).filter (· ≠ [])

/-- The directories and the files that exist, besides the root. -/
structure Tree where
  dirs : List (List Str)
  files : List (List Str)
  deriving DecidableEq

def Tree.look (t : Tree) (x : List Str) : Entry :=
  if x = [] ∨ x ∈ t.dirs then .directory else if x ∈ t.files then .other else .nothing

def Tree.mkdir (t : Tree) (p : Str) : Tree × MkdirResult :=
  if t.look (parts p) ≠ .nothing then (t, .exists_)
  else if t.look (parts p).dropLast = .directory then ({ t with dirs := parts p :: t.dirs }, .created)
  else (t, .error)

theorem Tree.lawful : LawfulMkdir parts Tree.look Tree.mkdir where
  created := by
    intro s p s' h
    unfold Tree.mkdir at h
    split at h
    · simp at h
    rename_i h1
    simp only [ne_eq, not_not] at h1
    split at h
    · simp only [Prod.mk.injEq, and_true] at h
      subst h
      refine ⟨h1, by simp [Tree.look], ?_⟩
      intro x hx
      simp [Tree.look, hx]
    · simp at h
  exists_ := by
    intro s p s' h
    unfold Tree.mkdir at h
    split at h
    · rename_i h1
      simp only [Prod.mk.injEq, and_true] at h
      exact ⟨h.symm, h1⟩
    · split at h <;> simp at h
  error := by
    intro s p s' h
    unfold Tree.mkdir at h
    split at h
    · simp at h
    rename_i h1
    simp only [ne_eq, not_not] at h1
    split at h
    · simp at h
    · simp only [Prod.mk.injEq, and_true] at h
      exact ⟨h.symm, h1⟩

/-- Two directories are made, outermost first. -/
example : createParentDir Tree.mkdir (cstr "out/a/x.dds") ⟨[], []⟩ =
    .ok (true, ⟨[[cstr "out", cstr "a"], [cstr "out"]], []⟩) := by
  rw [C39_order _ _ (by decide)]
  rw [Res.ok.injEq]
  decide +kernel

/-- A file in the way is found when something is to be created in it, and nothing is created. -/
example : createParentDir Tree.mkdir (cstr "/out/a/x.dds") ⟨[], [[cstr "out"]]⟩ =
    .ok (false, ⟨[], [[cstr "out"]]⟩) := by
  rw [C39_order _ _ (by decide)]
  rw [Res.ok.injEq]
  decide +kernel

/-- Success says that every ancestor exists, not that it is a directory: the error of `mkdir` for a file
in the place of the innermost directory is taken as success. -/
theorem C39_file_in_place : createParentDir Tree.mkdir (cstr "out/x.dds") ⟨[], [[cstr "out"]]⟩ =
    .ok (true, ⟨[], [[cstr "out"]]⟩) := by
  rw [C39_order _ _ (by decide)]
  rw [Res.ok.injEq]
  decide +kernel

end Cuttlefish
