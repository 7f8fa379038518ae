import Verif.Proofs.OptionWords
/-
Files with lists of images and of custom mip images.
-/
namespace Cuttlefish
open Spec

theorem get_cons (b : UInt8) (l : Str) : TextStream.get ⟨b :: l, true⟩ = (some b, ⟨l, true⟩) := rfl

theorem get_nil : TextStream.get ⟨[], true⟩ = (none, ⟨[], false⟩) := rfl

/-- Reading up to a delimiter. -/
theorem until_delim {d : UInt8} {post delims : Str} (hd : isCharInStr d delims = true) :
    ∀ (pre out : Str) (fuel : ℕ), pre.length < fuel → (∀ b ∈ pre, isCharInStr b delims = false) →
      readUntilChar fuel out ⟨pre ++ d :: post, true⟩ delims = .ok (some d, out ++ pre, ⟨post, true⟩)
  | [], out, fuel + 1, _, _ => by
    unfold readUntilChar
    rw [List.nil_append, get_cons]
    dsimp only
    rw [if_pos hd, List.append_nil]
  | b :: pre, out, fuel + 1, hf, hp => by
    unfold readUntilChar
    rw [List.cons_append, get_cons]
    dsimp only
    rw [if_neg (by rw [hp b List.mem_cons_self]; simp),
      until_delim hd pre _ fuel (by simpa using hf) (fun x hx => hp x (List.mem_cons_of_mem _ hx)),
      List.append_assoc]
    rfl

/-- Reading up to the end of the file. -/
theorem until_end {delims : Str} : ∀ (pre out : Str) (fuel : ℕ), pre.length < fuel →
    (∀ b ∈ pre, isCharInStr b delims = false) →
      readUntilChar fuel out ⟨pre, true⟩ delims = .ok (none, out ++ pre, ⟨[], false⟩)
  | [], out, fuel + 1, _, _ => by
    unfold readUntilChar
    rw [get_nil]
    dsimp only
    rw [List.append_nil]
  | b :: pre, out, fuel + 1, hf, hp => by
    unfold readUntilChar
    rw [get_cons]
    dsimp only
    rw [if_neg (by rw [hp b List.mem_cons_self]; simp),
      until_end pre _ fuel (by simpa using hf) (fun x hx => hp x (List.mem_cons_of_mem _ hx)),
      List.append_assoc]
    rfl

theorem inNewlines (b : UInt8) : isCharInStr b newlines = true ↔ lineEnd b := by
  unfold isCharInStr newlines lineEnd
  simp only [List.contains_cons, List.contains_nil, Bool.or_false, Bool.or_eq_true, beq_iff_eq,
    ← UInt8.toNat_inj]
  exact Iff.rfl

theorem inWhitespace (b : UInt8) : isCharInStr b whitespace = true ↔ blank b ∨ lineEnd b := by
  unfold isCharInStr whitespace blank lineEnd
  simp only [List.contains_cons, List.contains_nil, Bool.or_false, Bool.or_eq_true, beq_iff_eq,
    ← UInt8.toNat_inj]
  have : (9 : UInt8).toNat = 9 ∧ (10 : UInt8).toNat = 10 ∧ (11 : UInt8).toNat = 11 ∧
    (12 : UInt8).toNat = 12 ∧ (13 : UInt8).toNat = 13 ∧ (32 : UInt8).toNat = 32 := by decide
  rw [this.1, this.2.1, this.2.2.1, this.2.2.2.1, this.2.2.2.2.1, this.2.2.2.2.2]
  tauto

theorem notNewlines {b : UInt8} (h : ¬ lineEnd b) : isCharInStr b newlines = false := by
  rw [Bool.eq_false_iff]; exact fun e => h ((inNewlines b).1 e)

theorem notWhitespace {b : UInt8} (h : ¬ (blank b ∨ lineEnd b)) : isCharInStr b whitespace = false := by
  rw [Bool.eq_false_iff]; exact fun e => h ((inWhitespace b).1 e)

theorem split_at_line (l : Str) : (∀ b ∈ l, ¬ lineEnd b) ∨
    ∃ pre d post, l = pre ++ d :: post ∧ (∀ b ∈ pre, ¬ lineEnd b) ∧ lineEnd d := by
  induction l with
  | nil => left; simp
  | cons x l ih =>
    by_cases hx : lineEnd x
    · exact .inr ⟨[], x, l, rfl, by simp, hx⟩
    · rcases ih with h | ⟨pre, d, post, rfl, h, hd⟩
      · left
        intro b hb
        rcases List.mem_cons.1 hb with rfl | hb
        · exact hx
        · exact h b hb
      · refine .inr ⟨x :: pre, d, post, rfl, ?_, hd⟩
        intro b hb
        rcases List.mem_cons.1 hb with rfl | hb
        · exact hx
        · exact h b hb

/-- The loop over a list of images. -/
theorem imageList_eq : ∀ (fuel : ℕ) (l : Str) (acc : List Str),
    l.length + 1 < fuel → imageListLoop fuel acc ⟨l, true⟩ = .ok (acc ++ imageLines l) := by
  intro fuel
  induction fuel with
  | zero => intro l acc h; omega
  | succ fuel ih =>
    intro l acc h
    unfold imageListLoop
    rw [if_neg (by simp)]
    rcases split_at_line l with hl | ⟨pre, d, post, rfl, hp, hd⟩
    · rw [until_end l [] _ (by simp) (fun b hb => notNewlines (hl b hb)), Res.ok_bind]
      dsimp only
      have hs : imageLines l = if l = [] then [] else [l] := by
        unfold imageLines
        rw [List.splitOnP_eq_singleton (fun x hx => by simpa using hl x hx)]
        by_cases e : l = [] <;> simp [e]
      obtain ⟨n, rfl⟩ : ∃ n, fuel = n + 1 := ⟨fuel - 1, by omega⟩
      unfold imageListLoop
      rw [if_pos (by rfl), hs, List.nil_append]
      by_cases e : l = [] <;> simp [e]
    · rw [until_delim ((inNewlines d).2 hd) pre [] _ (by simp) (fun b hb => notNewlines (hp b hb)),
        Res.ok_bind]
      dsimp only
      rw [ih post _ (by simp at h; omega)]
      have hs : imageLines (pre ++ d :: post) = (if pre = [] then [] else [pre]) ++ imageLines post := by
        unfold imageLines
        rw [List.splitOnP_append_cons_of_forall_mem (fun x hx => by simpa using hp x hx) _ (by simpa using hd)]
        by_cases e : pre = [] <;> simp [e]
      rw [hs, List.nil_append]
      by_cases e : pre = [] <;> simp [e]

theorem readList_eq (files : Str → Option Str) (name : Str) :
    readImageList files [] name = .ok ((files name).map imageLines) := by
  unfold readImageList
  cases files name with
  | none => rfl
  | some text =>
    dsimp only
    rw [imageList_eq _ text [] (by omega), Res.ok_bind, List.nil_append,
      Option.map_some]

/-! ### Custom mip images -/

/-- Blanks are skipped. -/
theorem token_gap {rest : Str} : ∀ (gap : Str) (fuel : ℕ) (last : UInt8), (∀ b ∈ gap, blank b) →
    ¬ lineEnd last → nextTokenLoop (fuel + gap.length) [] ⟨gap ++ rest, true⟩ whitespace newlines (some last) =
      nextTokenLoop fuel [] ⟨rest, true⟩ whitespace newlines (some (gap.getLast?.getD last))
  | [], fuel, last, _, _ => rfl
  | b :: gap, fuel, last, hg, hl => by
    have hb := hg b List.mem_cons_self
    have hbl : ¬ lineEnd b := by unfold lineEnd; unfold blank at hb; omega
    rw [List.length_cons, ← Nat.add_assoc]
    conv_lhs => unfold nextTokenLoop
    dsimp only
    rw [if_neg (by rw [notNewlines hl]; simp)]
    have := until_delim (post := gap ++ rest) ((inWhitespace b).2 (.inl hb)) [] [] ((gap.length + rest.length + 1) + 1)
      (by simp) (by simp)
    rw [List.nil_append] at this
    rw [show (b :: gap ++ rest).length + 1 = (gap.length + rest.length + 1) + 1 by simp,
      List.cons_append, this, Res.ok_bind]
    dsimp only
    rw [if_neg (by simp), List.append_nil, token_gap gap fuel b (fun x hx => hg x (List.mem_cons_of_mem _ hx)) hbl]
    congr 2
    cases gap with
    | nil => rfl
    | cons y ys => simp [List.getLast?_cons]

/-- A text without white space. -/
def Solid (w : Str) : Prop := w ≠ [] ∧ ∀ b ∈ w, ¬ (blank b ∨ lineEnd b)

theorem blank_not_end {b : UInt8} (h : blank b) : ¬ lineEnd b := by
  unfold lineEnd; unfold blank at h; omega

theorem gap_last {gap : Str} {last : UInt8} (hg : ∀ b ∈ gap, blank b) (hl : ¬ lineEnd last) :
    ¬ lineEnd (gap.getLast?.getD last) := by
  cases h : gap.getLast? with
  | none => exact hl
  | some x => exact blank_not_end (hg x (List.mem_of_getLast? h))

/-- The next token, followed by white space. -/
theorem token_word {out gap w post : Str} {d last : UInt8} (hg : ∀ b ∈ gap, blank b) (hw : Solid w)
    (hd : blank d ∨ lineEnd d) (hl : ¬ lineEnd last) :
    readNextToken out ⟨gap ++ (w ++ d :: post), true⟩ whitespace newlines (some last) =
      .ok (some d, w, ⟨post, true⟩) := by
  unfold readNextToken
  have : ((gap ++ (w ++ d :: post)).length + 2) = (w.length + post.length + 3) + gap.length := by simp; omega
  dsimp only [tokenStart]
  rw [this, if_neg (by simp), token_gap gap _ last hg hl]
  unfold nextTokenLoop
  dsimp only
  rw [if_neg (by rw [notNewlines (gap_last hg hl)]; simp),
    until_delim ((inWhitespace d).2 hd) w [] _ (by simp) (fun b hb => notWhitespace (hw.2 b hb)), Res.ok_bind]
  dsimp only
  rw [if_pos (by simp [hw.1]), List.nil_append]

/-- The last token of the file. -/
theorem token_last {out gap w : Str} {last : UInt8} (hg : ∀ b ∈ gap, blank b) (hw : Solid w)
    (hl : ¬ lineEnd last) :
    readNextToken out ⟨gap ++ w, true⟩ whitespace newlines (some last) =
      .ok (none, w, ⟨[], false⟩) := by
  unfold readNextToken
  have : ((gap ++ w).length + 2) = (w.length + 2) + gap.length := by simp; omega
  dsimp only [tokenStart]
  rw [this, if_neg (by simp), token_gap gap _ last hg hl]
  unfold nextTokenLoop
  dsimp only
  rw [if_neg (by rw [notNewlines (gap_last hg hl)]; simp),
    until_end w [] _ (by simp) (fun b hb => notWhitespace (hw.2 b hb)), Res.ok_bind]
  dsimp only
  rw [if_pos (by simp [hw.1]), List.nil_append]

/-- No token on the line. -/
theorem token_none {out gap post : Str} {d last : UInt8} (hg : ∀ b ∈ gap, blank b) (hd : lineEnd d)
    (hl : ¬ lineEnd last) :
    readNextToken out ⟨gap ++ d :: post, true⟩ whitespace newlines (some last) =
      .ok (some d, [], ⟨post, true⟩) := by
  unfold readNextToken
  have : ((gap ++ d :: post).length + 2) = (post.length + 2 + 1) + gap.length := by simp; omega
  dsimp only [tokenStart]
  rw [this, if_neg (by simp), token_gap gap _ last hg hl]
  unfold nextTokenLoop
  dsimp only
  rw [if_neg (by rw [notNewlines (gap_last hg hl)]; simp)]
  have e := until_delim (post := post) ((inWhitespace d).2 (.inr hd)) [] [] ((d :: post).length + 1)
    (by simp) (by simp)
  rw [List.nil_append] at e
  rw [e, Res.ok_bind]
  dsimp only
  rw [if_neg (by simp)]
  unfold nextTokenLoop
  dsimp only
  rw [if_pos (by rw [(inNewlines d).2 hd]; simp)]
  rfl

/-- No token before the end of the file. -/
theorem token_end {out gap : Str} {last : UInt8} (hg : ∀ b ∈ gap, blank b) (hl : ¬ lineEnd last) :
    readNextToken out ⟨gap, true⟩ whitespace newlines (some last) = .ok (none, [], ⟨[], false⟩) := by
  unfold readNextToken
  have h2 := token_gap (rest := []) gap 2 last hg hl
  rw [List.append_nil] at h2
  dsimp only [tokenStart]
  rw [show gap.length + 2 = 2 + gap.length by omega, if_neg (by simp), h2]
  unfold nextTokenLoop
  dsimp only
  rw [if_neg (by rw [notNewlines (gap_last hg hl)]; simp),
    until_end [] [] _ (by simp) (by simp), Res.ok_bind]
  dsimp only
  rw [if_neg (by simp)]
  rfl

/-- The first word of a file name. -/
def firstWord (f : Str) : Str := f.takeWhile fun b => ¬ blank b

/-- The stream after a line. -/
def afterLine : Str → TextStream
  | [] => ⟨[], false⟩
  | _ :: post => ⟨post, true⟩

/-- A line of the custom mip list is being read: the words to come, with the first one read already. -/
inductive Cur (file tail : Str) : List Str → Option UInt8 → Str → TextStream → Prop
  | word (w ws b g l) : blank b → (∀ x ∈ g, blank x) → Spaced file ws l →
      Cur file tail (w :: ws) (some b) w ⟨g ++ (l ++ tail), true⟩
  | file (last s) : (∃ r, readNextToken (firstWord file) s newlines newlines last true =
        .ok (r, file, afterLine tail)) → Cur file tail [] last (firstWord file) s

/-- The file name of a line. -/
structure GoodFile (file : Str) : Prop where
  start : ∃ b bs, file = b :: bs ∧ ¬ blank b
  inner : ∀ b ∈ file, ¬ lineEnd b ∧ b ≠ 0

/-- What follows a line. -/
def Tail (tail : Str) : Prop := ∀ b ∈ tail.head?, lineEnd b

theorem firstWord_solid {file : Str} (h : GoodFile file) : Solid (firstWord file) := by
  constructor
  · obtain ⟨b, bs, rfl, hb⟩ := h.start
    unfold firstWord
    rw [List.takeWhile_cons, if_pos (by simpa using hb)]
    simp
  · intro b hb
    have h1 := List.all_eq_true.1 (List.all_takeWhile (p := fun b => decide ¬ blank b) (l := file)) b hb
    have h2 := h.inner b ((List.takeWhile_prefix _).subset hb)
    simp only [decide_eq_true_eq] at h1
    exact fun e => e.elim h1 h2.1

theorem dropWhile_head {p : UInt8 → Bool} : ∀ {l : Str} {b : UInt8} {r : Str}, l.dropWhile p = b :: r → p b = false
  | [], b, r, h => by simp at h
  | x :: l, b, r, h => by
    rw [List.dropWhile_cons] at h
    split at h
    · exact dropWhile_head h
    · rename_i hx
      simp only [List.cons.injEq] at h
      rw [← h.1]; simpa using hx

theorem first_split (file : Str) : firstWord file = file ∨
    ∃ b more, file = firstWord file ++ b :: more ∧ blank b := by
  unfold firstWord
  have := List.takeWhile_append_dropWhile (p := fun b => decide ¬ blank b) (l := file)
  cases h : file.dropWhile (fun b => decide ¬ blank b) with
  | nil =>
    left
    rw [h, List.append_nil] at this
    exact this
  | cons b more =>
    right
    refine ⟨b, more, ?_, ?_⟩
    · rw [h] at this; exact this.symm
    · have := dropWhile_head h
      simpa using this

/-- The rest of the line is the file name. -/
theorem file_rest {file tail : Str} (h : GoodFile file) (ht : Tail tail) {b : UInt8} {more : Str}
    (he : file = firstWord file ++ b :: more) (hb : blank b) :
    ∃ r, readNextToken (firstWord file) ⟨more ++ tail, true⟩ newlines newlines (some b) true =
      .ok (r, file, afterLine tail) := by
  have hne := (firstWord_solid h).1
  have hmore : ∀ x ∈ more, isCharInStr x newlines = false := fun x hx =>
    notNewlines (h.inner x (by rw [he]; simp [hx])).1
  have he' : firstWord file ++ [b] ++ more = file := by rw [List.append_assoc]; exact he.symm
  unfold readNextToken
  have hts : tokenStart (firstWord file) newlines (some b) true = firstWord file ++ [b] := by
    unfold tokenStart
    rw [if_pos rfl]
    dsimp only
    rw [if_pos (by rw [notNewlines (blank_not_end hb)]; simp [hne])]
  rw [hts]
  unfold nextTokenLoop
  dsimp only
  rw [if_neg (by rw [notNewlines (blank_not_end hb)]; simp)]
  cases tail with
  | nil =>
    rw [List.append_nil, until_end more _ _ (by simp) hmore, Res.ok_bind]
    dsimp only
    rw [if_pos (by simp), he']
    exact ⟨_, rfl⟩
  | cons d post =>
    rw [until_delim ((inNewlines d).2 (ht d rfl)) more _ _ (by simp) hmore, Res.ok_bind]
    dsimp only
    rw [if_pos (by simp), he']
    exact ⟨_, rfl⟩

/-- The file name was a single word. -/
theorem file_done {file tail : Str} (ht : Tail tail) :
    ∃ r, readNextToken file (afterLine tail) newlines newlines tail.head? true =
      .ok (r, file, afterLine tail) := by
  unfold readNextToken
  cases tail with
  | nil => exact ⟨none, rfl⟩
  | cons d post =>
    have hd := (inNewlines d).2 (ht d rfl)
    have hts : tokenStart file newlines (some d) true = file := by
      unfold tokenStart
      rw [if_pos rfl]
      dsimp only
      rw [if_neg (by rw [hd]; simp)]
    rw [List.head?_cons, hts]
    unfold nextTokenLoop
    dsimp only
    rw [if_pos (by rw [hd]; simp)]
    exact ⟨_, rfl⟩

/-- The first word of what is to come is read. -/
theorem cur_start {file tail : Str} (h : GoodFile file) (ht : Tail tail) {ws : List Str} {l : Str}
    (hs : Spaced file ws l) (hw : ∀ w ∈ ws, Solid w) {g out : Str} {last : UInt8} (hg : ∀ x ∈ g, blank x)
    (hl : ¬ lineEnd last) :
    ∃ r, readNextToken out ⟨g ++ (l ++ tail), true⟩ whitespace newlines (some last) = .ok r ∧
      Cur file tail ws r.1 r.2.1 r.2.2 := by
  cases hs with
  | file =>
    have hsol := firstWord_solid h
    rcases first_split file with e | ⟨b, more, e, hb⟩
    · cases tail with
      | nil =>
        have := token_last (out := out) hg hsol hl
        rw [e] at this
        rw [List.append_nil]
        refine ⟨_, this, ?_⟩
        have c := Cur.file (file := file) (tail := []) none ⟨[], false⟩
          (by rw [e]; exact file_done (tail := []) ht)
        rw [e] at c
        exact c
      | cons d post =>
        have := token_word (out := out) (post := post) hg hsol (.inr (ht d rfl)) hl
        rw [e] at this
        refine ⟨_, this, ?_⟩
        have c := Cur.file (file := file) (tail := d :: post) (some d) ⟨post, true⟩
          (by rw [e]; exact file_done (tail := d :: post) ht)
        rw [e] at c
        exact c
    · have := token_word (out := out) (post := more ++ tail) hg hsol (.inl hb) hl
      have e2 : file ++ tail = firstWord file ++ b :: (more ++ tail) := by
        conv_lhs => rw [e]
        simp
      rw [e2]
      exact ⟨_, this, Cur.file _ _ (file_rest h ht e hb)⟩
  | word w gap ws l hne hgap hs =>
    obtain ⟨b, gap, rfl⟩ := List.exists_cons_of_ne_nil hne
    have := token_word (out := out) (post := gap ++ (l ++ tail)) hg (hw w List.mem_cons_self)
      (.inl (hgap b List.mem_cons_self)) hl
    have e2 : w ++ b :: gap ++ l ++ tail = w ++ b :: (gap ++ (l ++ tail)) := by simp
    rw [e2]
    exact ⟨_, this, Cur.word w ws b gap l (hgap b List.mem_cons_self)
      (fun x hx => hgap x (List.mem_cons_of_mem _ hx)) hs⟩

/-- The next word is read. -/
theorem cur_next {file tail : Str} (h : GoodFile file) (ht : Tail tail) {w : Str} {ws : List Str}
    {last : Option UInt8} {tok : Str} {s : TextStream} (hc : Cur file tail (w :: ws) last tok s)
    (hw : ∀ w ∈ ws, Solid w) :
    tok = w ∧ ∃ r, readNextToken tok s whitespace newlines last = .ok r ∧
      Cur file tail ws r.1 r.2.1 r.2.2 := by
  cases hc with
  | word w ws b g l hb hg hs => exact ⟨rfl, cur_start h ht hs hw hg (blank_not_end hb)⟩

/-- An optional word of the line that is there. -/
theorem optional_there {α : Type} {file tail : Str} (h : GoodFile file) (ht : Tail tail) {w : Str}
    {ws : List Str} {last : Option UInt8} {tok : Str} {s : TextStream}
    (hc : Cur file tail (w :: ws) last tok s) (hw : ∀ w ∈ ws, Solid w) (a dflt : α) :
    ∃ r, optionalToken (some a) dflt tok s last = .ok (a, r) ∧ Cur file tail ws r.1 r.2.1 r.2.2 := by
  obtain ⟨-, r, hr, hc'⟩ := cur_next h ht hc hw
  refine ⟨r, ?_, hc'⟩
  unfold optionalToken
  dsimp only
  rw [hr]
  rfl

theorem optional_absent {α : Type} (dflt : α) (tok : Str) (s : TextStream) (last : Option UInt8) :
    optionalToken none dflt tok s last = .ok (dflt, last, tok, s) := rfl

theorem sameLetter_solid {a b : UInt8} (h : sameLetter a b) (hb : ¬ (blank b ∨ lineEnd b) ∧ b ≠ 0) :
    ¬ (blank a ∨ lineEnd a) ∧ a ≠ 0 := by
  rcases h with rfl | ⟨k, hk, h⟩
  · exact hb
  · unfold blank lineEnd
    rw [Ne, ← UInt8.toNat_inj, show (0 : UInt8).toNat = 0 from rfl]
    omega

theorem word_solid {w : String} {a : Str} (h : Word w a) (hne : cstr w ≠ [])
    (hs : ∀ b ∈ cstr w, ¬ (blank b ∨ lineEnd b) ∧ b ≠ 0) : Solid a ∧ ∀ b ∈ a, b ≠ 0 := by
  have hlen := h.length_eq
  have key : ∀ b ∈ a, ¬ (blank b ∨ lineEnd b) ∧ b ≠ 0 := by
    intro b hb
    obtain ⟨i, hi, rfl⟩ := List.getElem_of_mem hb
    exact sameLetter_solid (List.Forall₂.get h hi (by omega)) (hs _ (List.getElem_mem _))
  refine ⟨⟨?_, fun b hb => (key b hb).1⟩, fun b hb => (key b hb).2⟩
  rintro rfl
  exact hne (List.eq_nil_of_length_eq_zero hlen.symm)

theorem face_solid {f : CubeFace} {a : Str} (h : Word (faceName f) a) : Solid a ∧ ∀ b ∈ a, b ≠ 0 :=
  word_solid h (by cases f <;> decide +kernel) (by cases f <;> decide +kernel)

theorem replace_solid {f : MipReplacement} {a : Str} (h : Word (replaceName f) a) :
    Solid a ∧ ∀ b ∈ a, b ≠ 0 :=
  word_solid h (by cases f <;> decide +kernel) (by cases f <;> decide +kernel)

theorem decimal_solid (n : ℕ) : Solid (decimal n) := by
  have e : decimal (n : ℤ) = digitText n := by
    unfold decimal
    rw [if_neg (by omega), Int.natAbs_natCast]
  rw [e]
  refine ⟨digitText_ne n, fun b hb => ?_⟩
  have := digitText_digits n b hb
  unfold isDigitByte at this
  simp only [Bool.and_eq_true, decide_eq_true_eq] at this
  unfold blank lineEnd
  omega

theorem cString_self {a : Str} (h : ∀ b ∈ a, b ≠ 0) : cString a = a := by
  unfold cString
  induction a with
  | nil => rfl
  | cons b a ih =>
    rw [List.takeWhile_cons, if_pos (by simpa using h b List.mem_cons_self),
      ih (fun x hx => h x (List.mem_cons_of_mem _ hx))]

theorem firstWord_zero {file : Str} (h : GoodFile file) : ∀ b ∈ firstWord file, b ≠ 0 := fun b hb =>
  (h.inner b ((List.takeWhile_prefix _).subset hb)).2

/-- The words of a line are solid. -/
theorem mipWords_solid {e : MipEntry} {ws : List Str} (h : MipWords e ws) : ∀ w ∈ ws, Solid w := by
  obtain ⟨-, -, fs, rs, hf, hr, rfl⟩ := h
  intro w hw
  simp only [List.cons_append, List.mem_cons, List.mem_append] at hw
  rcases hw with rfl | (hw | hw) | hw
  · exact decimal_solid _
  · unfold maybeNumber at hw
    cases hd : e.depth with
    | none => rw [hd] at hw; simp at hw
    | some d => rw [hd] at hw; simp at hw; rw [hw]; exact decimal_solid _
  · cases hd : e.face with
    | none => rw [hd] at hf; rw [show fs = [] from hf] at hw; simp at hw
    | some d =>
      rw [hd] at hf
      obtain ⟨x, hx, rfl⟩ := hf
      rw [List.mem_singleton.1 hw]
      exact (face_solid hx).1
  · cases hd : e.replace with
    | none => rw [hd] at hr; rw [show rs = [] from hr] at hw; simp at hw
    | some d =>
      rw [hd] at hr
      obtain ⟨x, hx, rfl⟩ := hr
      rw [List.mem_singleton.1 hw]
      exact (replace_solid hx).1

theorem emplace_eq (m : CustomMipFiles) (k : ImageIndex) (f : Str) (r : MipReplacement) :
    m.emplace k f r = if k ∈ m.map (·.1) then none else some (m ++ [(k, f, r)]) := by
  unfold CustomMipFiles.emplace
  congr 1
  simp only [List.any_eq_true, beq_iff_eq, List.mem_map]

theorem u32_small {n : ℕ} (h : n < 2 ^ 32) : u32 n = n := by
  unfold u32 pow32; exact Nat.mod_eq_of_lt h

theorem cur_file {file tail : Str} {last : Option UInt8} {tok : Str} {s : TextStream}
    (h : Cur file tail [] last tok s) : tok = firstWord file ∧
      ∃ r, readNextToken tok s newlines newlines last true = .ok (r, file, afterLine tail) := by
  cases h with
  | file last s h => exact ⟨rfl, h⟩

theorem cur_word {file tail w : Str} {ws : List Str} {last : Option UInt8} {tok : Str} {s : TextStream}
    (h : Cur file tail (w :: ws) last tok s) : tok = w := by
  cases h with
  | word => rfl

/-- One line after the level. -/
theorem mipLine_eq {e : MipEntry} {tail : Str} (hg : GoodFile e.file) (ht : Tail tail)
    (hu : Unambiguous e (firstWord e.file)) {ws : List Str} {last : Option UInt8} {tok : Str} {s : TextStream}
    (hws : MipWords e ws) (hc : Cur e.file tail ws last tok s) (m : CustomMipFiles) :
    tok = decimal e.level ∧ customMipLine m e.level tok s last =
      .ok ((addMip m e).map fun m' => (m', afterLine tail)) := by
  have hsol := mipWords_solid hws
  obtain ⟨hl, hd, fs, rs, hf, hr, rfl⟩ := hws
  obtain ⟨rfl, r1, h1, c1⟩ := cur_next hg ht hc (fun w hw => hsol w (List.mem_cons_of_mem _ hw))
  refine ⟨rfl, ?_⟩
  have hsol : ∀ w ∈ maybeNumber e.depth ++ fs ++ rs, Solid w := fun w hw => hsol w (List.mem_cons_of_mem _ hw)
  -- depth
  have hdep : ∃ r2, optionalToken (strtoulAll r1.2.1) 0 r1.2.1 r1.2.2 r1.1 = .ok (e.depth.getD 0, r2) ∧
      Cur e.file tail (fs ++ rs) r2.1 r2.2.1 r2.2.2 := by
    cases h : e.depth with
    | some d =>
      rw [h] at c1 hsol
      have c1 : Cur e.file tail (decimal d :: (fs ++ rs)) r1.1 r1.2.1 r1.2.2 := c1
      rw [cur_word c1, strtoul_small (by have := hd d h; omega)]
      have := cur_word c1
      rw [this] at c1
      exact optional_there hg ht c1 (fun w hw => hsol w (List.mem_cons_of_mem _ (by simpa using hw))) d 0
    | none =>
      rw [h] at c1
      have c1 : Cur e.file tail (fs ++ rs) r1.1 r1.2.1 r1.2.2 := c1
      have hn : strtoulAll r1.2.1 = none := by
        cases hf' : e.face with
        | some f =>
          rw [hf'] at hf
          obtain ⟨x, hx, rfl⟩ := hf
          rw [cur_word c1]
          exact (not_number (face_not_number hx)).1
        | none =>
          rw [hf'] at hf
          obtain rfl : fs = [] := hf
          cases hr' : e.replace with
          | some f =>
            rw [hr'] at hr
            obtain ⟨x, hx, rfl⟩ := hr
            rw [cur_word c1]
            exact (not_number (replace_not_number hx)).1
          | none =>
            rw [hr'] at hr
            obtain rfl : rs = [] := hr
            rw [(cur_file c1).1]
            exact (not_number (hu.1 h hf' hr')).1
      rw [hn, optional_absent]
      exact ⟨r1, rfl, c1⟩
  obtain ⟨r2, h2, c2⟩ := hdep
  have hsol : ∀ w ∈ fs ++ rs, Solid w := fun w hw => hsol w (by simp at hw ⊢; tauto)
  -- face
  have hface : ∃ r3, optionalToken (lookupWord (cString r2.2.1) cubeFaces) .PosX r2.2.1 r2.2.2 r2.1 =
      .ok (e.face.getD .PosX, r3) ∧ Cur e.file tail rs r3.1 r3.2.1 r3.2.2 := by
    cases h : e.face with
    | some f =>
      rw [h] at hf
      obtain ⟨x, hx, rfl⟩ := hf
      have c2 : Cur e.file tail (x :: rs) r2.1 r2.2.1 r2.2.2 := c2
      rw [cur_word c2, cString_self (face_solid hx).2, lookup_word hx, lookup_face]
      have := cur_word c2
      rw [this] at c2
      exact optional_there hg ht c2 (fun w hw => hsol w (List.mem_cons_of_mem _ (by simpa using hw))) f _
    | none =>
      rw [h] at hf
      obtain rfl : fs = [] := hf
      have c2 : Cur e.file tail rs r2.1 r2.2.1 r2.2.2 := c2
      have hn : lookupWord (cString r2.2.1) cubeFaces = none := by
        cases hr' : e.replace with
        | some f =>
          rw [hr'] at hr
          obtain ⟨x, hx, rfl⟩ := hr
          rw [cur_word c2, cString_self (replace_solid hx).2]
          exact replace_not_face hx
        | none =>
          rw [hr'] at hr
          obtain rfl : rs = [] := hr
          rw [(cur_file c2).1, cString_self (firstWord_zero hg)]
          exact face_free (hu.2.1 h hr')
      rw [hn, optional_absent]
      exact ⟨r2, rfl, c2⟩
  obtain ⟨r3, h3, c3⟩ := hface
  -- replacement
  have hrep : ∃ r4, optionalToken (lookupWord (cString r3.2.1) mipReplacements) .Continue r3.2.1 r3.2.2 r3.1 =
      .ok (e.replace.getD .Continue, r4) ∧ Cur e.file tail [] r4.1 r4.2.1 r4.2.2 := by
    cases h : e.replace with
    | some f =>
      rw [h] at hr
      obtain ⟨x, hx, rfl⟩ := hr
      rw [cur_word c3, cString_self (replace_solid hx).2, lookup_word hx, lookup_replace]
      have := cur_word c3
      rw [this] at c3
      exact optional_there hg ht c3 (by simp) f _
    | none =>
      rw [h] at hr
      obtain rfl : rs = [] := hr
      have hn : lookupWord (cString r3.2.1) mipReplacements = none := by
        rw [(cur_file c3).1, cString_self (firstWord_zero hg)]
        exact replace_free (hu.2.2 h)
      rw [hn, optional_absent]
      exact ⟨r3, rfl, c3⟩
  obtain ⟨r4, h4, c4⟩ := hrep
  obtain ⟨-, r5, h5⟩ := cur_file c4
  unfold customMipLine
  rw [h1, Res.ok_bind, h2, Res.ok_bind, h3, Res.ok_bind, h4, Res.ok_bind, h5, Res.ok_bind]
  dsimp only
  have hne : e.file ≠ [] := by
    obtain ⟨b, bs, h, -⟩ := hg.start
    rw [h]; simp
  have hdd : e.depth.getD 0 < 2 ^ 32 := by
    cases h : e.depth with
    | none => simp
    | some d => exact hd d h
  rw [if_neg (by simpa using hne), emplace_eq, u32_small hl, u32_small hdd]
  rfl

/-- The whole file. -/
theorem mipList_eq {es : List MipEntry} {text : Str} (h : MipText es text) :
    ∀ (gap : Str) (fuel : ℕ) (m : CustomMipFiles), (∀ b ∈ gap, blank b) →
      gap.length + text.length + 1 < fuel →
      customMipLoop fuel m ⟨gap ++ text, true⟩ = .ok (addMips m es) := by
  have h0 : ¬ lineEnd 0 := by decide
  induction h with
  | done =>
    intro gap fuel m hg hf
    obtain ⟨n, rfl⟩ : ∃ n, fuel = n + 2 := ⟨fuel - 2, by omega⟩
    unfold customMipLoop
    rw [if_neg (by simp), List.append_nil, token_end hg h0, Res.ok_bind]
    dsimp only
    rw [if_pos (by rfl)]
    unfold customMipLoop
    rfl
  | skip b es s hb hs ih =>
    intro gap fuel m hg hf
    by_cases hbl : blank b
    · have := ih (gap ++ [b]) fuel m (by
        intro x hx
        rcases List.mem_append.1 hx with hx | hx
        · exact hg x hx
        · rw [List.mem_singleton.1 hx]; exact hbl) (by simp at hf ⊢; omega)
      rwa [List.append_assoc] at this
    · have hbe := hb.resolve_left hbl
      obtain ⟨n, rfl⟩ : ∃ n, fuel = n + 1 := ⟨fuel - 1, by omega⟩
      unfold customMipLoop
      rw [if_neg (by simp), token_none hg hbe h0, Res.ok_bind]
      dsimp only
      rw [if_pos (by rfl)]
      exact ih [] n m (by simp) (by simp at hf ⊢; omega)
  | last e line hl =>
    intro gap fuel m hg hf
    obtain ⟨⟨ws, hws, hsp⟩, hst, hin, hu⟩ := hl
    have hgf : GoodFile e.file := ⟨hst, hin⟩
    have ht : Tail [] := by intro b hb; simp at hb
    obtain ⟨n, rfl⟩ : ∃ n, fuel = n + 2 := ⟨fuel - 2, by omega⟩
    unfold customMipLoop
    obtain ⟨r, hr, hc⟩ := cur_start (out := []) hgf ht hsp (mipWords_solid hws) hg h0
    rw [List.append_nil] at hr
    obtain ⟨e1, e2⟩ := mipLine_eq hgf ht hu hws hc m
    rw [if_neg (by simp), hr, Res.ok_bind]
    rw [if_neg (by rw [e1]; simpa using (decimal_solid e.level).1)]
    rw [show strtoulAll r.2.1 = some e.level by
      rw [e1]; exact strtoul_small (by have := hws.1; omega)]
    dsimp only
    rw [e2, Res.ok_bind]
    unfold addMips
    cases addMip m e with
    | none => rfl
    | some m' => unfold customMipLoop; rfl
  | line e line b es s hl hb hs ih =>
    intro gap fuel m hg hf
    obtain ⟨⟨ws, hws, hsp⟩, hst, hin, hu⟩ := hl
    have hgf : GoodFile e.file := ⟨hst, hin⟩
    have ht : Tail (b :: s) := by
      intro x hx
      obtain rfl : b = x := by simpa using hx
      exact hb
    obtain ⟨n, rfl⟩ : ∃ n, fuel = n + 1 := ⟨fuel - 1, by omega⟩
    unfold customMipLoop
    obtain ⟨r, hr, hc⟩ := cur_start (out := []) hgf ht hsp (mipWords_solid hws) hg h0
    obtain ⟨e1, e2⟩ := mipLine_eq hgf ht hu hws hc m
    rw [if_neg (by simp), hr, Res.ok_bind]
    rw [if_neg (by rw [e1]; simpa using (decimal_solid e.level).1)]
    rw [show strtoulAll r.2.1 = some e.level by
      rw [e1]; exact strtoul_small (by have := hws.1; omega)]
    dsimp only
    rw [e2, Res.ok_bind]
    unfold addMips
    cases addMip m e with
    | none => rfl
    | some m' => exact ih [] n m' (by simp) (by simp at hf ⊢; omega)

theorem readMips_eq {files : Str → Option Str} {name text : Str} {es : List MipEntry}
    (hf : files name = some text) (h : MipText es text) (m : CustomMipFiles) :
    readCustomMipList files m name = .ok (addMips m es) := by
  unfold readCustomMipList
  rw [hf]
  exact mipList_eq h [] _ m (by simp) (by simp)

end Cuttlefish
