import Verif.Proofs.ThreadJobs
import Verif.Spec.Converted
import Verif.Spec.Threads
/-
The whole conversion with threads.
-/
namespace Cuttlefish
open Spec
open scoped List
variable {Img : Type} {c : Features} {E : Conv → ConvArgs → Img → Res (List UInt8) → Prop}
  {enc : Encoder Img} {a b : ConvArgs}

/-- On every image of the list an outcome is the encoder's result (with arguments `b`). -/
def Agrees (E : Conv → ConvArgs → Img → Res (List UInt8) → Prop) (enc : Encoder Img) (c : Features)
    (a b : ConvArgs) (i : Img) : Prop :=
  ∀ k, createConverter c a.format a.type = some k → ∀ r, E k a i r → r = enc k b i

theorem mayFaces_eq (hf : b.format = a.format) (ht : b.type = a.type) {gs : List (Option Img)}
    {r : Res (Bool × List (Option Img) × List (List UInt8))} (h : MayFaces c E a gs r) :
    (∀ i, some i ∈ gs → Agrees E enc c a b i) → r = convFaces c enc b gs := by
  induction h with
  | nil => intro _; rfl
  | noConv g gs hk => intro _; simp only [convFaces, hf, ht, hk]
  | noImage gs k hk => intro _; simp only [convFaces, hf, ht, hk]
  | encUb i gs k hk he =>
    intro hA
    simp only [convFaces, hf, ht, hk]
    rw [← hA i List.mem_cons_self k hk _ he]; rfl
  | restUb i gs k bytes hk he _ ih =>
    intro hA
    simp only [convFaces, hf, ht, hk]
    rw [← hA i List.mem_cons_self k hk _ he, ← ih (fun i hi => hA i (List.mem_cons_of_mem _ hi))]; rfl
  | cons i gs k bytes ok gs' bs hk he _ ih =>
    intro hA
    simp only [convFaces, hf, ht, hk]
    rw [← hA i List.mem_cons_self k hk _ he, ← ih (fun i hi => hA i (List.mem_cons_of_mem _ hi))]; rfl

theorem mayDepths_eq (hf : b.format = a.format) (ht : b.type = a.type) {ds : List (List (Option Img))}
    {r : Res (Bool × List (List (Option Img)) × List (List (List UInt8)))} (h : MayDepths c E a ds r) :
    (∀ gs ∈ ds, ∀ i, some i ∈ gs → Agrees E enc c a b i) → r = convDepths c enc b ds := by
  induction h with
  | nil => intro _; rfl
  | facesUb fs ds h =>
    intro hA
    simp only [convDepths]
    rw [← mayFaces_eq hf ht h (hA fs List.mem_cons_self)]; rfl
  | failed fs fs' ds bs h =>
    intro hA
    simp only [convDepths]
    rw [← mayFaces_eq hf ht h (hA fs List.mem_cons_self)]; rfl
  | restUb fs fs' ds bs h _ ih =>
    intro hA
    simp only [convDepths]
    rw [← mayFaces_eq hf ht h (hA fs List.mem_cons_self),
      ← ih (fun gs hg => hA gs (List.mem_cons_of_mem _ hg))]; rfl
  | cons fs fs' ds ds' bs ok bss h _ ih =>
    intro hA
    simp only [convDepths]
    rw [← mayFaces_eq hf ht h (hA fs List.mem_cons_self),
      ← ih (fun gs hg => hA gs (List.mem_cons_of_mem _ hg))]; rfl

theorem mayMips_eq (hf : b.format = a.format) (ht : b.type = a.type) {ms : Store (Option Img)}
    {r : Res (Bool × Store (Option Img) × Store (List UInt8))} (h : MayMips c E a ms r) :
    (∀ ds ∈ ms, ∀ gs ∈ ds, ∀ i, some i ∈ gs → Agrees E enc c a b i) → r = convMips c enc b ms := by
  induction h with
  | nil => intro _; rfl
  | depthsUb ds ms h =>
    intro hA
    simp only [convMips]
    rw [← mayDepths_eq hf ht h (hA ds List.mem_cons_self)]; rfl
  | failed ds ds' ms bs h =>
    intro hA
    simp only [convMips]
    rw [← mayDepths_eq hf ht h (hA ds List.mem_cons_self)]; rfl
  | restUb ds ds' ms bs h _ ih =>
    intro hA
    simp only [convMips]
    rw [← mayDepths_eq hf ht h (hA ds List.mem_cons_self),
      ← ih (fun gs hg => hA gs (List.mem_cons_of_mem _ hg))]; rfl
  | cons ds ds' ms ms' bs ok bss h _ ih =>
    intro hA
    simp only [convMips]
    rw [← mayDepths_eq hf ht h (hA ds List.mem_cons_self),
      ← ih (fun gs hg => hA gs (List.mem_cons_of_mem _ hg))]; rfl

/-- If every surface has an outcome, so has the conversion. -/
theorem mayFaces_total (gs : List (Option Img))
    (hE : ∀ i, some i ∈ gs → ∀ k, createConverter c a.format a.type = some k → ∃ r, E k a i r) :
    ∃ r, MayFaces c E a gs r := by
  induction gs with
  | nil => exact ⟨_, .nil⟩
  | cons g gs ih =>
    cases hk : createConverter c a.format a.type with
    | none => exact ⟨_, .noConv g gs hk⟩
    | some k =>
      cases g with
      | none => exact ⟨_, .noImage gs k hk⟩
      | some i =>
        obtain ⟨r, hr⟩ := hE i List.mem_cons_self k hk
        cases r with
        | ub => exact ⟨_, .encUb i gs k hk hr⟩
        | ok bytes =>
          obtain ⟨r, h⟩ := ih (fun i hi => hE i (List.mem_cons_of_mem _ hi))
          rcases r with _ | ⟨ok, gs', bs⟩
          · exact ⟨_, .cons i gs k bytes _ _ _ hk hr h⟩
          · exact ⟨_, .restUb i gs k bytes hk hr h⟩

theorem mayDepths_total (ds : List (List (Option Img)))
    (hE : ∀ gs ∈ ds, ∀ i, some i ∈ gs → ∀ k, createConverter c a.format a.type = some k →
      ∃ r, E k a i r) : ∃ r, MayDepths c E a ds r := by
  induction ds with
  | nil => exact ⟨_, .nil⟩
  | cons fs ds ih =>
    obtain ⟨r, h⟩ := mayFaces_total fs (hE fs List.mem_cons_self)
    obtain ⟨r', h'⟩ := ih (fun gs hg => hE gs (List.mem_cons_of_mem _ hg))
    rcases r with ⟨ok, fs', bs⟩ | _
    · cases ok with
      | false => exact ⟨_, .failed fs fs' ds bs h⟩
      | true =>
        rcases r' with ⟨ok', ds', bss⟩ | _
        · exact ⟨_, .cons fs fs' ds ds' bs ok' bss h h'⟩
        · exact ⟨_, .restUb fs fs' ds bs h h'⟩
    · exact ⟨_, .facesUb fs ds h⟩

theorem mayMips_total (ms : Store (Option Img))
    (hE : ∀ ds ∈ ms, ∀ gs ∈ ds, ∀ i, some i ∈ gs → ∀ k, createConverter c a.format a.type = some k →
      ∃ r, E k a i r) : ∃ r, MayMips c E a ms r := by
  induction ms with
  | nil => exact ⟨_, .nil⟩
  | cons ds ms ih =>
    obtain ⟨r, h⟩ := mayDepths_total ds (hE ds List.mem_cons_self)
    obtain ⟨r', h'⟩ := ih (fun gs hg => hE gs (List.mem_cons_of_mem _ hg))
    rcases r with ⟨ok, ds', bs⟩ | _
    · cases ok with
      | false => exact ⟨_, .failed ds ds' ms bs h⟩
      | true =>
        rcases r' with ⟨ok', ms', bss⟩ | _
        · exact ⟨_, .cons ds ds' ms ms' bs ok' bss h h'⟩
        · exact ⟨_, .restUb ds ds' ms bs h h'⟩
    · exact ⟨_, .depthsUb ds ms h⟩

theorem exec_one {P : Pool} {s s' : Par} {ch : Choice} {e : Event} (h : P.step s ch = some (.ok (e, s'))) :
    P.exec [ch] s = some (.ok ([e], s')) := exec_cons.2 ⟨e, s', [], h, rfl, rfl⟩

/-- Every run can be continued until the call returns (or until undefined behaviour). -/
theorem run_completes {P : Pool} (hn : P.jobs.length + P.threads < pow32) (n : Nat) :
    ∀ s, PInv P s → P.left s = n → ∃ cs, P.exec cs s = some .ub ∨
      ∃ es s', P.exec cs s = some (.ok (es, s')) ∧ s'.caller = .returned := by
  induction n with
  | zero =>
    intro s hI hl
    refine ⟨[], Or.inr ⟨[], s, rfl, ?_⟩⟩
    by_contra hr
    obtain ⟨ch, hc⟩ := can_move hI hr
    cases hs : P.step s ch with
    | none => exact hc hs
    | some r =>
      cases r with
      | ok p =>
        obtain ⟨e, s'⟩ := p
        have := left_step hn hI (step_to hs)
        omega
      | ub =>
        cases ch with
        | caller => simp [Pool.step] at hs
        | worker w =>
          have hpos : ∀ x, s.workers[w]? = some x → x ≠ .finished → 0 < (s.workers.map Worker.wt).sum := by
            intro x hx hne
            have := wt_set (y := .finished) hx
            have h2 : 0 < x.wt := by cases x <;> simp [Worker.wt] at hne ⊢
            have h3 : x.wt + ((s.workers.set w .finished).map Worker.wt).sum =
              0 + (s.workers.map Worker.wt).sum := this
            omega
          cases hw : s.workers[w]? with
          | none => simp [Pool.step, Pool.stepWorker, hw] at hs
          | some x =>
            have := hpos x hw (by
              rintro rfl
              simp [Pool.step, Pool.stepWorker, hw] at hs)
            unfold Pool.left at hl
            omega
  | succ n ih =>
    intro s hI hl
    by_cases hr : s.caller = .returned
    · exact ⟨[], Or.inr ⟨[], s, rfl, hr⟩⟩
    obtain ⟨ch, hc⟩ := can_move hI hr
    cases hs : P.step s ch with
    | none => exact absurd hs hc
    | some r =>
      cases r with
      | ub => exact ⟨[ch], Or.inl (by simp [Pool.exec, hs])⟩
      | ok p =>
        obtain ⟨e, s'⟩ := p
        have h1 := left_step hn hI (step_to hs)
        obtain ⟨cs, h | ⟨es, s2, h, h2⟩⟩ := ih s' (pinv_step hn hI (step_to hs)) (by omega)
        · exact ⟨ch :: cs, Or.inl (by simp [Pool.exec, hs, h])⟩
        · exact ⟨ch :: cs, Or.inr ⟨e :: es, s2, exec_cons.2 ⟨e, s', es, hs, h, rfl⟩, h2⟩⟩

theorem jobs_threads {X : Ext} {k : Conv} {a : ConvArgs} {img : FImg} {js : List (Nat × Nat)}
    (hJ : JobsOf X k a img js) :
    (surfacePool X k a img js).jobs.length + (surfacePool X k a img js).threads < pow32 := by
  have h1 := hJ.count
  have h2 := hJ.small
  have : curThreads k img a.threads ≤ js.length := by
    unfold curThreads; rw [h1]; exact Nat.min_le_left _ _
  show js.length + curThreads k img a.threads < pow32
  omega

theorem outcome_total {X : Ext} (hX : CodecSizes X) {c : Features} {f : Format} {t : TType} {k : Conv}
    (hk : createConverter c f t = some k) {a : ConvArgs} (ha : a.format = f)
    {img : FImg} (hf : Fits f img.width img.height) : ∃ r, Outcome X k a img r := by
  by_cases hT : curThreads k img a.threads ≤ 1
  · exact ⟨_, .single hT⟩
  · have hT : 1 < curThreads k img a.threads := by omega
    cases hp : isPvrtc f with
    | true =>
      exfalso
      have : k = .pvrtc := by
        cases f <;> simp only [isPvrtc, Bool.false_eq_true] at hp <;> cases t <;>
          simp [createConverter, ifUNorm] at hk <;> first | exact hk.symm | exact hk.2.symm
      subst this
      have h2 : curThreads .pvrtc img a.threads ≤ 1 := Nat.min_le_left _ _
      omega
    | false =>
      obtain ⟨js, hJ⟩ := image_jobs X hX hk hp a ha img hf
      obtain ⟨cs, h | ⟨es, s, h, hr⟩⟩ := run_completes (jobs_threads hJ) _ _
        (pinv_init (surfacePool X k a img js) (k.initSize a img)
          (by show 0 < curThreads k img a.threads; omega)) rfl
      · exact ⟨_, .multiUb js cs hT hJ.make h⟩
      · exact ⟨_, .multi js cs es s hT hJ.make h hr⟩

theorem mem_begins {es : List Event} {j : Nat} : j ∈ begins es ↔ ∃ w, Event.begin w j ∈ es := by
  induction es with
  | nil => simp [begins]
  | cons e es ih =>
    cases e with
    | begin v i =>
      simp only [begins, List.mem_cons, ih, Event.begin.injEq]
      constructor
      · rintro (rfl | ⟨w, h⟩)
        · exact ⟨v, Or.inl ⟨rfl, rfl⟩⟩
        · exact ⟨w, Or.inr h⟩
      · rintro ⟨w, ⟨-, h⟩ | h⟩
        · exact Or.inl h
        · exact Or.inr ⟨w, h⟩
    | _ => simp [begins, ih]

theorem begins_once {es : List Event} (hn : (begins es).Nodup) {w j : Nat} (h : Event.begin w j ∈ es) :
    es.count (.begin w j) = 1 ∧ ∀ w', w' ≠ w → es.count (.begin w' j) = 0 := by
  induction es with
  | nil => simp at h
  | cons e es ih =>
    by_cases he : ∃ v i, e = .begin v i
    · obtain ⟨v, i, rfl⟩ := he
      simp only [begins, List.nodup_cons] at hn
      by_cases hij : i = j
      · subst hij
        have hno : ∀ u, Event.begin u i ∉ es := fun u hu => hn.1 (mem_begins.2 ⟨u, hu⟩)
        simp only [List.mem_cons, Event.begin.injEq] at h
        rcases h with ⟨rfl, -⟩ | h
        · refine ⟨?_, ?_⟩
          · rw [List.count_cons_self, List.count_eq_zero_of_not_mem (hno w)]
          · intro w' hw'
            rw [List.count_cons_of_ne (by simp [Ne.symm hw']), List.count_eq_zero_of_not_mem (hno w')]
        · exact absurd h (hno w)
      · simp only [List.mem_cons, Event.begin.injEq, show ¬ (w = v ∧ j = i) from fun h => hij h.2.symm,
          false_or] at h
        obtain ⟨h1, h2⟩ := ih hn.2 h
        refine ⟨?_, ?_⟩
        · rw [List.count_cons_of_ne (by simp [hij]), h1]
        · intro w' hw'
          rw [List.count_cons_of_ne (by simp [hij]), h2 w' hw']
    · have hne : ∀ u, Event.begin u j ≠ e := fun u hu => he ⟨u, j, hu.symm⟩
      have hb : begins (e :: es) = begins es := by
        cases e <;> first | rfl | exact absurd ⟨_, _, rfl⟩ he
      rw [hb] at hn
      simp only [List.mem_cons, hne w, false_or] at h
      obtain ⟨h1, h2⟩ := ih hn h
      refine ⟨?_, ?_⟩
      · rw [List.count_cons_of_ne (hne w).symm, h1]
      · intro w' hw'; rw [List.count_cons_of_ne (hne w').symm, h2 w' hw']

theorem stores_once {es : List Event} (hn : ((stores es).map Prod.fst).Nodup) : StoredOnce es := by
  induction es with
  | nil => intro p q w w' e e' h; simp at h
  | cons x es ih =>
    have hmem : ∀ (q : Nat) (w : Nat) (e : Write), es[q]? = some (.store w e) → e ∈ stores es := by
      clear ih hn
      intro q w e h
      induction es generalizing q with
      | nil => simp at h
      | cons y es ih =>
        cases q with
        | zero => simp at h; subst h; simp [stores]
        | succ q =>
          have := ih q (by simpa using h)
          cases y <;> simp [stores, this]
    intro p q w w' e e' h1 h2 h3
    have hn' : ((stores es).map Prod.fst).Nodup := by
      cases x <;> first | exact hn | (simp only [stores, List.map_cons, List.nodup_cons] at hn; exact hn.2)
    cases p with
    | zero =>
      cases q with
      | zero => rfl
      | succ q =>
        exfalso
        simp at h1 h2; subst h1
        simp only [stores, List.map_cons, List.nodup_cons] at hn
        apply hn.1
        rw [h3]
        exact List.mem_map_of_mem (hmem q w' e' h2)
    | succ p =>
      cases q with
      | zero =>
        exfalso
        simp at h1 h2; subst h2
        simp only [stores, List.map_cons, List.nodup_cons] at hn
        apply hn.1
        rw [← h3]
        exact List.mem_map_of_mem (hmem p w e h1)
      | succ q => rw [ih hn' p q w w' e e' (by simpa using h1) (by simpa using h2) h3]

end Cuttlefish
