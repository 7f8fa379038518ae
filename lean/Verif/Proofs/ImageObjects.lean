import Verif.Spec.ImageValues
import Verif.Proofs.Basic
import Mathlib.Tactic.Common
import Mathlib.Data.Nat.Basic
/-
Image objects own their bitmaps: the invariant and the refinement to values.
-/
namespace Cuttlefish
open Spec
variable {N : Type}

theorem fput_self {β : Type} (f : ℕ → β) (a : ℕ) (b : β) : fput f a b a = b := by simp [fput]

theorem fput_ne {β : Type} (f : ℕ → β) {a x : ℕ} (b : β) (h : x ≠ a) : fput f a b x = f x := by simp [fput, h]

theorem fput_fput {β : Type} (f : ℕ → β) (a : ℕ) (b c : β) : fput (fput f a b) a c = fput f a c := by
  funext x
  unfold fput
  split <;> rfl

theorem fput_same {β : Type} (f : ℕ → β) (a : ℕ) (b : β) (h : f a = b) : fput f a b = f := by
  funext x
  unfold fput
  split
  · next e => rw [e, h]
  · rfl

/-- Every object that holds an image owns a bitmap that is alive, no two own the same one, every bitmap that is alive is
owned, and handles that were not given out are free. -/
structure ImgMem.WF (m : ImgMem N) : Prop where
  live : ∀ v r, m.vars v = some (some r) → m.heap r.handle ≠ none
  uniq : ∀ v w r q, m.vars v = some (some r) → m.vars w = some (some q) → r.handle = q.handle → v = w
  owned : ∀ h b, m.heap h = some b → ∃ v r, m.vars v = some (some r) ∧ r.handle = h
  fresh : ∀ h, m.next ≤ h → m.heap h = none

/-- The values that the variables hold. -/
def ImgMem.abs (m : ImgMem N) : ImgVals N := fun v =>
  match m.vars v with
  | none => none
  | some none => some none
  | some (some r) => some ((m.heap r.handle).map fun b => (b, r.format, r.colorSpace))

theorem ImgMem.wf_init : (ImgMem.init N).WF :=
  ⟨by simp [ImgMem.init], by simp [ImgMem.init], by simp [ImgMem.init], by simp [ImgMem.init]⟩

/-- `create` gives what the specification says; the only change of the memory is the bitmap of the new image. -/
theorem img_create_spec (FP : FromPalette N) (m : ImgMem N) (hm : ∀ h, m.next ≤ h → m.heap h = none) (r : Option (FIBitmap N))
    (cs : ColorSpace) (format : IFormat) :
    match made FP r cs format with
    | none => ∃ next, m.next ≤ next ∧ m.create FP r cs format = .ok (none, { m with next := next })
    | some i => ∃ next h, m.next ≤ h ∧ h < next ∧ m.create FP r cs format =
        .ok (some ⟨h, i.2.1, i.2.2⟩, { m with next := next, heap := fput m.heap h (some i.1) }) := by
  cases r with
  | none => exact ⟨m.next, le_rfl, rfl⟩
  | some b =>
    have h0 := hm m.next le_rfl
    have h1 := hm (m.next + 1) (by omega)
    have e0 : fput m.heap m.next none = m.heap := fput_same _ _ _ h0
    have e1 : fput m.heap (m.next + 1) none = m.heap := fput_same _ _ _ h1
    by_cases hc : b.color = .Palette
    · cases hn : (if b.transparent then FP.to32 b else FP.to24 b) with
      | none =>
        have hm' : made FP (some b) cs format = none := by simp [made, hc, hn]
        rw [hm']
        refine ⟨m.next + 1, by omega, ?_⟩
        simp [ImgMem.create, ImgMem.alloc, ImgMem.get, ImgMem.unload, fput_self, hc, hn, fput_fput, e0]
      | some b' =>
        have hsw : fput (fput (fput m.heap m.next (some b)) (m.next + 1) (some b')) m.next none =
            fput m.heap (m.next + 1) (some b') := by
          funext x
          unfold fput
          by_cases x1 : x = m.next
          · have : x ≠ m.next + 1 := by omega
            rw [if_pos x1, if_neg this, x1, h0]
          · rw [if_neg x1]
            split <;> simp_all
        have hg : fput (fput m.heap m.next (some b)) (m.next + 1) (some b') m.next = some b := by
          rw [fput_ne _ _ (by omega), fput_self]
        by_cases hf : (if format = .Invalid then getFormat b' else format) = .Invalid
        · have hm' : made FP (some b) cs format = none := by simp [made, hc, hn, hf]
          rw [hm']
          refine ⟨m.next + 1 + 1, by omega, ?_⟩
          simp [ImgMem.create, ImgMem.alloc, ImgMem.get, ImgMem.unload, fput_self, hc, hn, hg, hsw, hf, fput_fput, e1]
        · have hm' : made FP (some b) cs format = some (b', if format = .Invalid then getFormat b' else format, cs) := by
            simp [made, hc, hn, hf]
          rw [hm']
          refine ⟨m.next + 1 + 1, m.next + 1, by omega, by omega, ?_⟩
          simp [ImgMem.create, ImgMem.alloc, ImgMem.get, ImgMem.unload, fput_self, hc, hn, hg, hsw, hf]
    · by_cases hf : (if format = .Invalid then getFormat b else format) = .Invalid
      · have hm' : made FP (some b) cs format = none := by simp [made, hc, hf]
        rw [hm']
        refine ⟨m.next + 1, by omega, ?_⟩
        simp [ImgMem.create, ImgMem.alloc, ImgMem.get, ImgMem.unload, fput_self, hc, hf, fput_fput, e0]
      · have hm' : made FP (some b) cs format = some (b, if format = .Invalid then getFormat b else format, cs) := by
          simp [made, hc, hf]
        rw [hm']
        refine ⟨m.next + 1, m.next, by omega, by omega, ?_⟩
        simp [ImgMem.create, ImgMem.alloc, ImgMem.get, fput_self, hc, hf]

/-- Give back the bitmap of a variable and set it to something that holds none. -/
theorem img_release_spec {m : ImgMem N} (hw : m.WF) {v : ℕ} {p : Option ImgRef} (hv : m.vars v = some p)
    (x : Option (Option ImgRef)) (hx : x = none ∨ x = some none) :
    ∃ m', m.release p = .ok m' ∧ m'.vars = m.vars ∧ m'.next = m.next ∧
      ({ m' with vars := fput m'.vars v x } : ImgMem N).WF ∧
      ({ m' with vars := fput m'.vars v x } : ImgMem N).abs = fput m.abs v (x.map fun _ => none) := by
  have hx' : ∀ r, x ≠ some (some r) := by rintro r rfl; simp at hx
  cases p with
  | none =>
    refine ⟨m, rfl, rfl, rfl, ⟨?_, ?_, ?_, hw.fresh⟩, ?_⟩
    · intro w r h
      simp only [fput] at h
      split at h
      · exact absurd h (hx' r)
      · exact hw.live w r h
    · intro w u r q h1 h2
      simp only [fput] at h1 h2
      split at h1
      · exact absurd h1 (hx' r)
      split at h2
      · exact absurd h2 (hx' q)
      exact hw.uniq w u r q h1 h2
    · intro h b hb
      obtain ⟨w, r, h1, h2⟩ := hw.owned h b hb
      refine ⟨w, r, ?_, h2⟩
      have : w ≠ v := by rintro rfl; rw [hv] at h1; simp at h1
      simp [fput, this, h1]
    · funext w
      unfold ImgMem.abs fput
      by_cases e : w = v
      · rcases hx with rfl | rfl <;> simp [e]
      · simp [e]
  | some r =>
    cases hb : m.heap r.handle with
    | none => exact absurd hb (hw.live v r hv)
    | some b =>
      refine ⟨{ m with heap := fput m.heap r.handle none }, by simp [ImgMem.release, ImgMem.unload, hb], rfl, rfl,
        ⟨?_, ?_, ?_, ?_⟩, ?_⟩
      · intro w q h
        simp only [fput] at h ⊢
        split at h
        · exact absurd h (hx' q)
        · next hne =>
          rw [if_neg (fun e => hne (hw.uniq w v q r h hv e))]
          exact hw.live w q h
      · intro w u q q' h1 h2
        simp only [fput] at h1 h2
        split at h1
        · exact absurd h1 (hx' q)
        split at h2
        · exact absurd h2 (hx' q')
        exact hw.uniq w u q q' h1 h2
      · intro h c hc
        simp only [fput] at hc
        split at hc
        · simp at hc
        · next hne =>
          obtain ⟨w, q, h1, h2⟩ := hw.owned h c hc
          refine ⟨w, q, ?_, h2⟩
          have : w ≠ v := by
            rintro rfl
            rw [hv] at h1
            simp only [Option.some.injEq] at h1
            exact hne (by rw [← h2, h1])
          simp [fput, this, h1]
      · intro h hh
        simp only [fput]
        split
        · rfl
        · exact hw.fresh h hh
      · funext w
        by_cases e : w = v
        · subst e
          rcases hx with rfl | rfl <;> simp [ImgMem.abs, fput_self]
        · rw [fput_ne _ _ e]
          simp only [ImgMem.abs, fput_ne _ _ e]
          cases hw' : m.vars w with
          | none => rfl
          | some q =>
            cases q with
            | none => rfl
            | some q =>
              simp only
              rw [fput_ne _ _ (fun e' => e (hw.uniq w v q r hw' hv e'))]

/-- A new image in a variable that holds none. -/
theorem img_store_spec {FP : FromPalette N} {m : ImgMem N} (hw : m.WF) {v : ℕ} (hv : ∀ r, m.vars v ≠ some (some r))
    (r : Option (FIBitmap N)) (cs : ColorSpace) (format : IFormat) :
    ∃ c, m.create FP r cs format = .ok c ∧ ({ c.2 with vars := fput c.2.vars v (some c.1) } : ImgMem N).WF ∧
      ({ c.2 with vars := fput c.2.vars v (some c.1) } : ImgMem N).abs = fput m.abs v (some (made FP r cs format)) := by
  have h := img_create_spec FP m hw.fresh r cs format
  cases hm : made FP r cs format with
  | none =>
    rw [hm] at h
    obtain ⟨next, hn, e⟩ := h
    refine ⟨_, e, ⟨?_, ?_, ?_, ?_⟩, ?_⟩
    · intro w q h
      simp only [fput] at h
      split at h
      · simp at h
      · exact hw.live w q h
    · intro w u q q' h1 h2
      simp only [fput] at h1 h2
      split at h1
      · simp at h1
      split at h2
      · simp at h2
      exact hw.uniq w u q q' h1 h2
    · intro h b hb
      obtain ⟨w, q, h1, h2⟩ := hw.owned h b hb
      refine ⟨w, q, ?_, h2⟩
      have : w ≠ v := by rintro rfl; exact hv q h1
      simp [fput, this, h1]
    · intro h hh
      exact hw.fresh h (le_trans hn hh)
    · funext w
      by_cases e : w = v
      · subst e; simp [ImgMem.abs, fput_self]
      · simp [ImgMem.abs, fput_ne _ _ e]
  | some i =>
    rw [hm] at h
    obtain ⟨next, k, hk, hn, e⟩ := h
    have hkn : m.heap k = none := hw.fresh k hk
    have hne : ∀ w q, m.vars w = some (some q) → q.handle ≠ k := fun w q h1 e => hw.live w q h1 (by rw [e, hkn])
    refine ⟨_, e, ⟨?_, ?_, ?_, ?_⟩, ?_⟩
    · intro w q h
      by_cases e : w = v
      · subst e
        simp only [fput_self, Option.some.injEq] at h
        subst h
        simp [fput_self]
      · simp only [fput_ne _ _ e] at h
        simp only [fput_ne _ _ (hne w q h)]
        exact hw.live w q h
    · intro w u q q' h1 h2 e
      by_cases ew : w = v <;> by_cases eu : u = v
      · rw [ew, eu]
      · subst ew
        simp only [fput_self, Option.some.injEq] at h1
        simp only [fput_ne _ _ eu] at h2
        subst h1
        exact absurd e.symm (hne u q' h2)
      · subst eu
        simp only [fput_self, Option.some.injEq] at h2
        simp only [fput_ne _ _ ew] at h1
        subst h2
        exact absurd e (hne w q h1)
      · simp only [fput_ne _ _ ew] at h1
        simp only [fput_ne _ _ eu] at h2
        exact hw.uniq w u q q' h1 h2 e
    · intro h b hb
      by_cases eh : h = k
      · exact ⟨v, ⟨k, i.2.1, i.2.2⟩, by simp [fput_self], eh.symm⟩
      · simp only [fput_ne _ _ eh] at hb
        obtain ⟨w, q, h1, h2⟩ := hw.owned h b hb
        refine ⟨w, q, ?_, h2⟩
        have : w ≠ v := by rintro rfl; exact hv q h1
        simp [fput, this, h1]
    · intro h hh
      simp only at hh
      simp only [fput_ne _ _ (show h ≠ k by omega)]
      exact hw.fresh h (by omega)
    · funext w
      by_cases e : w = v
      · subst e; simp [ImgMem.abs, fput_self]
      · simp only [ImgMem.abs, fput_ne _ _ e]
        cases hw' : m.vars w with
        | none => rfl
        | some q =>
          cases q with
          | none => rfl
          | some q => simp only [fput_ne _ _ (hne w q hw')]

theorem img_abs_none {m : ImgMem N} {v : ℕ} (h : m.vars v = none) : m.abs v = none := by simp [ImgMem.abs, h]

theorem img_abs_some {m : ImgMem N} {v : ℕ} {p : Option ImgRef} (h : m.vars v = some p) : ∃ x, m.abs v = some x := by
  cases p with
  | none => exact ⟨none, by simp [ImgMem.abs, h]⟩
  | some r => exact ⟨_, by simp only [ImgMem.abs, h]; rfl⟩

theorem remake_spec {FP : FromPalette N} {m : ImgMem N} (hw : m.WF) {v : ℕ} {p : Option ImgRef} (hv : m.vars v = some p)
    (r : Option (FIBitmap N)) (cs : ColorSpace) (format : IFormat) :
    ∃ m', m.remake FP v p r cs format = .ok m' ∧ m'.WF ∧ m'.abs = fput m.abs v (some (made FP r cs format)) := by
  obtain ⟨m1, e1, -, -, hw1, ha1⟩ := img_release_spec hw hv (some none) (.inr rfl)
  obtain ⟨c, e2, hw2, ha2⟩ := img_store_spec (FP := FP) (v := v) hw1 (by simp [fput_self]) r cs format
  refine ⟨_, ?_, hw2, ?_⟩
  · rw [ImgMem.remake, e1, Res.ok_bind, e2, Res.ok_bind]
    rfl
  · rw [ha2, ha1, fput_fput]

theorem img_empty_spec {m : ImgMem N} (hw : m.WF) {v : ℕ} (hv : ∀ r, m.vars v ≠ some (some r)) :
    ({ m with vars := fput m.vars v (some none) } : ImgMem N).WF ∧
      ({ m with vars := fput m.vars v (some none) } : ImgMem N).abs = fput m.abs v (some none) := by
  refine ⟨⟨?_, ?_, ?_, hw.fresh⟩, ?_⟩
  · intro w q h
    simp only [fput] at h
    split at h
    · simp at h
    · exact hw.live w q h
  · intro w u q q' h1 h2
    simp only [fput] at h1 h2
    split at h1
    · simp at h1
    split at h2
    · simp at h2
    exact hw.uniq w u q q' h1 h2
  · intro h b hb
    obtain ⟨w, q, h1, h2⟩ := hw.owned h b hb
    refine ⟨w, q, ?_, h2⟩
    have : w ≠ v := by rintro rfl; exact hv q h1
    simp [fput, this, h1]
  · funext w
    by_cases e : w = v
    · subst e; simp [ImgMem.abs, fput_self]
    · simp [ImgMem.abs, fput_ne _ _ e]

theorem cloneInto_spec {FP : FromPalette N} {m : ImgMem N} (hw : m.WF) {dst src : ℕ} {q : Option ImgRef}
    (hd : ∀ r, m.vars dst ≠ some (some r)) (hs : m.vars src = some q) (hne : dst ≠ src)
    (f : FIBitmap N → Option (FIBitmap N)) (format : Option IFormat) :
    ∃ m' x, m.cloneInto FP dst q f format = .ok m' ∧ m'.WF ∧ m.abs src = some x ∧
      m'.abs = fput m.abs dst (some (x.bind fun i => made FP (f i.1) i.2.2 (format.getD i.2.1))) := by
  obtain ⟨hw1, ha1⟩ := img_empty_spec hw hd
  cases q with
  | none =>
    refine ⟨_, none, rfl, hw1, by simp [ImgMem.abs, hs], ha1⟩
  | some q =>
    cases hb : m.heap q.handle with
    | none => exact absurd hb (hw.live src q hs)
    | some b =>
      obtain ⟨c, e2, hw2, ha2⟩ := img_store_spec (FP := FP) (v := dst) hw1 (by simp [fput_self]) (f b) q.colorSpace
        (format.getD q.format)
      refine ⟨_, some (b, q.format, q.colorSpace), ?_, hw2, by simp [ImgMem.abs, hs, hb], ?_⟩
      · rw [ImgMem.cloneInto, ImgMem.get, hb]
        simp only [Res.ok_bind]
        rw [e2, Res.ok_bind]
        rfl
      · rw [ha2, ha1, fput_fput]
        rfl

theorem img_move_spec {m : ImgMem N} (hw : m.WF) {dst src : ℕ} {q : Option ImgRef} (hd : ∀ r, m.vars dst ≠ some (some r))
    (hs : m.vars src = some q) (hne : dst ≠ src) :
    ∃ x, m.abs src = some x ∧ ({ m with vars := fput (fput m.vars src (some none)) dst (some q) } : ImgMem N).WF ∧
      ({ m with vars := fput (fput m.vars src (some none)) dst (some q) } : ImgMem N).abs =
        fput (fput m.abs src (some none)) dst (some x) := by
  obtain ⟨x, hx⟩ := img_abs_some hs
  have back : ∀ w r, fput (fput m.vars src (some none)) dst (some q) w = some (some r) →
      (w = dst ∧ m.vars src = some (some r)) ∨ (w ≠ dst ∧ w ≠ src ∧ m.vars w = some (some r)) := by
    intro w r h
    simp only [fput] at h
    split at h
    · next e =>
      left
      rw [hs]
      exact ⟨e, h⟩
    · next e =>
      split at h
      · simp at h
      · next e' => exact .inr ⟨e, e', h⟩
  refine ⟨x, hx, ⟨?_, ?_, ?_, hw.fresh⟩, ?_⟩
  · intro w r h
    rcases back w r h with ⟨-, h⟩ | ⟨-, -, h⟩
    · exact hw.live _ r h
    · exact hw.live _ r h
  · intro w u r r' h1 h2 e
    rcases back w r h1 with ⟨w1, h1⟩ | ⟨w1, w2, h1⟩ <;> rcases back u r' h2 with ⟨u1, h2⟩ | ⟨u1, u2, h2⟩
    · rw [w1, u1]
    · exact absurd (hw.uniq _ _ _ _ h1 h2 e).symm u2
    · exact absurd (hw.uniq _ _ _ _ h1 h2 e) w2
    · exact hw.uniq _ _ _ _ h1 h2 e
  · intro h b hb
    obtain ⟨w, r, h1, h2⟩ := hw.owned h b hb
    by_cases ew : w = src
    · subst ew
      refine ⟨dst, r, ?_, h2⟩
      rw [h1] at hs
      simp only [fput_self, hs]
    · refine ⟨w, r, ?_, h2⟩
      have : w ≠ dst := by rintro rfl; exact hd r h1
      simp only [fput_ne _ _ this, fput_ne _ _ ew, h1]
  · funext w
    by_cases ed : w = dst
    · subst ed
      simp only [ImgMem.abs, fput_self] at hx ⊢
      rw [hs] at hx
      cases q <;> simpa using hx
    · rw [fput_ne _ _ ed]
      by_cases es : w = src
      · subst es
        simp [ImgMem.abs, fput_self, fput_ne _ _ ed]
      · simp only [ImgMem.abs, fput_ne _ _ ed, fput_ne _ _ es]

theorem img_change_spec {m : ImgMem N} (hw : m.WF) {v : ℕ} {r : ImgRef} {b : FIBitmap N} (hv : m.vars v = some (some r))
    (hb : m.heap r.handle = some b) (b' : FIBitmap N) (cs : ColorSpace) :
    ({ m with heap := fput m.heap r.handle (some b'),
              vars := fput m.vars v (some (some { r with colorSpace := cs })) } : ImgMem N).WF ∧
    ({ m with heap := fput m.heap r.handle (some b'),
              vars := fput m.vars v (some (some { r with colorSpace := cs })) } : ImgMem N).abs =
      fput m.abs v (some (some (b', r.format, cs))) := by
  have back : ∀ w q, fput m.vars v (some (some { r with colorSpace := cs })) w = some (some q) →
      ∃ q', m.vars w = some (some q') ∧ q'.handle = q.handle := by
    intro w q h
    by_cases e : w = v
    · subst e
      simp only [fput_self, Option.some.injEq] at h
      exact ⟨r, hv, by rw [← h]⟩
    · simp only [fput_ne _ _ e] at h
      exact ⟨q, h, rfl⟩
  refine ⟨⟨?_, ?_, ?_, ?_⟩, ?_⟩
  · intro w q h
    obtain ⟨q', h1, h2⟩ := back w q h
    have := hw.live w q' h1
    rw [h2] at this
    simp only [fput]
    split <;> simp_all
  · intro w u q q' h1 h2 e
    obtain ⟨p, p1, p2⟩ := back w q h1
    obtain ⟨p', p1', p2'⟩ := back u q' h2
    exact hw.uniq w u p p' p1 p1' (by rw [p2, p2', e])
  · intro h c hc
    have : ∃ c', m.heap h = some c' := by
      simp only [fput] at hc
      split at hc
      · next e => exact ⟨b, by rw [e, hb]⟩
      · exact ⟨c, hc⟩
    obtain ⟨c', hc'⟩ := this
    obtain ⟨w, q, h1, h2⟩ := hw.owned h c' hc'
    by_cases e : w = v
    · subst e
      rw [hv] at h1
      simp only [Option.some.injEq] at h1
      exact ⟨w, { r with colorSpace := cs }, by simp [fput_self], by rw [← h2, ← h1]⟩
    · exact ⟨w, q, by simp only [fput_ne _ _ e, h1], h2⟩
  · intro h hh
    have := hw.fresh h hh
    simp only [fput]
    split
    · next e => rw [e, hb] at this; simp at this
    · exact this
  · funext w
    by_cases e : w = v
    · subst e; simp [ImgMem.abs, fput_self]
    · simp only [ImgMem.abs, fput_ne _ _ e]
      cases hw' : m.vars w with
      | none => rfl
      | some q =>
        cases q with
        | none => rfl
        | some q => simp only [fput_ne _ _ (fun e' => e (hw.uniq w v q r hw' hv e'))]

/-- One operation on objects is the operation on values. -/
theorem img_step (FP : FromPalette N) {m : ImgMem N} (hw : m.WF) (o : ImgOp N) :
    match m.step FP o with
    | .ub => m.abs.step FP o = none
    | .ok m' => m'.WF ∧ m.abs.step FP o = some m'.abs := by
  cases o with
  | construct v =>
    cases hv : m.vars v with
    | none =>
      simp only [ImgMem.step, hv, ImgVals.step, img_abs_none hv]
      obtain ⟨h1, h2⟩ := img_empty_spec hw (v := v) (by simp [hv])
      exact ⟨h1, by rw [h2]⟩
    | some p =>
      obtain ⟨x, hx⟩ := img_abs_some hv
      simp [ImgMem.step, hv, ImgVals.step, hx]
  | destroy v =>
    cases hv : m.vars v with
    | none => simp [ImgMem.step, hv, ImgVals.step, img_abs_none hv]
    | some p =>
      obtain ⟨x, hx⟩ := img_abs_some hv
      obtain ⟨m1, e1, -, -, hw1, ha1⟩ := img_release_spec hw hv none (.inl rfl)
      simp only [ImgMem.step, hv, e1, Res.ok_bind, Res.pure_eq, ImgVals.step, hx, Option.map_some]
      exact ⟨hw1, by rw [ha1]; rfl⟩
  | reset v =>
    cases hv : m.vars v with
    | none => simp [ImgMem.step, hv, ImgVals.step, img_abs_none hv]
    | some p =>
      obtain ⟨x, hx⟩ := img_abs_some hv
      obtain ⟨m1, e1, -, -, hw1, ha1⟩ := img_release_spec hw hv (some none) (.inr rfl)
      simp only [ImgMem.step, hv, e1, Res.ok_bind, Res.pure_eq, ImgVals.step, hx, Option.map_some]
      exact ⟨hw1, by rw [ha1]; rfl⟩
  | load v r cs =>
    cases hv : m.vars v with
    | none => simp [ImgMem.step, hv, ImgVals.step, img_abs_none hv]
    | some p =>
      obtain ⟨x, hx⟩ := img_abs_some hv
      obtain ⟨m1, e1, hw1, ha1⟩ := remake_spec (FP := FP) hw hv r cs .Invalid
      simp only [ImgMem.step, hv, e1, ImgVals.step, hx, Option.map_some]
      exact ⟨hw1, by rw [ha1]⟩
  | «initialize» v r format cs =>
    cases hv : m.vars v with
    | none => simp [ImgMem.step, hv, ImgVals.step, img_abs_none hv]
    | some p =>
      obtain ⟨x, hx⟩ := img_abs_some hv
      obtain ⟨m1, e1, hw1, ha1⟩ := remake_spec (FP := FP) hw hv r cs format
      simp only [ImgMem.step, hv, e1, ImgVals.step, hx, Option.map_some]
      exact ⟨hw1, by rw [ha1]⟩
  | copyCtor dst src clone =>
    cases hd : m.vars dst with
    | some p =>
      obtain ⟨x, hx⟩ := img_abs_some hd
      simp [ImgMem.step, hd, ImgVals.step, hx]
    | none =>
      cases hs : m.vars src with
      | none => simp [ImgMem.step, hd, hs, ImgVals.step, img_abs_none hd, img_abs_none hs]
      | some q =>
        have hne : dst ≠ src := by rintro rfl; rw [hd] at hs; simp at hs
        obtain ⟨m1, x, e1, hw1, hx, ha1⟩ := cloneInto_spec (FP := FP) hw (by simp [hd]) hs hne
          (fun b => if clone then some b else none) none
        simp only [ImgMem.step, hd, hs, e1, ImgVals.step, img_abs_none hd, hx]
        exact ⟨hw1, by rw [ha1]; rfl⟩
  | moveCtor dst src =>
    cases hd : m.vars dst with
    | some p =>
      obtain ⟨x, hx⟩ := img_abs_some hd
      simp [ImgMem.step, hd, ImgVals.step, hx]
    | none =>
      cases hs : m.vars src with
      | none => simp [ImgMem.step, hd, hs, ImgVals.step, img_abs_none hd, img_abs_none hs]
      | some q =>
        have hne : dst ≠ src := by rintro rfl; rw [hd] at hs; simp at hs
        obtain ⟨x, hx, hw1, ha1⟩ := img_move_spec hw (by simp [hd]) hs hne
        simp only [ImgMem.step, hd, hs, ImgVals.step, img_abs_none hd, hx]
        exact ⟨hw1, by rw [ha1]⟩
  | copyAssign dst src clone =>
    cases hd : m.vars dst with
    | none => simp [ImgMem.step, hd, ImgVals.step, img_abs_none hd]
    | some p =>
      obtain ⟨x, hx⟩ := img_abs_some hd
      cases hs : m.vars src with
      | none => simp [ImgMem.step, hd, hs, ImgVals.step, hx, img_abs_none hs]
      | some q =>
        obtain ⟨y, hy⟩ := img_abs_some hs
        by_cases hne : dst = src
        · simp only [ImgMem.step, hd, hs, ImgVals.step, hx, hy, if_pos hne]
          exact ⟨hw, trivial⟩
        · obtain ⟨m1, e1, ev, -, hw1, ha1⟩ := img_release_spec hw hd (some none) (.inr rfl)
          obtain ⟨m2, z, e2, hw2, hz, ha2⟩ := cloneInto_spec (FP := FP) (dst := dst) (src := src) (q := q) hw1
            (by simp [fput_self]) (by simp only [fput_ne _ _ (Ne.symm hne), ev, hs]) hne (fun b => if clone then some b else none) none
          have hzy : z = y := by
            rw [ha1, fput_ne _ _ (Ne.symm hne), hy] at hz
            exact (Option.some.inj hz).symm
          subst hzy
          simp only [ImgMem.step, hd, hs, if_neg hne, e1, Res.ok_bind, e2, ImgVals.step, hx, hy]
          exact ⟨hw2, by rw [ha2, ha1, fput_fput]; rfl⟩
  | moveAssign dst src =>
    cases hd : m.vars dst with
    | none => simp [ImgMem.step, hd, ImgVals.step, img_abs_none hd]
    | some p =>
      obtain ⟨x, hx⟩ := img_abs_some hd
      cases hs : m.vars src with
      | none => simp [ImgMem.step, hd, hs, ImgVals.step, hx, img_abs_none hs]
      | some q =>
        obtain ⟨y, hy⟩ := img_abs_some hs
        by_cases hne : dst = src
        · simp only [ImgMem.step, hd, hs, ImgVals.step, hx, hy, if_pos hne]
          exact ⟨hw, trivial⟩
        · obtain ⟨m1, e1, ev, en, hw1, ha1⟩ := img_release_spec hw hd (some none) (.inr rfl)
          obtain ⟨z, hz, hw2, ha2⟩ := img_move_spec (dst := dst) (src := src) (q := q) hw1 (by simp [fput_self])
            (by simp only [fput_ne _ _ (Ne.symm hne), ev, hs]) hne
          have hzy : z = y := by
            rw [ha1, fput_ne _ _ (Ne.symm hne), hy] at hz
            exact (Option.some.inj hz).symm
          subst hzy
          have er : ({ m with vars := fput m.vars src (some none) } : ImgMem N).release p =
              .ok { m1 with vars := fput m.vars src (some none) } := by
            cases p with
            | none =>
              simp only [ImgMem.release, Res.ok.injEq] at e1 ⊢
              rw [← e1]
            | some r =>
              simp only [ImgMem.release, ImgMem.unload] at e1 ⊢
              cases hb : m.heap r.handle with
              | none => simp [hb] at e1
              | some b =>
                simp only [hb, Res.ok.injEq] at e1 ⊢
                rw [← e1]
          have hvars : fput (fput (fput m1.vars dst (some none)) src (some none)) dst (some q) =
              fput (fput m.vars src (some none)) dst (some q) := by
            rw [ev]
            funext w
            simp only [fput]
            split
            · rfl
            · split <;> rfl
          simp only [ImgMem.step, hd, hs, if_neg hne, er, Res.ok_bind, Res.pure_eq, ImgVals.step, hx, hy]
          rw [hvars] at hw2 ha2
          refine ⟨hw2, ?_⟩
          rw [ha2, ha1]
          congr 1
          funext w
          simp only [fput]
          split
          · rfl
          · split <;> rfl
  | «derive» dst src f format =>
    cases hd : m.vars dst with
    | some p =>
      obtain ⟨x, hx⟩ := img_abs_some hd
      simp [ImgMem.step, hd, ImgVals.step, hx]
    | none =>
      cases hs : m.vars src with
      | none => simp [ImgMem.step, hd, hs, ImgVals.step, img_abs_none hd, img_abs_none hs]
      | some q =>
        have hne : dst ≠ src := by rintro rfl; rw [hd] at hs; simp at hs
        obtain ⟨m1, x, e1, hw1, hx, ha1⟩ := cloneInto_spec (FP := FP) hw (by simp [hd]) hs hne f (some format)
        simp only [ImgMem.step, hd, hs, e1, ImgVals.step, img_abs_none hd, hx]
        exact ⟨hw1, by rw [ha1]; rfl⟩
  | change v f cs =>
    cases hv : m.vars v with
    | none => simp [ImgMem.step, hv, ImgVals.step, img_abs_none hv]
    | some p =>
      cases p with
      | none =>
        have : m.abs v = some none := by simp [ImgMem.abs, hv]
        simp only [ImgMem.step, hv, ImgVals.step, this, Option.map_some, Option.map_none]
        exact ⟨hw, by rw [fput_same _ _ _ this]⟩
      | some r =>
        cases hb : m.heap r.handle with
        | none => exact absurd hb (hw.live v r hv)
        | some b =>
          have : m.abs v = some (some (b, r.format, r.colorSpace)) := by simp [ImgMem.abs, hv, hb]
          obtain ⟨h1, h2⟩ := img_change_spec hw hv hb { b with pixels := f b.pixels } (cs r.colorSpace)
          simp only [ImgMem.step, hv, ImgMem.get, hb, Res.ok_bind, Res.pure_eq, ImgVals.step, this, Option.map_some]
          exact ⟨h1, by rw [h2]⟩

/-- A history of operations on objects is the history on values. -/
theorem img_run (FP : FromPalette N) (ops : List (ImgOp N)) : ∀ {m : ImgMem N}, m.WF →
    match m.run FP ops with
    | .ub => m.abs.run FP ops = none
    | .ok m' => m'.WF ∧ m.abs.run FP ops = some m'.abs := by
  induction ops with
  | nil => intro m hw; exact ⟨hw, rfl⟩
  | cons o os ih =>
    intro m hw
    have h := img_step FP hw o
    cases hs : m.step FP o with
    | ub =>
      rw [hs] at h
      simp only [ImgMem.run, hs, Res.ub_bind, ImgVals.run]
      simp only at h
      rw [h, Option.bind_none]
    | ok m1 =>
      rw [hs] at h
      obtain ⟨hw1, e⟩ := h
      have h2 := ih hw1
      simp only [ImgMem.run, hs, Res.ok_bind, ImgVals.run]
      rw [e, Option.bind_some]
      exact h2

end Cuttlefish
