import Verif.Spec.Values
import Verif.Proofs.Basic
/-
The pointer-level memory of textures refines value semantics.
-/
namespace Cuttlefish
open Spec
variable {Img : Type}

/-- Every variable owns its own `Impl`, and every `Impl` is owned. -/
structure TexMem.WF (m : TexMem Img) : Prop where
  alive : ∀ v p, m.vars v = some (some p) → ∃ i, m.heap p = some i
  owned : ∀ p i, m.heap p = some i → ∃ v, m.vars v = some (some p)
  uniq : ∀ v w p, m.vars v = some (some p) → m.vars w = some (some p) → v = w
  bound : ∀ p i, m.heap p = some i → p < m.next

/-- The value each variable denotes. -/
def TexMem.abs (m : TexMem Img) : TexVals Img := fun v =>
  match m.vars v with
  | none => none
  | some none => some none
  | some (some p) => some (m.heap p)

theorem fput_eq_upd {β : Type} (f : Nat → β) (a : Nat) (b : β) : fput f a b = upd f a b := rfl

@[simp] theorem fput_self {β : Type} (f : Nat → β) (a : Nat) (b : β) : fput f a b a = b := by
  simp [fput]
theorem fput_ne {β : Type} (f : Nat → β) {a x : Nat} (b : β) (h : x ≠ a) : fput f a b x = f x := by
  simp [fput, h]

theorem TexMem.wf_init : (TexMem.init Img).WF :=
  ⟨by simp [TexMem.init], by simp [TexMem.init], by simp [TexMem.init], by simp [TexMem.init]⟩

/-- Freeing the pointer of a variable and overwriting the variable with nothing. -/
theorem wf_clear {m : TexMem Img} (hw : m.WF) {v : Nat} {o : Option Nat} (hv : m.vars v = some o)
    (x : Option (Option Nat)) (hx : x = none ∨ x = some none) :
    ∃ m', m.free o = .ok m' ∧ m'.vars = m.vars ∧
      ({ m' with vars := fput m'.vars v x } : TexMem Img).WF ∧
      ({ m' with vars := fput m'.vars v x } : TexMem Img).abs = upd m.abs v (x.map (fun _ => none)) := by
  have hxs : ∀ p, x ≠ some (some p) := by rcases hx with rfl | rfl <;> simp
  cases o with
  | none =>
    refine ⟨m, rfl, rfl, ⟨?_, ?_, ?_, ?_⟩, ?_⟩
    · intro w p h
      by_cases hwv : w = v
      · subst hwv; simp at h; exact absurd h (hxs p)
      · exact hw.alive w p (by rw [← h]; exact (fput_ne _ _ hwv).symm)
    · intro p i h
      obtain ⟨w, hw'⟩ := hw.owned p i h
      refine ⟨w, ?_⟩
      have : w ≠ v := by rintro rfl; rw [hv] at hw'; simp at hw'
      show fput m.vars v x w = _
      rw [fput_ne _ _ this]; exact hw'
    · intro a b p h1 h2
      have ha : a ≠ v := by rintro rfl; simp at h1; exact hxs p h1
      have hb : b ≠ v := by rintro rfl; simp at h2; exact hxs p h2
      exact hw.uniq a b p (by rw [← h1]; exact (fput_ne _ _ ha).symm) (by rw [← h2]; exact (fput_ne _ _ hb).symm)
    · exact hw.bound
    · funext w
      by_cases hwv : w = v
      · subst hwv
        simp only [TexMem.abs, fput_self, upd, if_true]
        rcases hx with rfl | rfl <;> rfl
      · simp only [TexMem.abs, fput_ne _ _ hwv, upd, if_neg hwv]
  | some p =>
    obtain ⟨i, hi⟩ := hw.alive v p hv
    refine ⟨{ m with heap := fput m.heap p none }, by simp [TexMem.free, hi], rfl, ⟨?_, ?_, ?_, ?_⟩, ?_⟩
    · intro w q h
      have hwv : w ≠ v := by rintro rfl; simp at h; exact hxs q h
      have h' : fput m.vars v x w = some (some q) := h
      rw [fput_ne _ _ hwv] at h'
      clear h; rename _ => h
      have hqp : q ≠ p := by rintro rfl; exact hwv (hw.uniq _ _ _ h hv)
      obtain ⟨j, hj⟩ := hw.alive w q h
      exact ⟨j, by show fput m.heap p none q = _; rw [fput_ne _ _ hqp]; exact hj⟩
    · intro q j h
      have h : fput m.heap p none q = some j := h
      have hqp : q ≠ p := by rintro rfl; simp at h
      rw [fput_ne _ _ hqp] at h
      obtain ⟨w, hw'⟩ := hw.owned q j h
      have hwv : w ≠ v := by rintro rfl; rw [hv] at hw'; simp at hw'; exact hqp hw'.symm
      exact ⟨w, by show fput m.vars v x w = _; rw [fput_ne _ _ hwv]; exact hw'⟩
    · intro a b q h1 h2
      have ha : a ≠ v := by rintro rfl; simp at h1; exact hxs q h1
      have hb : b ≠ v := by rintro rfl; simp at h2; exact hxs q h2
      exact hw.uniq a b q (by rw [← h1]; exact (fput_ne _ _ ha).symm) (by rw [← h2]; exact (fput_ne _ _ hb).symm)
    · intro q j h
      have h : fput m.heap p none q = some j := h
      have hqp : q ≠ p := by rintro rfl; simp at h
      rw [fput_ne _ _ hqp] at h
      exact hw.bound q j h
    · funext w
      by_cases hwv : w = v
      · subst hwv
        simp only [TexMem.abs, fput_self, upd, if_true]
        rcases hx with rfl | rfl <;> rfl
      · simp only [TexMem.abs, fput_ne _ _ hwv, upd, if_neg hwv]
        cases hvw : m.vars w with
        | none => rfl
        | some o => cases o with
          | none => rfl
          | some q =>
            have hqp : q ≠ p := by rintro rfl; exact hwv (hw.uniq _ _ _ hvw hv)
            simp [fput_ne _ _ hqp]

theorem wf_alloc {m : TexMem Img} (hw : m.WF) {v : Nat}
    (hv : m.vars v = none ∨ m.vars v = some none) (i : TexImpl Img) :
    ∃ m', m.alloc v none i = .ok m' ∧ m'.WF ∧ m'.abs = upd m.abs v (some (some i)) := by
  have hnp : ∀ p, m.vars v ≠ some (some p) := by rcases hv with h | h <;> simp [h]
  have hfresh : m.heap m.next = none := by
    cases h : m.heap m.next with
    | none => rfl
    | some j => exact absurd (hw.bound _ _ h) (by omega)
  refine ⟨_, rfl, ⟨?_, ?_, ?_, ?_⟩, ?_⟩
  · intro w p h
    by_cases hwv : w = v
    · subst hwv; simp at h; subst h; exact ⟨i, by simp⟩
    · have h : fput m.vars v _ w = some (some p) := h
      rw [fput_ne _ _ hwv] at h
      obtain ⟨j, hj⟩ := hw.alive w p h
      have : p ≠ m.next := by rintro rfl; rw [hfresh] at hj; cases hj
      exact ⟨j, by show fput m.heap _ _ p = _; rw [fput_ne _ _ this]; exact hj⟩
  · intro p j h
    have h : fput m.heap m.next (some i) p = some j := h
    by_cases hp : p = m.next
    · subst hp; exact ⟨v, by simp⟩
    · rw [fput_ne _ _ hp] at h
      obtain ⟨w, hw'⟩ := hw.owned p j h
      have : w ≠ v := by rintro rfl; exact hnp p hw'
      exact ⟨w, by show fput m.vars v _ w = _; rw [fput_ne _ _ this]; exact hw'⟩
  · have key : ∀ a p, fput m.vars v (some (some m.next)) a = some (some p) →
        (a = v ∧ p = m.next) ∨ (a ≠ v ∧ m.vars a = some (some p) ∧ p ≠ m.next) := by
      intro a p h
      by_cases ha : a = v
      · subst ha; simp at h; exact Or.inl ⟨rfl, h.symm⟩
      · rw [fput_ne _ _ ha] at h
        obtain ⟨j, hj⟩ := hw.alive a p h
        exact Or.inr ⟨ha, h, by rintro rfl; rw [hfresh] at hj; cases hj⟩
    intro a b p h1 h2
    rcases key a p h1 with ⟨ha, hp⟩ | ⟨ha, h1', hp⟩ <;> rcases key b p h2 with ⟨hb, hp'⟩ | ⟨hb, h2', hp'⟩
    · rw [ha, hb]
    · exact absurd hp hp'
    · exact absurd hp' hp
    · exact hw.uniq a b p h1' h2'
  · intro p j h
    have h : fput m.heap m.next (some i) p = some j := h
    show p < m.next + 1
    by_cases hp : p = m.next
    · omega
    · rw [fput_ne _ _ hp] at h
      have := hw.bound p j h; omega
  · funext w
    by_cases hwv : w = v
    · subst hwv; simp [TexMem.abs, upd]
    · simp only [TexMem.abs, fput_ne _ _ hwv, upd, if_neg hwv]
      cases hvw : m.vars w with
      | none => rfl
      | some o => cases o with
        | none => rfl
        | some q =>
          have : q ≠ m.next := by
            rintro rfl
            obtain ⟨j, hj⟩ := hw.alive w _ hvw
            rw [hfresh] at hj; cases hj
          simp [fput_ne _ _ this]

theorem wf_store {m : TexMem Img} (hw : m.WF) {v p : Nat} (hv : m.vars v = some (some p))
    (i : TexImpl Img) :
    ({ m with heap := fput m.heap p (some i) } : TexMem Img).WF ∧
    ({ m with heap := fput m.heap p (some i) } : TexMem Img).abs = upd m.abs v (some (some i)) := by
  obtain ⟨i0, hi0⟩ := hw.alive v p hv
  refine ⟨⟨?_, ?_, hw.uniq, ?_⟩, ?_⟩
  · intro w q h
    by_cases hq : q = p
    · subst hq; exact ⟨i, by simp⟩
    · obtain ⟨j, hj⟩ := hw.alive w q h
      exact ⟨j, by show fput m.heap p _ q = _; rw [fput_ne _ _ hq]; exact hj⟩
  · intro q j h
    have h : fput m.heap p (some i) q = some j := h
    by_cases hq : q = p
    · subst hq; exact ⟨v, hv⟩
    · rw [fput_ne _ _ hq] at h; exact hw.owned q j h
  · intro q j h
    have h : fput m.heap p (some i) q = some j := h
    by_cases hq : q = p
    · subst hq; exact hw.bound _ _ hi0
    · rw [fput_ne _ _ hq] at h; exact hw.bound q j h
  · funext w
    by_cases hwv : w = v
    · subst hwv; simp [TexMem.abs, upd, hv]
    · simp only [TexMem.abs, upd, if_neg hwv]
      cases hvw : m.vars w with
      | none => rfl
      | some o => cases o with
        | none => rfl
        | some q =>
          have : q ≠ p := by rintro rfl; exact hwv (hw.uniq _ _ _ hvw hv)
          simp [fput_ne _ _ this]

/-- Moving the pointer of `src` into the empty or dead variable `dst`. -/
theorem wf_move {m : TexMem Img} (hw : m.WF) {dst src : Nat} {q : Option Nat} (hne : dst ≠ src)
    (hs : m.vars src = some q) (hd : m.vars dst = none ∨ m.vars dst = some none) :
    ({ m with vars := fput (fput m.vars src (some none)) dst (some q) } : TexMem Img).WF ∧
    ∀ t, m.abs src = some t →
      ({ m with vars := fput (fput m.vars src (some none)) dst (some q) } : TexMem Img).abs =
        upd (upd m.abs src (some none)) dst (some t) := by
  have hdn : ∀ p, m.vars dst ≠ some (some p) := by rcases hd with h | h <;> simp [h]
  have key : ∀ a p, fput (fput m.vars src (some none)) dst (some q) a = some (some p) →
      (a = dst ∧ q = some p) ∨ (a ≠ dst ∧ a ≠ src ∧ m.vars a = some (some p)) := by
    intro a p h
    by_cases ha : a = dst
    · subst ha; simp at h; exact Or.inl ⟨rfl, h⟩
    · rw [fput_ne _ _ ha] at h
      by_cases hb : a = src
      · subst hb; simp at h
      · rw [fput_ne _ _ hb] at h; exact Or.inr ⟨ha, hb, h⟩
  refine ⟨⟨?_, ?_, ?_, hw.bound⟩, ?_⟩
  · intro w p h
    rcases key w p h with ⟨-, rfl⟩ | ⟨-, -, h⟩
    · exact hw.alive src p hs
    · exact hw.alive w p h
  · intro p i h
    obtain ⟨w, hw'⟩ := hw.owned p i h
    by_cases hb : w = src
    · subst hb; rw [hs] at hw'; simp at hw'
      exact ⟨dst, by simp [hw']⟩
    · have ha : w ≠ dst := by rintro rfl; exact hdn p hw'
      exact ⟨w, by show fput (fput m.vars src _) dst _ w = _; rw [fput_ne _ _ ha, fput_ne _ _ hb]; exact hw'⟩
  · intro a b p h1 h2
    rcases key a p h1 with ⟨ha, rfl⟩ | ⟨ha, ha', h1'⟩ <;> rcases key b p h2 with ⟨hb, hq⟩ | ⟨hb, hb', h2'⟩
    · rw [ha, hb]
    · exact absurd (hw.uniq _ _ _ h2' hs) hb'
    · subst hq; exact absurd (hw.uniq _ _ _ h1' hs) ha'
    · exact hw.uniq a b p h1' h2'
  · intro t ht
    funext w
    by_cases ha : w = dst
    · subst ha
      simp only [TexMem.abs, hs] at ht
      simp only [TexMem.abs, fput_self, upd, if_true]
      cases q with
      | none => exact ht
      | some p => exact ht
    · by_cases hb : w = src
      · subst hb
        simp [TexMem.abs, fput_ne _ _ ha, upd, ha]
      · simp [TexMem.abs, fput_ne _ _ ha, fput_ne _ _ hb, upd, ha, hb]

theorem free_vars {m m' : TexMem Img} {o : Option Nat} (h : m.free o = .ok m')
    (vs : Nat → Option (Option Nat)) :
    ({ m with vars := vs } : TexMem Img).free o = .ok { m' with vars := vs } := by
  cases o with
  | none => simp [TexMem.free] at h ⊢; rw [h]; exact ⟨rfl, rfl⟩
  | some p =>
    simp only [TexMem.free] at h ⊢
    cases hp : m.heap p with
    | none => simp [hp] at h
    | some i => simp only [hp, Res.ok.injEq] at h ⊢; subst h; rfl

theorem abs_none {m : TexMem Img} {v : Nat} : m.abs v = none ↔ m.vars v = none := by
  unfold TexMem.abs; cases h : m.vars v with
  | none => simp
  | some o => cases o <;> simp

theorem abs_some {m : TexMem Img} {v : Nat} {o : Option Nat} (h : m.vars v = some o) :
    ∃ t, m.abs v = some t ∧ (o = none → t = none) ∧ (∀ p, o = some p → t = m.heap p) := by
  unfold TexMem.abs; rw [h]; cases o <;> simp

/-- Calls that do not allocate never turn an invalid texture into a valid one. -/
theorem call_none {W : World Img} {op : Op Img} {r : Out Img × Tex Img}
    (h : call W none op = .ok r) (ha : op.allocates = false) : r.2 = none := by
  cases op with
  | «initialize» => simp [Op.allocates] at ha
  | reset => simp [call, Tex.reset] at h; rw [← h]
  | setImage img mv face mip depth =>
    simp only [call] at h
    simp [Tex.setImage, Tex.depthAt] at h; rw [← h]
  | generateMipmaps => simp [call, Tex.generateMipmaps] at h; rw [← h]
  | convert => simp [call, Tex.convert, Tex.imagesComplete] at h; rw [← h]
  | getImage => simp [call, Tex.getImage, Tex.depthAt] at h; rw [← h]
  | extents => simp [call, Tex.depthAt, Tex.widthAt, Tex.heightAt] at h; rw [← h]
  | data => simp [call, Tex.data, Tex.dataSize, Tex.converted] at h; rw [← h]

theorem wf_storeCall {m : TexMem Img} (hw : m.WF) {v : Nat} {o : Option Nat}
    (hv : m.vars v = some o) (t' : Tex Img) (fresh : Bool) :
    ∃ m', m.storeCall v o t' fresh = .ok m' ∧ m'.WF ∧ m'.abs = upd m.abs v (some t') := by
  cases t' with
  | none =>
    obtain ⟨m1, h1, h2, h3, h4⟩ := wf_clear hw hv (some none) (Or.inr rfl)
    refine ⟨_, ?_, h3, h4⟩
    simp [TexMem.storeCall, h1]
  | some i =>
    cases o with
    | none => exact wf_alloc hw (Or.inr hv) i
    | some p =>
      cases fresh with
      | false => exact ⟨_, rfl, wf_store hw hv i⟩
      | true =>
        obtain ⟨m1, h1, h2, h3, h4⟩ := wf_clear hw hv (some none) (Or.inr rfl)
        obtain ⟨m2, g1, g2, g3⟩ := wf_alloc h3 (v := v) (Or.inr (by simp)) i
        refine ⟨m2, ?_, g2, ?_⟩
        · simp only [TexMem.storeCall, if_true, h1, Res.ok_bind]; exact g1
        · rw [g3, h4]; funext w; unfold upd; split <;> rfl

/-- One step on pointers is one step on values. -/
theorem step_refines (W : World Img) {m : TexMem Img} (hw : m.WF) (o : TexOp Img) :
    match m.step W o with
    | .ub => TexVals.step W m.abs o = .ub
    | .ok (out, m') => m'.WF ∧ TexVals.step W m.abs o = .ok (out, m'.abs) := by
  cases o with
  | construct v =>
    cases hv : m.vars v with
    | some p =>
      obtain ⟨t, ht, -⟩ := abs_some hv
      simp [TexMem.step, hv, TexVals.step, ht]
    | none =>
      have ha := abs_none.2 hv
      simp only [TexMem.step, hv, TexVals.step, ha]
      refine ⟨⟨?_, ?_, ?_, hw.bound⟩, ?_⟩
      · intro w p h
        have hwv : w ≠ v := by rintro rfl; simp at h
        exact hw.alive w p (by rw [← h]; exact (fput_ne _ _ hwv).symm)
      · intro p i h
        obtain ⟨w, hw'⟩ := hw.owned p i h
        have : w ≠ v := by rintro rfl; rw [hv] at hw'; simp at hw'
        exact ⟨w, by show fput m.vars v _ w = _; rw [fput_ne _ _ this]; exact hw'⟩
      · intro a b p h1 h2
        have ha : a ≠ v := by rintro rfl; simp at h1
        have hb : b ≠ v := by rintro rfl; simp at h2
        exact hw.uniq a b p (by rw [← h1]; exact (fput_ne _ _ ha).symm) (by rw [← h2]; exact (fput_ne _ _ hb).symm)
      · simp only [Res.ok.injEq, Prod.mk.injEq, true_and]
        funext w
        by_cases hwv : w = v
        · subst hwv; simp [TexMem.abs, upd]
        · simp [TexMem.abs, fput_ne _ _ hwv, upd, hwv]
  | destroy v =>
    cases hv : m.vars v with
    | none =>
      simp [TexMem.step, hv, TexVals.step, abs_none.2 hv]
    | some p =>
      obtain ⟨t, ht, -⟩ := abs_some hv
      obtain ⟨m1, h1, h2, h3, h4⟩ := wf_clear hw hv none (Or.inl rfl)
      simp only [TexMem.step, hv, h1, Res.ok_bind, Res.pure_eq, TexVals.step, ht]
      exact ⟨h3, by rw [h4]; rfl⟩
  | copyCtor dst src =>
    cases hd : m.vars dst with
    | some p =>
      obtain ⟨t, ht, -⟩ := abs_some hd
      simp [TexMem.step, hd, TexVals.step, ht]
    | none =>
      have hda := abs_none.2 hd
      cases hs : m.vars src with
      | none => simp [TexMem.step, hd, hs, TexVals.step, hda, abs_none.2 hs]
      | some q =>
        obtain ⟨t, ht, ht1, ht2⟩ := abs_some hs
        cases q with
        | none =>
          rw [ht1 rfl] at ht
          have := step_refines W hw (.construct dst)
          simp only [TexMem.step, hd, TexVals.step, hda] at this
          simp only [TexMem.step, hd, hs, TexVals.step, hda, ht]
          exact this
        | some q =>
          obtain ⟨i, hi⟩ := hw.alive src q hs
          rw [ht2 q rfl, hi] at ht
          obtain ⟨m1, h1, h2, h3⟩ := wf_alloc hw (Or.inl hd) i
          simp only [TexMem.step, hd, hs, hi, h1, Res.ok_bind, Res.pure_eq, TexVals.step, hda, ht]
          exact ⟨h2, by rw [h3]⟩
  | moveCtor dst src =>
    cases hd : m.vars dst with
    | some p =>
      obtain ⟨t, ht, -⟩ := abs_some hd
      simp [TexMem.step, hd, TexVals.step, ht]
    | none =>
      have hda := abs_none.2 hd
      cases hs : m.vars src with
      | none => simp [TexMem.step, hd, hs, TexVals.step, hda, abs_none.2 hs]
      | some q =>
        obtain ⟨t, ht, -⟩ := abs_some hs
        have hne : dst ≠ src := by rintro rfl; rw [hd] at hs; cases hs
        obtain ⟨h1, h2⟩ := wf_move hw hne hs (Or.inl hd)
        simp only [TexMem.step, hd, hs, TexVals.step, hda, ht]
        exact ⟨h1, by rw [h2 t ht]⟩
  | copyAssign dst src =>
    cases hd : m.vars dst with
    | none => simp [TexMem.step, hd, TexVals.step, abs_none.2 hd]
    | some p =>
      obtain ⟨td, htd, -⟩ := abs_some hd
      cases hs : m.vars src with
      | none => simp [TexMem.step, hd, hs, TexVals.step, htd, abs_none.2 hs]
      | some q =>
        obtain ⟨t, ht, ht1, ht2⟩ := abs_some hs
        by_cases hne : dst = src
        · subst hne
          simp only [TexMem.step, hd, TexVals.step, htd, if_true]
          refine ⟨hw, ?_⟩
          simp only [Res.ok.injEq, Prod.mk.injEq, true_and]
          funext w; unfold upd; split
          · rename_i h; rw [h, htd]
          · rfl
        · cases q with
          | none =>
            rw [ht1 rfl] at ht
            obtain ⟨m1, h1, h2, h3, h4⟩ := wf_clear hw hd (some none) (Or.inr rfl)
            simp only [TexMem.step, hd, hs, if_neg hne, h1, Res.ok_bind, Res.pure_eq, TexVals.step, htd, ht]
            exact ⟨h3, by rw [h4]; rfl⟩
          | some q =>
            obtain ⟨i, hi⟩ := hw.alive src q hs
            rw [ht2 q rfl, hi] at ht
            cases p with
            | none =>
              obtain ⟨m1, h1, h2, h3⟩ := wf_alloc hw (Or.inr hd) i
              simp only [TexMem.step, hd, hs, if_neg hne, hi, h1, Res.ok_bind, Res.pure_eq, TexVals.step, htd, ht]
              exact ⟨h2, by rw [h3]⟩
            | some p =>
              obtain ⟨j, hj⟩ := hw.alive dst p hd
              obtain ⟨h1, h2⟩ := wf_store hw hd i
              simp only [TexMem.step, hd, hs, if_neg hne, hi, hj, TexVals.step, htd, ht]
              exact ⟨h1, by rw [h2]⟩
  | moveAssign dst src =>
    cases hd : m.vars dst with
    | none => simp [TexMem.step, hd, TexVals.step, abs_none.2 hd]
    | some p =>
      obtain ⟨td, htd, -⟩ := abs_some hd
      cases hs : m.vars src with
      | none => simp [TexMem.step, hd, hs, TexVals.step, htd, abs_none.2 hs]
      | some q =>
        obtain ⟨t, ht, -⟩ := abs_some hs
        by_cases hne : dst = src
        · subst hne
          simp only [TexMem.step, hd, TexVals.step, htd, if_true]
          refine ⟨hw, ?_⟩
          simp only [Res.ok.injEq, Prod.mk.injEq, true_and]
          funext w; unfold upd; split
          · rename_i h; rw [h, htd]
          · rfl
        · obtain ⟨m1, h1, h2, h3, h4⟩ := wf_clear hw hd (some none) (Or.inr rfl)
          have hs' : fput m1.vars dst (some none) src = some q := by
            rw [h2, fput_ne _ _ (Ne.symm hne)]; exact hs
          obtain ⟨g1, g2⟩ := wf_move h3 (dst := dst) (src := src) (q := q) hne hs' (Or.inr (by simp))
          have hvars : fput (fput (fput m1.vars dst (some none)) src (some none)) dst (some q) =
              fput (fput m.vars src (some none)) dst (some q) := by
            rw [h2]; funext w; unfold fput; split <;> rfl
          have hsa : ({ m1 with vars := fput m1.vars dst (some none) } : TexMem Img).abs src = some t := by
            rw [h4]; simp [upd, Ne.symm hne, ht]
          have g2 := g2 t hsa
          simp only [hvars] at g1 g2
          simp only [TexMem.step, hd, hs, if_neg hne, free_vars h1, Res.ok_bind, Res.pure_eq,
            TexVals.step, htd, ht]
          refine ⟨g1, ?_⟩
          rw [g2, h4]
          simp only [Res.ok.injEq, Prod.mk.injEq, true_and]
          funext w; unfold upd; split
          · rfl
          · split <;> rfl
  | call v op =>
    cases hv : m.vars v with
    | none => simp [TexMem.step, TexMem.value, hv, TexVals.step, abs_none.2 hv]
    | some p =>
      obtain ⟨t, ht, ht1, ht2⟩ := abs_some hv
      have hval : m.value v = .ok t := by
        unfold TexMem.value; rw [hv]
        cases p with
        | none => rw [ht1 rfl]
        | some p =>
          obtain ⟨i, hi⟩ := hw.alive v p hv
          rw [ht2 p rfl, hi]; simp [hi]
      cases hc : call W t op with
      | ub => simp [TexMem.step, hval, hc, TexVals.step, ht]
      | ok r =>
        obtain ⟨m1, h1, h2, h3⟩ := wf_storeCall hw hv r.2 op.allocates
        simp only [TexMem.step, hval, Res.ok_bind, hc, hv, h1, Res.pure_eq, TexVals.step, ht]
        exact ⟨h2, by rw [h3]⟩
termination_by match o with | .construct _ => 0 | _ => 1

theorem run_refines (W : World Img) (ops : List (TexOp Img)) {m : TexMem Img} (hw : m.WF) :
    match m.run W ops with
    | .ub => TexVals.run W m.abs ops = .ub
    | .ok (outs, m') => m'.WF ∧ TexVals.run W m.abs ops = .ok (outs, m'.abs) := by
  induction ops generalizing m with
  | nil => exact ⟨hw, rfl⟩
  | cons o os ih =>
    have h := step_refines W hw o
    simp only [TexMem.run, TexVals.run]
    cases hs : m.step W o with
    | ub => rw [hs] at h; simp only at h; simp [h]
    | ok r =>
      rw [hs] at h
      obtain ⟨h1, h2⟩ := h
      have ih := ih h1
      simp only [Res.ok_bind, h2]
      cases hr : r.2.run W os with
      | ub => rw [hr] at ih; simp only at ih; simp [ih]
      | ok rs =>
        rw [hr] at ih
        simp only [Res.ok_bind, ih.2, Res.pure_eq]
        exact ⟨ih.1, trivial⟩

end Cuttlefish
