import Mathlib.Data.List.Count
import Mathlib.Data.List.Perm.Basic
import Mathlib.Data.List.Nodup
import Verif.Proofs.Basic
import Verif.Model.AstcPool
/-
C37: ASTC encoder contexts are never shared.
-/
namespace Cuttlefish
variable {K : Type} [DecidableEq K]

/-- Every context in the list is alive with that configuration and use, and is in the list once; every context
that is alive is in the list. -/
def PoolOwns (refs : List (ℕ × K × Bool)) (heap : AstcHeap K) : Prop :=
  ∀ y, refs.count y = if heap[y.1]? = some (some y.2) then 1 else 0

theorem owns_perm {l l' : List (ℕ × K × Bool)} {heap : AstcHeap K} (p : l.Perm l') (h : PoolOwns l heap) :
    PoolOwns l' heap := fun y => by rw [← p.count_eq]; exact h y

theorem owns_head {x : ℕ × K × Bool} {rest : List (ℕ × K × Bool)} {heap : AstcHeap K}
    (h : PoolOwns (x :: rest) heap) : heap[x.1]? = some (some x.2) := by
  by_contra hn
  have := h x
  rw [if_neg hn, List.count_cons_self] at this
  omega

theorem owns_lt {x : ℕ × K × Bool} {rest : List (ℕ × K × Bool)} {heap : AstcHeap K}
    (h : PoolOwns (x :: rest) heap) : x.1 < heap.length := (List.getElem?_eq_some_iff.1 (owns_head h)).1

theorem owns_set {x : ℕ × K × Bool} {rest : List (ℕ × K × Bool)} {heap : AstcHeap K} (z : K × Bool)
    (h : PoolOwns (x :: rest) heap) : PoolOwns ((x.1, z) :: rest) (heap.set x.1 (some z)) := by
  intro y
  have hx := owns_head h
  have hlt := owns_lt h
  have hy := h y
  rw [List.count_cons] at hy ⊢
  rw [List.getElem?_set]
  obtain ⟨a, k⟩ := y
  obtain ⟨b, l⟩ := x
  dsimp only at *
  by_cases hab : b = a
  · subst hab
    rw [if_pos rfl, if_pos hlt]
    rw [hx] at hy
    by_cases h1 : l = k
    · subst h1
      simp at hy
      by_cases h2 : z = l
      · subst h2; simp [hy]
      · simp [h2, hy]
    · simp [h1] at hy
      by_cases h2 : z = k
      · subst h2; simp [hy]
      · simp [h2, hy]
  · rw [if_neg hab]
    simp [hab] at hy ⊢
    exact hy

theorem owns_free {x : ℕ × K × Bool} {rest : List (ℕ × K × Bool)} {heap : AstcHeap K}
    (h : PoolOwns (x :: rest) heap) : PoolOwns rest (heap.set x.1 none) := by
  intro y
  have hx := owns_head h
  have hlt := owns_lt h
  have hy := h y
  rw [List.count_cons] at hy
  rw [List.getElem?_set]
  obtain ⟨a, k⟩ := y
  obtain ⟨b, l⟩ := x
  dsimp only at *
  by_cases hab : b = a
  · subst hab
    rw [if_pos rfl, if_pos hlt]
    rw [hx] at hy
    by_cases h1 : l = k
    · subst h1
      simpa using hy
    · simpa [h1] using hy
  · rw [if_neg hab]
    simpa [hab] using hy

theorem owns_alloc {rest : List (ℕ × K × Bool)} {heap : AstcHeap K} (k : K) (h : PoolOwns rest heap) :
    PoolOwns ((heap.length, k, false) :: rest) (heap ++ [some (k, false)]) := by
  intro y
  have hy := h y
  rw [List.count_cons]
  obtain ⟨a, z⟩ := y
  dsimp only at *
  by_cases ha : a < heap.length
  · rw [List.getElem?_append_left ha, hy]
    simp [Nat.ne_of_gt ha]
  · rw [List.getElem?_eq_none (by omega)] at hy
    rw [List.getElem?_append_right (by omega)]
    simp only [reduceCtorEq, if_false] at hy
    rw [hy]
    by_cases hal : a = heap.length
    · subst hal
      simp
    · rw [List.getElem?_eq_none (by simp; omega)]
      have : heap.length ≠ a := fun e => hal e.symm
      simp [this]

theorem owns_nodup {refs : List (ℕ × K × Bool)} {heap : AstcHeap K} (h : PoolOwns refs heap) :
    (refs.map Prod.fst).Nodup := by
  refine (List.nodup_map_iff_inj_on ?_).2 ?_
  · rw [List.nodup_iff_count_le_one]
    intro y
    rw [h y]
    split <;> omega
  · intro x hx y hy hxy
    have h1 := h x
    have h2 := h y
    have p1 := List.count_pos_iff.2 hx
    have p2 := List.count_pos_iff.2 hy
    split at h1
    · rename_i e1
      split at h2
      · rename_i e2
        rw [hxy, e2] at e1
        simp only [Option.some.injEq] at e1
        exact Prod.ext hxy e1.symm
      · omega
    · omega

/-! ### The references of a state -/

def workerRef : Option (AstcWorker K) → Option (ℕ × K × Bool)
  | some ⟨some a, k, b⟩ => some (a, k, b)
  | _ => none

def entryRef : AstcEntry K → Option (ℕ × K × Bool)
  | (some a, k) => some (a, k, false)
  | _ => none

def held (s : AstcState K) : List (ℕ × K × Bool) := s.workers.filterMap workerRef

def cached (c : List (AstcEntry K)) : List (ℕ × K × Bool) := c.filterMap entryRef

/-- The invariant of the pool. -/
structure PoolInv (limit : ℕ) (s : AstcState K) : Prop where
  workers : ∀ x, some x ∈ s.workers → ∃ a, x.context = some a
  entries : ∀ e ∈ s.cache, ∃ a, e.1 = some a
  owns : PoolOwns (held s ++ cached s.cache) s.heap
  size : s.cache.length ≤ limit

theorem worker_split {l : List (Option (AstcWorker K))} {w : ℕ} {x : Option (AstcWorker K)}
    (h : l[w]? = some x) (y : Option (AstcWorker K)) :
    ∃ l1 l2, l = l1 ++ x :: l2 ∧ l.set w y = l1 ++ y :: l2 := by
  obtain ⟨hw, hx⟩ := List.getElem?_eq_some_iff.1 h
  refine ⟨l.take w, l.drop (w + 1), ?_, List.set_eq_take_append_cons_drop.trans (if_pos hw)⟩
  rw [← hx, List.getElem_cons_drop, List.take_append_drop]

theorem take_spec {k : K} : ∀ {c : List (AstcEntry K)} {r : Option ℕ × List (AstcEntry K)},
    astcTake k c = some r → c.Perm ((r.1, k) :: r.2)
  | [], r, h => by simp [astcTake] at h
  | e :: es, r, h => by
    unfold astcTake at h
    split at h
    · rename_i he
      simp only [Option.some.injEq] at h
      subst h
      obtain ⟨a, k'⟩ := e
      dsimp only at he
      subst he
      exact List.Perm.refl _
    · split at h
      · simp at h
      · rename_i q hq
        simp only [Option.some.injEq] at h
        subst h
        exact ((take_spec hq).cons e).trans (List.Perm.swap _ _ _)

theorem trim_spec {limit : ℕ} (hl : 0 < limit) (rest : List (ℕ × K × Bool)) :
    ∀ (c : List (AstcEntry K)) (heap : AstcHeap K), (∀ e ∈ c, ∃ a, e.1 = some a) →
      PoolOwns (rest ++ cached c) heap → ∃ heap' c', astcTrim limit heap c = .ok (heap', c') ∧
        c' <:+ c ∧ PoolOwns (rest ++ cached c') heap' ∧ c'.length < limit
  | [], heap, hc, ho => by
    refine ⟨heap, [], ?_, List.suffix_refl _, ho, hl⟩
    unfold astcTrim
    rw [if_neg (by omega)]
  | e :: es, heap, hc, ho => by
    unfold astcTrim
    by_cases hlen : limit ≤ es.length + 1
    · rw [if_pos hlen]
      obtain ⟨⟨ea, ek⟩, rfl⟩ : ∃ p, e = p := ⟨e, rfl⟩
      obtain ⟨a, ha⟩ := hc _ (List.mem_cons_self ..)
      dsimp only at ha
      subst ha
      have hp : (rest ++ cached ((some a, ek) :: es)).Perm ((a, ek, false) :: (rest ++ cached es)) := by
        simp only [cached, List.filterMap_cons, entryRef]
        exact List.perm_middle
      have ho' := owns_perm hp ho
      obtain ⟨heap', c', h1, h2, h3, h4⟩ := trim_spec hl rest es (heap.set a none)
        (fun e he => hc e (by simp [he])) (owns_free ho')
      refine ⟨heap', c', ?_, h2.trans (List.suffix_cons _ _), h3, h4⟩
      have hx := owns_head ho'
      dsimp only at hx
      simp only [astcFree]
      rw [hx]
      simpa using h1
    · rw [if_neg hlen]
      exact ⟨heap, e :: es, rfl, List.suffix_refl _, ho, by simp only [List.length_cons]; omega⟩

/-- Every allocation in the history succeeds. -/
def AllocOk : AstcStep K → Prop
  | .create _ success => success = true
  | _ => True

theorem held_set {s : AstcState K} {l1 l2 : List (Option (AstcWorker K))} {a : ℕ} {k : K} {b : Bool}
    (h : s.workers = l1 ++ some ⟨some a, k, b⟩ :: l2) :
    (held s).Perm ((a, k, b) :: (l1 ++ l2).filterMap workerRef) := by
  unfold held
  rw [h]
  simp only [List.filterMap_append, List.filterMap_cons, workerRef]
  exact List.perm_middle

theorem inv_step {limit : ℕ} (hl : 0 < limit) {s : AstcState K} (hI : PoolInv limit s) {o : AstcStep K}
    (ho : AllocOk o) {r : Res (AstcState K)} (h : s.step limit o = some r) :
    ∃ s', r = .ok s' ∧ PoolInv limit s' := by
  cases o with
  | create k success =>
    have hs : success = true := ho
    subst hs
    simp only [AstcState.step, Option.some.injEq] at h
    refine ⟨_, h.symm, ?_⟩
    unfold astcCreate
    cases ht : astcTake k s.cache with
    | some q =>
      obtain ⟨q1, q2⟩ := q
      have hp := take_spec ht
      obtain ⟨a, ha⟩ := hI.entries (q1, k) (hp.mem_iff.2 (List.mem_cons_self ..))
      dsimp only at ha
      subst ha
      refine ⟨?_, ?_, ?_, ?_⟩
      · intro x hx
        simp only [List.mem_append, List.mem_singleton] at hx
        rcases hx with hx | hx
        · exact hI.workers x hx
        · simp only [Option.some.injEq] at hx
          exact ⟨a, by rw [hx]⟩
      · intro e he
        exact hI.entries e (hp.mem_iff.2 (List.mem_cons_of_mem _ he))
      · refine owns_perm ?_ hI.owns
        unfold held
        simp only [List.filterMap_append, List.filterMap_cons, List.filterMap_nil, workerRef, List.append_assoc]
        refine List.Perm.append_left _ ?_
        exact (hp.filterMap entryRef).trans (by simp [cached, entryRef])
      · have := hp.length_eq
        simp only [List.length_cons] at this
        have := hI.size
        dsimp only
        omega
    | none =>
      refine ⟨?_, hI.entries, ?_, hI.size⟩
      · intro x hx
        simp only [List.mem_append, List.mem_singleton] at hx
        rcases hx with hx | hx
        · exact hI.workers x hx
        · simp only [Option.some.injEq] at hx
          exact ⟨s.heap.length, by rw [hx]; rfl⟩
      · refine owns_perm ?_ (owns_alloc k hI.owns)
        unfold held
        simp only [astcAlloc, if_true, List.filterMap_append, List.filterMap_cons, List.filterMap_nil, workerRef, List.append_assoc]
        exact (List.perm_middle (l₁ := s.workers.filterMap workerRef)).symm
  | start w =>
    simp only [AstcState.step] at h
    split at h
    · rename_i c k hw
      obtain ⟨a, ha⟩ := hI.workers _ (List.mem_of_getElem? hw)
      dsimp only at ha
      subst ha
      obtain ⟨l1, l2, e1, e2⟩ := worker_split hw (some ⟨some a, k, true⟩)
      have hp := owns_perm ((held_set e1).append_right _) hI.owns
      have hx := owns_head hp
      dsimp only at hx
      simp only [astcStart, hx, Res.ok_bind, Option.some.injEq] at h
      refine ⟨_, h.symm, ?_, hI.entries, ?_, hI.size⟩
      · intro x hxx
        dsimp only at hxx
        rw [e2] at hxx
        simp only [List.mem_append, List.mem_cons] at hxx
        rcases hxx with hxx | hxx | hxx
        · exact hI.workers x (by rw [e1]; simp [hxx])
        · simp only [Option.some.injEq] at hxx
          exact ⟨a, by rw [hxx]⟩
        · exact hI.workers x (by rw [e1]; simp [hxx])
      · have h2 := owns_set (k, true) hp
        dsimp only at h2
        refine owns_perm ?_ h2
        exact ((held_set (s := ⟨s.workers.set w (some ⟨some a, k, true⟩), s.cache, s.heap⟩) e2).append_right _).symm
    · simp at h
  | stop w =>
    simp only [AstcState.step] at h
    split at h
    · rename_i c k hw
      obtain ⟨a, ha⟩ := hI.workers _ (List.mem_of_getElem? hw)
      dsimp only at ha
      subst ha
      obtain ⟨l1, l2, e1, e2⟩ := worker_split hw (some ⟨some a, k, false⟩)
      have hp := owns_perm ((held_set e1).append_right _) hI.owns
      have hx := owns_head hp
      dsimp only at hx
      simp only [astcStop, hx, Res.ok_bind, Option.some.injEq] at h
      refine ⟨_, h.symm, ?_, hI.entries, ?_, hI.size⟩
      · intro x hxx
        dsimp only at hxx
        rw [e2] at hxx
        simp only [List.mem_append, List.mem_cons] at hxx
        rcases hxx with hxx | hxx | hxx
        · exact hI.workers x (by rw [e1]; simp [hxx])
        · simp only [Option.some.injEq] at hxx
          exact ⟨a, by rw [hxx]⟩
        · exact hI.workers x (by rw [e1]; simp [hxx])
      · have h2 := owns_set (k, false) hp
        dsimp only at h2
        refine owns_perm ?_ h2
        exact ((held_set (s := ⟨s.workers.set w (some ⟨some a, k, false⟩), s.cache, s.heap⟩) e2).append_right _).symm
    · simp at h
  | destroy w =>
    simp only [AstcState.step] at h
    split at h
    · rename_i c k hw
      obtain ⟨a, ha⟩ := hI.workers _ (List.mem_of_getElem? hw)
      dsimp only at ha
      subst ha
      obtain ⟨l1, l2, e1, e2⟩ := worker_split hw none
      have hrev : PoolOwns (held s ++ cached s.cache.reverse) s.heap :=
        owns_perm ((List.reverse_perm s.cache).symm.filterMap entryRef |>.append_left _) hI.owns
      obtain ⟨heap', c', t1, t2, t3, t4⟩ := trim_spec hl (held s) s.cache.reverse s.heap
        (fun e he => hI.entries e (by simpa using he)) hrev
      simp only [astcDestroy, t1, Res.ok_bind, Option.some.injEq] at h
      refine ⟨_, h.symm, ?_, ?_, ?_, ?_⟩
      · intro x hxx
        dsimp only at hxx
        rw [e2] at hxx
        simp only [List.mem_append, List.mem_cons] at hxx
        rcases hxx with hxx | hxx | hxx
        · exact hI.workers x (by rw [e1]; simp [hxx])
        · simp at hxx
        · exact hI.workers x (by rw [e1]; simp [hxx])
      · intro e he
        simp only [List.mem_cons, List.mem_reverse] at he
        rcases he with rfl | he
        · exact ⟨a, rfl⟩
        · exact hI.entries e (by simpa using t2.subset he)
      · refine owns_perm ?_ t3
        have q1 := (held_set e1).append_right (cached c')
        refine q1.trans ?_
        unfold held cached
        dsimp only
        rw [e2]
        simp only [List.filterMap_append, List.filterMap_cons, workerRef, entryRef]
        refine (List.Perm.trans ?_ List.perm_middle.symm)
        refine List.Perm.cons _ ?_
        exact List.Perm.append_left _ ((List.reverse_perm c').symm.filterMap _)
      · simp only [List.length_cons, List.length_reverse]
        omega
    · simp at h

theorem inv_exec {limit : ℕ} (hl : 0 < limit) : ∀ (os : List (AstcStep K)) (s : AstcState K),
    PoolInv limit s → (∀ o ∈ os, AllocOk o) → ∀ r, AstcState.exec limit os s = some r →
    ∃ s', r = .ok s' ∧ PoolInv limit s'
  | [], s, hI, _, r, h => by
    simp only [AstcState.exec, Option.some.injEq] at h
    exact ⟨s, h.symm, hI⟩
  | o :: os, s, hI, ho, r, h => by
    unfold AstcState.exec at h
    cases hs : s.step limit o with
    | none => rw [hs] at h; simp at h
    | some q =>
      obtain ⟨s', rfl, hI'⟩ := inv_step hl hI (ho o (by simp)) hs
      rw [hs] at h
      exact inv_exec hl os s' hI' (fun o h => ho o (by simp [h])) r h

theorem limit_pos {hw : ℕ} (h0 : 0 < hw) (h32 : hw < 2 ^ 32) : 0 < astcLimit hw := by
  have h : astcLimit hw = 3 * hw % 2 ^ 32 := rfl
  rw [h]
  refine Nat.pos_of_ne_zero fun h0' => ?_
  have hd := Nat.Coprime.dvd_of_dvd_mul_left (by decide : Nat.Coprime (2 ^ 32) 3) (Nat.dvd_of_mod_eq_zero h0')
  exact absurd (Nat.le_of_dvd h0 hd) (Nat.not_le.2 h32)

theorem inv_init_pool (limit : ℕ) : PoolInv limit (AstcState.init : AstcState K) :=
  ⟨by simp [AstcState.init], by simp [AstcState.init], by intro y; simp [AstcState.init, held, cached],
    by simp [AstcState.init]⟩

/-- For every interleaving of creations, compressions and destructions by any number of workers, if allocations
succeed and the number of cores is known: nothing undefined happens (no use of a context that was freed or is in
use, no double free), every worker holds a context made with its own configuration, no two workers hold the same
one, contexts in the pool are held by nobody and idle, the pool does not exceed its limit, and no context is lost.

Partial: with an unknown number of cores or a failing allocation the code is undefined, see `C37_fails_cores` and
`C37_fails_memory`. -/
theorem C37_exclusive_partial (hw : ℕ) (h0 : 0 < hw) (h32 : hw < 2 ^ 32) (history : List (AstcStep K))
    (halloc : ∀ k success, AstcStep.create k success ∈ history → success = true) (r : Res (AstcState K))
    (h : AstcState.exec (astcLimit hw) history AstcState.init = some r) :
    ∃ (s : AstcState K), r = .ok s ∧
      (∀ (w : ℕ) (x : AstcWorker K), s.workers[w]? = some (some x) →
        ∃ a, x.context = some a ∧ s.heap[a]? = some (some (x.config, x.busy))) ∧
      (∀ (w w' : ℕ) (x x' : AstcWorker K), s.workers[w]? = some (some x) → s.workers[w']? = some (some x') →
        x.context = x'.context → w = w') ∧
      (∀ e ∈ s.cache, ∃ a, e.1 = some a ∧ s.heap[a]? = some (some (e.2, false)) ∧
        ∀ (x : AstcWorker K), some x ∈ s.workers → x.context ≠ some a) ∧
      s.cache.length ≤ 3 * hw ∧
      (∀ (a : ℕ) (k : K) (b : Bool), s.heap[a]? = some (some (k, b)) →
        (∃ w : ℕ, s.workers[w]? = some (some ⟨some a, k, b⟩)) ∨ (some a, k) ∈ s.cache) := by
  have hl := limit_pos h0 h32
  obtain ⟨s, rfl, hI⟩ := inv_exec hl history _ (inv_init_pool _) (by
    intro o ho
    cases o with
    | create k success => exact halloc k success ho
    | start => trivial
    | stop => trivial
    | destroy => trivial) r h
  have hnd := owns_nodup hI.owns
  refine ⟨s, rfl, ?_, ?_, ?_, ?_, ?_⟩
  · intro w x hx
    obtain ⟨a, ha⟩ := hI.workers x (List.mem_of_getElem? hx)
    refine ⟨a, ha, ?_⟩
    obtain ⟨c, k, b⟩ := x
    dsimp only at ha
    subst ha
    obtain ⟨l1, l2, e1, -⟩ := worker_split hx none
    exact owns_head (owns_perm ((held_set e1).append_right _) hI.owns)
  · intro w w' x x' hx hx' hc
    by_contra hne
    obtain ⟨a, ha⟩ := hI.workers x (List.mem_of_getElem? hx)
    obtain ⟨l1, l2, e1, e2⟩ := worker_split hx none
    obtain ⟨c, k, b⟩ := x
    obtain ⟨c', k', b'⟩ := x'
    dsimp only at ha hc
    subst ha
    subst hc
    have hp := ((held_set e1).append_right (cached s.cache)).map Prod.fst
    have hnd' := hp.nodup_iff.1 hnd
    simp only [List.cons_append, List.map_cons, List.nodup_cons] at hnd'
    apply hnd'.1
    refine List.mem_map.2 ⟨(a, k', b'), List.mem_append_left _ ?_, rfl⟩
    refine List.mem_filterMap.2 ⟨some ⟨some a, k', b'⟩, ?_, rfl⟩
    have hm : (s.workers.set w none)[w']? = some (some ⟨some a, k', b'⟩) := by
      rw [List.getElem?_set, if_neg hne, hx']
    have hm' := List.mem_of_getElem? hm
    rw [e2] at hm'
    simp only [List.mem_append, List.mem_cons, reduceCtorEq, false_or] at hm' ⊢
    exact hm'
  · intro e he
    obtain ⟨a, ha⟩ := hI.entries e he
    obtain ⟨c, k⟩ := e
    dsimp only at ha
    subst ha
    have hm : (a, k, false) ∈ cached s.cache := List.mem_filterMap.2 ⟨_, he, rfl⟩
    refine ⟨a, rfl, ?_, ?_⟩
    · have := hI.owns (a, k, false)
      have p := List.count_pos_iff.2 (List.mem_append_right (held s) hm)
      split at this
      · assumption
      · omega
    · intro x hx hc
      obtain ⟨c, k', b⟩ := x
      dsimp only at hc
      subst hc
      have hm2 : (a, k', b) ∈ held s := List.mem_filterMap.2 ⟨_, hx, rfl⟩
      rw [List.map_append] at hnd
      exact (List.nodup_append.1 hnd).2.2 a (List.mem_map.2 ⟨_, hm2, rfl⟩) a (List.mem_map.2 ⟨_, hm, rfl⟩) rfl
  · have := hI.size
    have h : astcLimit hw = 3 * hw % 2 ^ 32 := rfl
    rw [h] at this
    omega
  · intro a k b hh
    have := hI.owns (a, k, b)
    rw [if_pos hh] at this
    have hm := List.count_pos_iff.1 (by omega : 0 < List.count (a, k, b) (held s ++ cached s.cache))
    rcases List.mem_append.1 hm with hm | hm
    · obtain ⟨x, hx, hr⟩ := List.mem_filterMap.1 hm
      left
      obtain ⟨w, hw⟩ := List.mem_iff_getElem?.1 hx
      refine ⟨w, ?_⟩
      rw [hw]
      rcases x with _ | ⟨_ | c, k', b'⟩
      · simp [workerRef] at hr
      · simp [workerRef] at hr
      · simp only [workerRef, Option.some.injEq, Prod.mk.injEq] at hr
        obtain ⟨rfl, rfl, rfl⟩ := hr
        rfl
    · obtain ⟨⟨c, k'⟩, hx, hr⟩ := List.mem_filterMap.1 hm
      right
      cases c with
      | none => simp [entryRef] at hr
      | some c =>
        simp only [entryRef, Option.some.injEq, Prod.mk.injEq] at hr
        obtain ⟨rfl, rfl, -⟩ := hr
        exact hx

theorem shutdown_spec : ∀ (c : List (AstcEntry K)) (heap : AstcHeap K), (∀ e ∈ c, ∃ a, e.1 = some a) →
    PoolOwns (cached c) heap → ∃ heap', astcShutdown c heap = .ok heap' ∧ PoolOwns [] heap'
  | [], heap, _, ho => ⟨heap, rfl, ho⟩
  | (c, k) :: es, heap, hc, ho => by
    obtain ⟨a, ha⟩ := hc _ (List.mem_cons_self ..)
    dsimp only at ha
    subst ha
    have ho' : PoolOwns ((a, k, false) :: cached es) heap := ho
    obtain ⟨heap', h1, h2⟩ := shutdown_spec es (heap.set a none) (fun e he => hc e (by simp [he])) (owns_free ho')
    refine ⟨heap', ?_, h2⟩
    have hx := owns_head ho'
    dsimp only at hx
    unfold astcShutdown
    simp only [astcFree, hx]
    simpa using h1

/-- When every worker has been destroyed, tearing the pool down at the end of the process is defined and leaves no
context alive. -/
theorem C37_released_partial (hw : ℕ) (h0 : 0 < hw) (h32 : hw < 2 ^ 32) (history : List (AstcStep K))
    (halloc : ∀ k success, AstcStep.create k success ∈ history → success = true) (s : AstcState K)
    (h : AstcState.exec (astcLimit hw) history AstcState.init = some (.ok s))
    (hend : ∀ w ∈ s.workers, w = none) :
    ∃ heap, astcShutdown s.cache s.heap = .ok heap ∧ ∀ (a : ℕ) (slot : AstcSlot K), heap[a]? = some slot → slot = none := by
  obtain ⟨s', hs, hI⟩ := inv_exec (limit_pos h0 h32) history _ (inv_init_pool _) (by
    intro o ho
    cases o with
    | create k success => exact halloc k success ho
    | start => trivial
    | stop => trivial
    | destroy => trivial) _ h
  simp only [Res.ok.injEq] at hs
  subst hs
  have hh : held s = [] := by
    unfold held
    rw [List.filterMap_eq_nil_iff]
    intro w hw
    rw [hend w hw]
    rfl
  have ho := hI.owns
  rw [hh, List.nil_append] at ho
  obtain ⟨heap, h1, h2⟩ := shutdown_spec s.cache s.heap hI.entries ho
  refine ⟨heap, h1, ?_⟩
  intro a slot hs
  cases slot with
  | none => rfl
  | some z =>
    have := h2 (a, z)
    rw [if_pos hs] at this
    simp at this

/-! ### Examples -/

/-- Two workers of the same configuration and one of another; contexts are reused from the pool. -/
def poolHistory : List (AstcStep ℕ) :=
  [.create 7 true, .create 7 true, .start 0, .start 1, .stop 0, .destroy 0, .create 8 true, .start 2, .create 7 true,
    .start 3, .stop 1, .destroy 1, .stop 2, .destroy 2, .stop 3, .destroy 3]

example : ∀ k success, AstcStep.create k success ∈ poolHistory → success = true := by
  intro k success h
  simp [poolHistory] at h
  grind

/-- The history runs; the third worker of configuration 7 gets the context of the first one back. -/
example : ∃ (s : AstcState ℕ), AstcState.exec (astcLimit 1) (poolHistory.take 10) AstcState.init = some (.ok s) ∧
    s.workers[3]? = some (some ⟨some 0, 7, true⟩) ∧ s.workers[1]? = some (some ⟨some 1, 7, true⟩) :=
  ⟨_, rfl, rfl, rfl⟩

example : ∃ (s : AstcState ℕ), AstcState.exec (astcLimit 1) poolHistory AstcState.init = some (.ok s) ∧
    (∀ w ∈ s.workers, w = none) ∧ s.cache.length = 3 := ⟨_, rfl, by decide, rfl⟩

/-- The pool evicts: with one core it holds three contexts, the fourth one destroyed frees the oldest. -/
example : ∃ (s : AstcState ℕ), AstcState.exec (astcLimit 1) ([1, 2, 3, 4].map (AstcStep.create · true) ++
    [.destroy 0, .destroy 1, .destroy 2, .destroy 3]) AstcState.init = some (.ok s) ∧
    s.cache = [(some 3, 4), (some 2, 3), (some 1, 2)] ∧ s.heap[0]? = some none := ⟨_, rfl, rfl, rfl⟩

/-- If the number of cores is unknown (reported as zero), the limit of the pool is zero and the first destruction
removes the last element of an empty list, which is undefined. -/
theorem C37_fails_cores : AstcState.exec (astcLimit 0) [.create 7 true, .destroy 0] AstcState.init = some .ub := rfl

/-- If the encoder cannot allocate a context, the worker keeps a null context and uses it. -/
theorem C37_fails_memory :
    AstcState.exec (astcLimit 8) [.create 7 false, .start 0] AstcState.init = some .ub := rfl

/-- A null context is even put into the pool and given to a later worker, whose own allocation would have
succeeded. -/
theorem C37_fails_memory_cached :
    AstcState.exec (astcLimit 8) [.create 7 false, .destroy 0, .create 7 true, .start 1] AstcState.init = some .ub :=
  rfl

end Cuttlefish
