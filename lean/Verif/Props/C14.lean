import Verif.Proofs.ThreadConv
import Verif.Proofs.Sample
import Mathlib.Data.List.NodupEquivFin
import Mathlib.Data.List.Duplicate
/-
C14: every job is processed exactly once, without data races.
-/
namespace Cuttlefish
open Spec
open scoped List

/-- The jobs of a surface are the blocks of its grid (for the uncompressed formats: the batches),
each once. -/
theorem C14_jobs_partial (X : Ext) (hX : CodecSizes X) (c : Features) (f : Format) (ty : TType)
    (k : Conv) (hk : createConverter c f ty = some k) (hp : isPvrtc f = false) (a : ConvArgs)
    (ha : a.format = f) (img : FImg) (hf : Fits f img.width img.height) :
    ∃ jobs, makeJobs (k.jobsX img) (k.jobsY img) = .ok jobs ∧ jobs.Nodup ∧
      ∀ x y, (x, y) ∈ jobs ↔ x < k.jobsX img ∧ y < k.jobsY img := by
  obtain ⟨js, hJ⟩ := image_jobs X hX hk hp a ha img hf
  have hm := hJ.make
  have hjs : js = jobList (k.jobsX img) (k.jobsY img) := by
    unfold makeJobs at hm
    split at hm
    · simpa using hm.symm
    · cases hm
  refine ⟨js, hm, ?_, ?_⟩
  · rw [hjs, jobList_eq]
    refine List.Nodup.map_on ?_ List.nodup_range
    intro i _ j _ h
    simp only [Prod.mk.injEq] at h
    rw [← Nat.div_add_mod i (k.jobsX img), ← Nat.div_add_mod j (k.jobsX img), h.1, h.2]
  · intro x y
    rw [hjs]
    simp only [jobList, List.mem_flatMap, List.mem_range, List.mem_map, Prod.mk.injEq]
    constructor
    · rintro ⟨b, hb, u, hu, rfl, rfl⟩; exact ⟨hu, hb⟩
    · rintro ⟨h1, h2⟩; exact ⟨y, h2, x, h1, rfl, rfl⟩

/-- No two jobs write the same byte, and no job writes outside the surface. -/
theorem C14_disjoint_partial (X : Ext) (hX : CodecSizes X) (c : Features) (f : Format) (ty : TType)
    (k : Conv) (hk : createConverter c f ty = some k) (hp : isPvrtc f = false) (a : ConvArgs)
    (ha : a.format = f) (img : FImg) (hf : Fits f img.width img.height)
    (x y x' y' : Nat) (hx : x < k.jobsX img) (hy : y < k.jobsY img) (hx' : x' < k.jobsX img)
    (hy' : y' < k.jobsY img) (hne : (x, y) ≠ (x', y')) (ws ws' : List Write)
    (hw : k.process X a img x y = .ok ws) (hw' : k.process X a img x' y' = .ok ws') :
    (∀ e ∈ ws, ∀ e' ∈ ws', e.1 ≠ e'.1) ∧ ∀ e ∈ ws, e.1 < k.initSize a img := by
  obtain ⟨js, hJ⟩ := image_jobs X hX hk hp a ha img hf
  obtain ⟨js', hm', -, hmem⟩ := C14_jobs_partial X hX c f ty k hk hp a ha img hf
  rw [hJ.make] at hm'
  simp only [Res.ok.injEq] at hm'
  subst hm'
  obtain ⟨enc, size, hc, hsum⟩ := hJ.consec
  have hsub := consec_offsets js 0 hc
  rw [hsum, ← List.range_eq_range'] at hsub
  have hnd := hsub.nodup List.nodup_range
  have h1 := (hmem x y).2 ⟨hx, hy⟩
  have h2 := (hmem x' y').2 ⟨hx', hy'⟩
  have e1 : writesOf (k.process X a img) (x, y) = ws := by unfold writesOf; rw [hw]
  have e2 : writesOf (k.process X a img) (x', y') = ws' := by unfold writesOf; rw [hw']
  refine ⟨?_, ?_⟩
  · intro e he e' he' heq
    rw [List.map_flatMap, List.nodup_flatMap] at hnd
    obtain ⟨-, hpw⟩ := hnd
    have hsym : Std.Symm (Function.onFun List.Disjoint
        (fun j => (writesOf (k.process X a img) j).map Prod.fst)) :=
      ⟨fun _ _ h => List.Disjoint.symm h⟩
    have := hpw.forall h1 h2 hne
    refine this (a := e.1) ?_ ?_
    · show e.1 ∈ (writesOf _ (x, y)).map Prod.fst; rw [e1]; exact List.mem_map_of_mem he
    · show e.1 ∈ (writesOf _ (x', y')).map Prod.fst; rw [e2, heq]; exact List.mem_map_of_mem he'
  · intro e he
    have := hsub.subset (List.mem_map_of_mem (List.mem_flatMap.2 ⟨_, h1, by rw [e1]; exact he⟩))
    exact List.mem_range.1 this

/-- In every interleaving: no job is begun twice and no byte is stored twice; and when the call
returns, every job has been processed exactly once by exactly one worker and is finished, every
worker has ended, and every byte of the surface has been stored. -/
theorem C14_exactly_once_partial (X : Ext) (hX : CodecSizes X) (c : Features) (f : Format) (ty : TType)
    (k : Conv) (hk : createConverter c f ty = some k) (hp : isPvrtc f = false) (a : ConvArgs)
    (ha : a.format = f) (img : FImg) (hf : Fits f img.width img.height)
    (hT : 1 < curThreads k img a.threads) (jobs : List (Nat × Nat))
    (hj : makeJobs (k.jobsX img) (k.jobsY img) = .ok jobs)
    (sched : List Choice) (es : List Event) (s : Par)
    (h : (surfacePool X k a img jobs).exec sched (.init (k.initSize a img)) = some (.ok (es, s))) :
    (∀ (p q w w' j : Nat), es[p]? = some (.begin w j) → es[q]? = some (.begin w' j) → p = q) ∧
    StoredOnce es ∧
    (s.caller = .returned →
      (∀ j, j < jobs.length → DoneOnce es j) ∧
      (∀ w, w < curThreads k img a.threads → s.workers[w]? = some .finished) ∧
      s.workers.length = curThreads k img a.threads ∧
      ∀ o, o < k.initSize a img → ∃ w b, Event.store w (o, b) ∈ es) := by
  obtain ⟨js, hJ⟩ := image_jobs X hX hk hp a ha img hf
  have := hJ.make
  rw [hj] at this
  simp only [Res.ok.injEq] at this
  subst this
  obtain ⟨hI, hb, -, -, hnd, -, -, -⟩ := par_reach hJ hT h
  have hbn : (begins es).Nodup := by rw [hb]; exact List.nodup_range
  refine ⟨?_, ?_, ?_⟩
  · intro p q w w' j h1 h2
    have hcw := begins_once hbn (List.mem_of_getElem? h1)
    have hww : w' = w := by
      by_contra hne
      have := hcw.2 w' hne
      exact List.count_eq_zero.1 this (List.mem_of_getElem? h2)
    subst hww
    by_contra hpq
    have h3 : 2 ≤ es.count (.begin w' j) := by
      have hdup : List.Duplicate (Event.begin w' j) es := by
        rw [List.duplicate_iff_exists_distinct_get]
        have hlt : ∀ (i : Nat) (e : Event), es[i]? = some e → ∃ hi : i < es.length, es[i] = e := by
          intro i e hi
          have : i < es.length := by
            by_contra hc
            rw [List.getElem?_eq_none (by omega)] at hi; cases hi
          exact ⟨this, by rw [List.getElem?_eq_getElem this] at hi; simpa using hi⟩
        obtain ⟨p1, p2⟩ := hlt p _ h1
        obtain ⟨q1, q2⟩ := hlt q _ h2
        rcases Nat.lt_or_gt_of_ne hpq with hl | hl
        · exact ⟨⟨p, p1⟩, ⟨q, q1⟩, hl, p2.symm, q2.symm⟩
        · exact ⟨⟨q, q1⟩, ⟨p, p1⟩, hl, q2.symm, p2.symm⟩
      exact List.duplicate_iff_two_le_count.1 hdup
    omega
  · apply stores_once
    rw [List.map_append] at hnd
    exact hnd.of_append_left
  · intro hr
    obtain ⟨-, hb', hfin, hall⟩ := par_returned hJ hT h hr
    obtain ⟨hl, hret⟩ := hI.returned hr
    refine ⟨?_, hret, hl, ?_⟩
    · intro j hjl
      have : j ∈ begins es := by rw [hb']; exact List.mem_range.2 hjl
      obtain ⟨w, hw⟩ := mem_begins.1 this
      obtain ⟨h1, h2⟩ := begins_once hbn hw
      have hon : ∀ v, es.count (.finish v j) = es.count (.begin v j) := by
        intro v
        have h3 := on_exec h v j
        have h4 : s.on v j = 0 := by
          unfold Par.on
          cases hv : s.workers[v]? with
          | none => rfl
          | some x => rw [hfin x (List.mem_of_getElem? hv)]; rfl
        have h5 : (Par.init (k.initSize a img)).on v j = 0 := by simp [Par.init, Par.on]
        omega
      refine ⟨w, h1, by rw [hon, h1], ?_⟩
      intro w' hw'
      rw [hon, h2 w' hw']
      exact ⟨rfl, rfl⟩
    · intro o ho
      have h1 : o ∈ (stores es).map Prod.fst := hall.mem_iff.2 (List.mem_range.2 ho)
      obtain ⟨⟨o', b⟩, h2, rfl⟩ := List.mem_map.1 h1
      clear hall h1 hnd hbn hb hb' h
      induction es with
      | nil => simp [stores] at h2
      | cons e es ih =>
        cases e with
        | store w e =>
          simp only [stores, List.mem_cons] at h2
          rcases h2 with rfl | h2
          · exact ⟨w, b, List.mem_cons_self⟩
          · obtain ⟨w', b', hh⟩ := ih h2; exact ⟨w', b', List.mem_cons_of_mem _ hh⟩
        | _ => obtain ⟨w', b', hh⟩ := ih h2; exact ⟨w', b', List.mem_cons_of_mem _ hh⟩

/-- The full claim is false for large surfaces: in a 32769x32768 R8G8B8A8 surface (4 GiB and
128 KiB) the jobs of texels 0 and 2^30 both write the first byte. -/
theorem C14_fails_large (X : Ext) (img : FImg) (hw : img.width = 32769) (hh : img.height = 32768)
    (hpx : ∀ x y, img.px x y = ⟨0, 0, 0, 0⟩) :
    createConverter ⟨true, true, true, true⟩ .R8G8B8A8 .UNorm = some (.unorm 1 4) ∧
    0 < (Conv.unorm 1 4).jobsX img ∧ 2 ^ 25 < (Conv.unorm 1 4).jobsX img ∧
    (∀ a : ConvArgs, ∃ ws ws', (Conv.unorm 1 4).process X a img 0 0 = .ok ws ∧
      (Conv.unorm 1 4).process X a img (2 ^ 25) 0 = .ok ws' ∧ (0, 0) ∈ ws ∧ (0, 0) ∈ ws') := by
  refine ⟨rfl, ?_, ?_, ?_⟩
  · simp only [Conv.jobsX, Conv.isStandard, if_true, hw, hh]; decide
  · simp only [Conv.jobsX, Conv.isStandard, if_true, hw, hh]; decide
  · intro a
    have hq : toUNorm 255 255 0 = .ok 0 := by decide +kernel
    have hbytes : texelBytes X (.unorm 1 4) ⟨0, 0, 0, 0⟩ = .ok [0, 0, 0, 0] := by
      simp [texelBytes, mapRes, chanBytes, Conv.channels, Pixel.chans, hq, leBytes]
    have hgo : ∀ x, 32 * x + 32 ≤ 32769 * 32768 →
        u32 (u32 (x * batchSize) * (Conv.unorm 1 4).elem.2) * (Conv.unorm 1 4).elem.1 = 0 →
        ∃ ws, stdProcess X (.unorm 1 4) img x = .ok ws ∧ (0, 0) ∈ ws := by
      intro x hx hb
      unfold stdProcess
      rw [hb, show batchSize = 32 from rfl, stdLoop_eq X (.unorm 1 4) img x 0
        (fun p bs h => texel_len X (c := ⟨true, true, true, true⟩) (f := .R8G8B8A8) (t := .UNorm) rfl rfl p bs h)
        (by rw [hw, hh]; decide) (by rw [hw, hh]; omega) 32 0 _ rfl (by rw [hw, hh]; omega)
        (fun _ => by rw [hw, Nat.mul_comm, u32_lt (n := 32 * x) (by have : pow32 = 2 ^ 32 := rfl; omega)])
        (fun h => absurd h (by decide)),
        mapRes_all_ok (g := fun _ => [0, 0, 0, 0]) (fun i _ => by unfold texelNo; rw [hpx, hbytes]), hw, hh]
      refine ⟨_, rfl, ?_⟩
      rw [show min 32 (32769 * 32768 - (32 * x + 0)) = 32 by omega, List.range'_succ]
      simp [writesAt]
    obtain ⟨ws, h1, h2⟩ := hgo 0 (by omega) (by decide)
    obtain ⟨ws', h3, h4⟩ := hgo (2 ^ 25) (by omega) (by decide)
    exact ⟨ws, ws', h1, h3, h2, h4⟩

/-- Hypotheses met: the four blocks of a 6x6 BC1 surface with two threads, up to the point where
both threads work. -/
example :
    let img : FImg := ⟨6, 6, fun _ _ => ⟨0, 0, 0, 0⟩⟩
    let a : ConvArgs := ⟨.BC1_RGB, .UNorm, .Standard, {}, .Linear, .Normal, 2⟩
    createConverter ⟨true, true, true, true⟩ .BC1_RGB .UNorm = some (.s3tc .Bc1) ∧
    1 < curThreads (.s3tc .Bc1) img a.threads ∧ Fits .BC1_RGB 6 6 ∧
    makeJobs ((Conv.s3tc .Bc1).jobsX img) ((Conv.s3tc .Bc1).jobsY img) =
      .ok [(0, 0), (1, 0), (0, 1), (1, 1)] ∧
    ∃ s, (surfacePool Toy.ext (.s3tc .Bc1) a img [(0, 0), (1, 0), (0, 1), (1, 1)]).exec
        [.caller, .worker 0, .caller, .worker 1, .worker 1, .worker 0]
        (.init ((Conv.s3tc .Bc1).initSize a img)) =
      some (.ok ([.start 0, .begin 0 0, .start 1, .begin 1 1, .store 1 (8, 0), .store 0 (0, 0)], s)) := by
  refine ⟨rfl, by decide, ⟨by decide, by decide, by simp only [layout]; decide⟩, by decide, ?_⟩
  have key : ∀ (o : Option (Res (List Event × Par))) (es : List Event),
      (match o with
        | some (.ok (es', _)) => decide (es' = es)
        | _ => false) = true → ∃ s, o = some (.ok (es, s)) := by
    intro o es h
    split at h
    · next es' s => exact ⟨s, by simp at h; rw [h]⟩
    · cases h
  exact key _ _ (by decide +kernel)

end Cuttlefish
