import Verif.Proofs.Threads
import Verif.Proofs.Encode
/-
The jobs of a conversion write disjoint parts of the surface; every outcome of the multi-threaded
run is the outcome of the single-threaded one.
-/
namespace Cuttlefish
open Spec
open scoped List

/-- The stores of a job, none if it is undefined. -/
def writesOf (proc : Nat → Nat → Res (List Write)) (job : Nat × Nat) : List Write :=
  match proc job.1 job.2 with
  | .ok ws => ws
  | .ub => []

theorem consec_offsets {proc : Nat → Nat → Res (List Write)} {enc : Nat × Nat → Res (List UInt8)}
    {size : Nat × Nat → Nat} (js : List (Nat × Nat)) : ∀ o, Consec proc enc size o js →
    (js.flatMap (writesOf proc)).map Prod.fst <+ List.range' o (js.map size).sum := by
  induction js with
  | nil => intro o _; simp
  | cons j js ih =>
    intro o h
    obtain ⟨h1, h2, h3⟩ := h
    rw [List.flatMap_cons, List.map_append, List.map_cons, List.sum_cons, ← List.range'_append_1]
    apply List.Sublist.append _ (ih _ h3)
    unfold writesOf
    rw [h1]
    cases he : enc j with
    | ub => simp
    | ok bs =>
      simp only [Res.ok_bind, Res.pure_eq]
      rw [writesAt_fst, h2 bs he]

theorem consec_offsets_ok {proc : Nat → Nat → Res (List Write)} {enc : Nat × Nat → Res (List UInt8)}
    {size : Nat × Nat → Nat} (js : List (Nat × Nat)) (hok : ∀ j ∈ js, proc j.1 j.2 ≠ .ub) :
    ∀ o, Consec proc enc size o js →
    (js.flatMap (writesOf proc)).map Prod.fst = List.range' o (js.map size).sum := by
  induction js with
  | nil => intro o _; simp
  | cons j js ih =>
    intro o h
    obtain ⟨h1, h2, h3⟩ := h
    have h0 := hok j List.mem_cons_self
    rw [List.flatMap_cons, List.map_append, List.map_cons, List.sum_cons, ← List.range'_append_1,
      ih (fun j hj => hok j (List.mem_cons_of_mem _ hj)) _ h3]
    congr 1
    unfold writesOf
    rw [h1] at h0 ⊢
    cases he : enc j with
    | ub => rw [he] at h0; exact absurd rfl h0
    | ok bs =>
      simp only [Res.ok_bind, Res.pure_eq]
      rw [writesAt_fst, h2 bs he]

/-- What is needed of the jobs of one surface. -/
structure JobsOf (X : Ext) (k : Conv) (a : ConvArgs) (img : FImg) (js : List (Nat × Nat)) : Prop where
  make : makeJobs (k.jobsX img) (k.jobsY img) = .ok js
  count : js.length = u32 (k.jobsX img * k.jobsY img)
  small : 2 * js.length < pow32
  enc : encodeImage X k a img = runJobs (k.process X a img) js (List.replicate (k.initSize a img) 0)
  consec : ∃ enc size, Consec (k.process X a img) enc size 0 js ∧
    (js.map size).sum = k.initSize a img

theorem std_jobs (X : Ext) (k : Conv) (a : ConvArgs) (img : FImg) (hk : k.isStandard = true)
    (hlen : ∀ p bs, texelBytes X k p = .ok bs → bs.length = k.texelSize) (hf : StdFits k img) :
    ∃ js, JobsOf X k a img js := by
  have hN : u32 (img.width * img.height) = img.width * img.height := u32_lt (by have := hf.jobs; omega)
  have hX : k.jobsX img = (img.width * img.height + 31) / 32 := by
    have : k.jobsX img = u32 (u32 (img.width * img.height) + (batchSize - 1)) / batchSize := by
      cases k <;> first | rfl | simp [Conv.isStandard] at hk
    rw [this, hN, show batchSize - 1 = 31 from rfl, u32_lt hf.jobs]
    rfl
  have hY : k.jobsY img = 1 := by
    cases k <;> first | rfl | simp [Conv.isStandard] at hk
  have hS : k.initSize a img = img.width * img.height * k.texelSize := by
    have : k.initSize a img = u32 (img.width * img.height) * k.elem.1 * k.elem.2 := by
      cases k <;> first | rfl | simp [Conv.isStandard] at hk
    rw [this, hN, Conv.texelSize, Nat.mul_assoc, Nat.mul_comm k.elem.1]
  have hP : k.process X a img = fun x _ => stdProcess X k img x := by
    cases k <;> first | rfl | simp [Conv.isStandard] at hk
  have hE : encodeImage X k a img = (do
      let jobs ← makeJobs (k.jobsX img) (k.jobsY img)
      runJobs (k.process X a img) jobs (List.replicate (k.initSize a img) 0)) := by
    cases k <;> first | rfl | simp [Conv.isStandard] at hk
  have hj := hf.jobs
  have hm : makeJobs (k.jobsX img) (k.jobsY img) = .ok (jobList (k.jobsX img) (k.jobsY img)) := by
    unfold makeJobs
    rw [if_pos (by rw [hX, hY]; omega)]
  have hc := std_consec hlen hf ((img.width * img.height + 31) / 32) 0 (by omega)
  rw [Nat.mul_zero, Nat.zero_mul] at hc
  have hl : (jobList (k.jobsX img) (k.jobsY img)).length = (img.width * img.height + 31) / 32 := by
    rw [hX, hY, jobList_one]; simp
  refine ⟨_, hm, ?_, ?_, ?_, batchBytes X k img, batchLen k img, ?_, ?_⟩
  · rw [hl, hX, hY, Nat.mul_one, u32_lt (by omega)]
  · rw [hl]; omega
  · rw [hE, hm, Res.ok_bind]
  · rw [hX, hY, hP, jobList_one]; exact hc
  · rw [hX, hY, jobList_one, batch_sum k img _ 0 (by omega), hS, Nat.mul_zero, Nat.sub_zero]

theorem block_jobs (X : Ext) (k : Conv) (a : ConvArgs) (img : FImg) (hk : k.isBlock = true)
    (hf : BlockFits k a.format img) (h8 : 8 ≤ k.blockBytes a.format)
    (hlen : ∀ j bs, blockEnc X k a img j = .ok bs → bs.length = k.blockBytes a.format) :
    ∃ js, JobsOf X k a img js := by
  obtain ⟨-, hP⟩ := block_encode X k a img hk hf hlen
  have hX : k.jobsX img = (img.width + k.blockDims.1 - 1) / k.blockDims.1 := by
    have : k.jobsX img = blockJobs img.width k.blockDims.1 := by
      cases k <;> first | rfl | simp [Conv.isBlock] at hk
    rw [this, blockJobs_eq hf.bw hf.w]
  have hY : k.jobsY img = (img.height + k.blockDims.2 - 1) / k.blockDims.2 := by
    have : k.jobsY img = blockJobs img.height k.blockDims.2 := by
      cases k <;> first | rfl | simp [Conv.isBlock] at hk
    rw [this, blockJobs_eq hf.bh hf.h]
  have hE : encodeImage X k a img = (do
      let jobs ← makeJobs (k.jobsX img) (k.jobsY img)
      runJobs (k.process X a img) jobs (List.replicate (k.initSize a img) 0)) := by
    cases k <;> first | rfl | simp [Conv.isBlock] at hk
  have hS0 : k.initSize a img = u32 (u32 (k.jobsX img * k.jobsY img) * k.blockBytes a.format) := by
    cases k <;> first | rfl | simp [Conv.isBlock] at hk
  have hsize := hf.size
  rw [hX, hY] at hS0
  rw [← hX, ← hY] at hsize hP
  rw [← hX, ← hY] at hS0
  generalize hJX : k.jobsX img = JX at *
  generalize hJY : k.jobsY img = JY at *
  have hjobs : JX * JY * 8 < pow32 := lt_of_le_of_lt (Nat.mul_le_mul_left _ h8) hsize
  have hS : k.initSize a img = JX * JY * k.blockBytes a.format := by
    rw [hS0, u32_lt (n := JX * JY) (by omega), u32_lt hsize]
  have hm : makeJobs JX JY = .ok (jobList JX JY) := by
    unfold makeJobs
    rw [if_pos (by omega)]
  have hl : (jobList JX JY).length = JX * JY := by rw [jobList_eq]; simp [Nat.mul_comm]
  have hc : Consec (k.process X a img) (blockEnc X k a img) (fun _ => k.blockBytes a.format) 0
      (jobList JX JY) := by
    have := consec_const (proc := k.process X a img) (enc := blockEnc X k a img)
      (size := k.blockBytes a.format) (jobList JX JY) 0 (by
      intro i j hj
      rw [jobList_eq] at hj
      rw [List.getElem?_map] at hj
      have hi : i < JY * JX := by
        by_contra hcon
        rw [List.getElem?_eq_none (by simp; omega)] at hj
        simp at hj
      rw [List.getElem?_range hi] at hj
      simp only [Option.map_some, Option.some.injEq] at hj
      subst hj
      have hx0 : 0 < JX := by
        by_contra h
        have : JX = 0 := by omega
        rw [this] at hi; simp at hi
      have h1 : i % JX < JX := Nat.mod_lt _ hx0
      have h2 : i / JX < JY := by rw [Nat.div_lt_iff_lt_mul hx0]; exact hi
      refine ⟨?_, fun bs hb => hlen _ _ hb⟩
      rw [hP _ _ h1 h2]
      have : i / JX * JX + i % JX = i := by
        rw [Nat.mul_comm]; exact Nat.div_add_mod i JX
      rw [this, Nat.zero_add])
    rwa [Nat.zero_mul] at this
  refine ⟨jobList JX JY, by rw [hJX, hJY]; exact hm, ?_, by rw [hl]; omega, ?_, _, _, hc, ?_⟩
  · rw [hl, hJX, hJY, u32_lt (by omega)]
  · rw [hE, hm, Res.ok_bind]
  · rw [hS]; simp [hl]

/-- The jobs of a surface of any format except PVRTC. -/
theorem image_jobs (X : Ext) (hX : CodecSizes X) {c : Features} {f : Format} {t : TType} {k : Conv}
    (hk : createConverter c f t = some k) (hp : isPvrtc f = false) (a : ConvArgs) (ha : a.format = f)
    (img : FImg) (hf : Fits f img.width img.height) : ∃ js, JobsOf X k a img js := by
  cases hl : layout f with
  | some cs =>
    exact std_jobs X k a img (conv_std hk hl).1 (texel_len X hk hl) (stdFits_of hk hl hf)
  | none =>
    subst ha
    have hb := conv_block hk hl hp
    refine block_jobs X k a img hb.1 (blockFits_of hk hl hp hf) ?_ (block_len X hX hb.1 a img)
    rw [hb.2.2.1]
    have h0 := hb.2.2.2.2.2
    clear hb hf hk
    revert hl hp h0
    generalize a.format = g
    cases g <;> decide

theorem poolW (P : Pool) : (List.range P.jobs.length).flatMap P.W = P.jobs.flatMap (writesOf P.proc) :=
  range_W P

theorem writes_ub {P : Pool} : (∀ j, j < P.jobs.length → P.writes j ≠ .ub) ↔
    ∀ job ∈ P.jobs, P.proc job.1 job.2 ≠ .ub := by
  constructor
  · intro h job hj
    obtain ⟨i, hi, rfl⟩ := List.getElem_of_mem hj
    have := h i hi
    unfold Pool.writes at this
    rwa [List.getElem?_eq_getElem hi] at this
  · intro h j hj
    unfold Pool.writes
    rw [List.getElem?_eq_getElem hj]
    exact h _ (List.getElem_mem hj)

/-- Facts about every reachable state of a multi-threaded run. -/
theorem par_reach {X : Ext} {k : Conv} {a : ConvArgs} {img : FImg} {js : List (Nat × Nat)}
    (hJ : JobsOf X k a img js) (hT : 1 < curThreads k img a.threads) {cs : List Choice}
    {es : List Event} {s : Par}
    (h : (surfacePool X k a img js).exec cs (.init (k.initSize a img)) = some (.ok (es, s))) :
    PInv (surfacePool X k a img js) s ∧
    begins es = List.range (min s.counter js.length) ∧
    (∀ j ∈ begins es, (surfacePool X k a img js).writes j ≠ .ub) ∧
    stores es ++ pend s.workers ~ (begins es).flatMap (surfacePool X k a img js).W ∧
    ((stores es ++ pend s.workers).map Prod.fst).Nodup ∧
    (∀ e ∈ stores es ++ pend s.workers, e.1 < k.initSize a img) ∧
    s.data.length = k.initSize a img ∧
    cs.length ≤ 3 * curThreads k img a.threads + 2 * js.length + k.initSize a img := by
  have hn : (surfacePool X k a img js).jobs.length + (surfacePool X k a img js).threads < pow32 := by
    have h1 := hJ.count
    have h2 := hJ.small
    have : curThreads k img a.threads ≤ js.length := by
      unfold curThreads; rw [h1]; exact Nat.min_le_left _ _
    show js.length + curThreads k img a.threads < pow32
    omega
  have hI0 := pinv_init (surfacePool X k a img js) (k.initSize a img) (by
    show 0 < curThreads k img a.threads; omega)
  have hI := pinv_exec hn hI0 h
  obtain ⟨-, b2, b3⟩ := begins_exec hn hI0 h
  have hb : begins es = List.range (min s.counter js.length) := by
    rw [b2, List.range_eq_range']; rfl
  have hs := stores_exec h
  have hs' : stores es ++ pend s.workers ~ (begins es).flatMap (surfacePool X k a img js).W := by
    simpa [Par.init, pend] using hs
  obtain ⟨enc, size, hc, hsum⟩ := hJ.consec
  have hsub : ((begins es).flatMap (surfacePool X k a img js).W).map Prod.fst <+
      List.range (k.initSize a img) := by
    have h1 := consec_offsets js 0 hc
    rw [hsum, ← List.range_eq_range'] at h1
    refine List.Sublist.trans ?_ h1
    apply List.Sublist.map
    have h2 := poolW (surfacePool X k a img js)
    show _ <+ js.flatMap (writesOf (k.process X a img))
    have h3 : js.flatMap (writesOf (k.process X a img)) =
      (List.range js.length).flatMap (surfacePool X k a img js).W := h2.symm
    rw [h3, hb, show js.length = min s.counter js.length + (js.length - min s.counter js.length) by omega,
      List.range_add, List.flatMap_append]
    rw [show min s.counter js.length + (js.length - min s.counter js.length) = js.length by omega]
    exact List.sublist_append_left _ _
  have hnd : ((stores es ++ pend s.workers).map Prod.fst).Nodup :=
    ((hs'.map Prod.fst).nodup_iff).2 (hsub.nodup List.nodup_range)
  have hbd : ∀ e ∈ stores es ++ pend s.workers, e.1 < k.initSize a img := by
    intro e he
    have h1 := hsub.subset (List.mem_map_of_mem (hs'.mem_iff.1 he))
    exact List.mem_range.1 h1
  have hdl := applyWrites_len (data_exec h)
  refine ⟨hI, hb, b3, hs', hnd, hbd, by simpa [Par.init] using hdl, ?_⟩
  have hl := left_exec hn hI0 h
  have hrest : (surfacePool X k a img js).rest 0 ≤ 2 * js.length + k.initSize a img := by
    have h1 := (consec_offsets js 0 hc).length_le
    rw [List.length_map, List.length_range', hsum] at h1
    have h2 : (js.flatMap (writesOf (k.process X a img))).length =
      ((List.range js.length).flatMap (surfacePool X k a img js).W).length :=
      congrArg List.length (poolW (surfacePool X k a img js)).symm
    rw [h2, List.length_flatMap] at h1
    unfold Pool.rest
    show ((List.range' 0 (js.length - 0)).map _).sum ≤ _
    rw [Nat.sub_zero, ← List.range_eq_range']
    have h3 : ∀ l : List Nat, (l.map (fun j => ((surfacePool X k a img js).W j).length + 2)).sum =
        (l.map (fun j => ((surfacePool X k a img js).W j).length)).sum + 2 * l.length := by
      intro l
      induction l with
      | nil => rfl
      | cons x l ih => simp only [List.map_cons, List.sum_cons, ih, List.length_cons]; omega
    rw [h3, List.length_range]
    omega
  have hleft : (surfacePool X k a img js).left (.init (k.initSize a img)) ≤
      3 * curThreads k img a.threads + 2 * js.length + k.initSize a img := by
    simp only [Pool.left, Par.init, Caller.wt, List.length_nil, List.map_nil, List.sum_nil]
    show 2 * (curThreads k img a.threads - 0) + curThreads k img a.threads + 0 + _ ≤ _
    omega
  omega

/-- A run that returns has the result of the single-threaded run. -/
theorem par_returned {X : Ext} {k : Conv} {a : ConvArgs} {img : FImg} {js : List (Nat × Nat)}
    (hJ : JobsOf X k a img js) (hT : 1 < curThreads k img a.threads) {cs : List Choice}
    {es : List Event} {s : Par}
    (h : (surfacePool X k a img js).exec cs (.init (k.initSize a img)) = some (.ok (es, s)))
    (hr : s.caller = .returned) :
    encodeImage X k a img = .ok s.data ∧ begins es = List.range js.length ∧
    (∀ x ∈ s.workers, x = .finished) ∧
    (stores es).map Prod.fst ~ List.range (k.initSize a img) := by
  obtain ⟨hI, hb, hw, hs, hnd, -, -, -⟩ := par_reach hJ hT h
  obtain ⟨hfin, hcnt⟩ := returned_all hI (by show 0 < curThreads k img a.threads; omega) hr
  have hcnt : js.length ≤ s.counter := hcnt
  rw [Nat.min_eq_right hcnt] at hb
  rw [pend_finished hfin, List.append_nil] at hs hnd
  rw [hb] at hs hw
  have hok : ∀ job ∈ js, k.process X a img job.1 job.2 ≠ .ub :=
    (writes_ub (P := surfacePool X k a img js)).1 (fun j hj => hw j (List.mem_range.2 hj))
  have hs2 : stores es ~ js.flatMap (writesOf (k.process X a img)) :=
    hs.trans (List.Perm.of_eq (poolW (surfacePool X k a img js)))
  obtain ⟨enc, size, hc, hsum⟩ := hJ.consec
  refine ⟨?_, hb, hfin, ?_⟩
  · rw [hJ.enc, runJobs_writes]
    refine ⟨hok, ?_⟩
    have := data_exec h
    rw [applyWrites_perm hs2 hnd] at this
    exact this
  · have := consec_offsets_ok js hok 0 hc
    rw [hsum, ← List.range_eq_range'] at this
    rw [← this]
    exact hs2.map _

/-- A run can be undefined only if the single-threaded one is. -/
theorem par_ub {X : Ext} {k : Conv} {a : ConvArgs} {img : FImg} {js : List (Nat × Nat)}
    (hJ : JobsOf X k a img js) (hT : 1 < curThreads k img a.threads) {cs : List Choice}
    (h : (surfacePool X k a img js).exec cs (.init (k.initSize a img)) = some .ub) :
    encodeImage X k a img = .ub := by
  obtain ⟨ds, es, s1, h1, h2⟩ := exec_ub h
  obtain ⟨-, -, -, -, -, hbd, hlen, -⟩ := par_reach hJ hT h1
  rcases h2 with ⟨j, hj, hw⟩ | ⟨e, he, hle⟩
  · cases he : encodeImage X k a img with
    | ub => rfl
    | ok bytes =>
      exfalso
      rw [hJ.enc, runJobs_writes] at he
      exact (writes_ub (P := surfacePool X k a img js)).2 he.1 j hj hw
  · exfalso
    have := hbd e (List.mem_append_right _ he)
    omega

/-- Every outcome is that of the single-threaded run. -/
theorem outcome_eq {X : Ext} (hX : CodecSizes X) {c : Features} {f : Format} {t : TType} {k : Conv}
    (hk : createConverter c f t = some k) (hp : isPvrtc f = false) {a : ConvArgs} (ha : a.format = f)
    {img : FImg} (hf : Fits f img.width img.height) {r : Res (List UInt8)}
    (h : Outcome X k a img r) : r = encodeImage X k a img := by
  obtain ⟨js, hJ⟩ := image_jobs X hX hk hp a ha img hf
  cases h with
  | single => rfl
  | noJobs hT hm => rw [hJ.make] at hm; cases hm
  | multi jobs sched es s hT hm he hr =>
    rw [hJ.make] at hm
    simp only [Res.ok.injEq] at hm
    subst hm
    exact (par_returned hJ hT he hr).1.symm
  | multiUb jobs sched hT hm he =>
    rw [hJ.make] at hm
    simp only [Res.ok.injEq] at hm
    subst hm
    exact (par_ub hJ hT he).symm

/-- The single-threaded result does not depend on the number of threads, except for PVRTC. -/
theorem encode_threads {X : Ext} {c : Features} {f : Format} {t : TType} {k : Conv}
    (hk : createConverter c f t = some k) (hp : isPvrtc f = false) (a : ConvArgs) (n : Nat)
    (img : FImg) : encodeImage X k { a with threads := n } img = encodeImage X k a img := by
  have hpv : k ≠ .pvrtc := by
    rintro rfl
    cases f <;> simp only [isPvrtc, Bool.true_eq_false] at hp <;> cases t <;>
      simp [createConverter, ifUNorm, create8, create16, create32, createAstc] at hk
  cases k <;> first | rfl | exact absurd rfl hpv

end Cuttlefish
