import Verif.Proofs.ThreadConv
import Verif.Proofs.Sample
/-
C13: the result of `convert()` does not depend on the number of threads or on the schedule.
-/
namespace Cuttlefish
open Spec
variable {Img : Type}

theorem outcome_any {X : Ext} (hX : CodecSizes X) (hB : ThreadBlind X) {c : Features} {f : Format}
    {t : TType} {k : Conv} (hk : createConverter c f t = some k) {a b : ConvArgs} (ha : a.format = f)
    (hb : b = { a with threads := 1 })
    {img : FImg} (hf : Fits f img.width img.height) {r : Res (List UInt8)}
    (h : Outcome X k a img r) : r = encodeImage X k b img := by
  subst hb
  cases hp : isPvrtc f with
  | false => rw [encode_threads hk hp, outcome_eq hX hk hp ha hf h]
  | true =>
    have : k = .pvrtc := by
      cases f <;> simp only [isPvrtc, Bool.false_eq_true] at hp <;> cases t <;>
        simp [createConverter, ifUNorm] at hk <;> first | exact hk.symm | exact hk.2.symm
    subst this
    have h1 : ∀ n, encodeImage X .pvrtc { a with threads := n } img = encodeImage X .pvrtc a img := by
      intro n
      simp only [encodeImage]
      cases pvrtcPixels img with
      | ub => rfl
      | ok px =>
        simp only [Res.ok_bind, Res.pure_eq]
        cases pvrtcPixelType a.format with
        | none => rfl
        | some p => exact congrArg Res.ok (hB _ _ _ _ _ _ _ _)
    have h2 : curThreads .pvrtc img a.threads ≤ 1 := Nat.min_le_left _ _
    cases h with
    | single => exact (h1 1).symm
    | noJobs hT => omega
    | multi _ _ _ _ hT => omega
    | multiUb _ _ hT => omega

/-- Whatever the number of threads and however they are interleaved, the result of the conversion
(return value, every byte of every surface, and whether it is defined at all) is that of the
single-threaded run.  Missing: surfaces too large for the 32-bit counters (`Fits`), where it is
false (C14_fails_large). -/
theorem C13_schedule_independent_partial (X : Ext) (hX : CodecSizes X) (hB : ThreadBlind X)
    (view : Img → FImg) (c : Features) (hw : Nat) (t : Tex Img) (f : Format) (ty : TType) (q : Quality)
    (al : Alpha) (mask : ColorMask) (threads : Nat)
    (hfit : ∀ g, Holds t g → Fits f (view g).width (view g).height)
    (r : Res (Bool × Tex Img)) (h : MayConvert X view c hw t f ty q al mask threads r) :
    r = t.convert c hw (fun k a g => encodeImage X k a (view g)) f ty q al mask 1 := by
  unfold MayConvert at h
  unfold Tex.convert
  split at h
  · next h1 => rw [if_pos h1]; exact h
  · next h1 =>
    rw [if_neg h1]
    cases t with
    | none => exact h
    | some i =>
      simp only at h ⊢
      split at h
      · next h2 => rw [if_pos h2]; exact h
      · next h2 =>
        rw [if_neg h2]
        obtain ⟨m, hm, rfl⟩ := h
        have := mayMips_eq (enc := fun k a g => encodeImage X k a (view g))
          (a := ⟨f, ty, al, mask, i.colorSpace, q, if threads = allCores then hw else threads⟩)
          (b := ⟨f, ty, al, mask, i.colorSpace, q, if 1 = allCores then hw else 1⟩) rfl rfl hm (by
            intro ds hds gs hgs g hg k hk r hr
            exact outcome_any hX hB hk rfl rfl (hfit g ⟨i, rfl, ds, hds, gs, hgs, hg⟩) hr)
        rw [this]

/-- The conversion has a result: its threads cannot deadlock. -/
theorem C13_completes_partial (X : Ext) (hX : CodecSizes X)
    (view : Img → FImg) (c : Features) (hw : Nat) (t : Tex Img) (f : Format) (ty : TType) (q : Quality)
    (al : Alpha) (mask : ColorMask) (threads : Nat)
    (hfit : ∀ g, Holds t g → Fits f (view g).width (view g).height) :
    ∃ r, MayConvert X view c hw t f ty q al mask threads r := by
  unfold MayConvert
  split
  · exact ⟨_, rfl⟩
  · cases t with
    | none => exact ⟨_, rfl⟩
    | some i =>
      simp only
      split
      · exact ⟨_, rfl⟩
      · obtain ⟨m, hm⟩ := mayMips_total (c := c) (E := fun k a g => Outcome X k a (view g))
          (a := ⟨f, ty, al, mask, i.colorSpace, q, if threads = allCores then hw else threads⟩) i.images
          (fun ds hds gs hgs g hg k hk => outcome_total hX hk rfl
            (hfit g ⟨i, rfl, ds, hds, gs, hgs, hg⟩))
        exact ⟨_, m, hm, rfl⟩

/-- Every schedule of the threads encoding a surface is finite: it makes at most three steps per
thread, two per job and one per byte; and as long as the call has not returned, some thread can
move.  So every schedule that keeps running threads that can run reaches the return of the call. -/
theorem C13_terminates_partial (X : Ext) (hX : CodecSizes X) (c : Features) (f : Format) (ty : TType)
    (k : Conv) (hk : createConverter c f ty = some k) (hp : isPvrtc f = false) (a : ConvArgs)
    (ha : a.format = f) (img : FImg) (hf : Fits f img.width img.height)
    (hT : 1 < curThreads k img a.threads) (jobs : List (Nat × Nat))
    (hj : makeJobs (k.jobsX img) (k.jobsY img) = .ok jobs)
    (sched : List Choice) (es : List Event) (s : Par)
    (h : (surfacePool X k a img jobs).exec sched (.init (k.initSize a img)) = some (.ok (es, s))) :
    sched.length ≤ 3 * curThreads k img a.threads + 2 * jobs.length + k.initSize a img ∧
    (s.caller ≠ .returned → ∃ ch, (surfacePool X k a img jobs).step s ch ≠ none) := by
  obtain ⟨js, hJ⟩ := image_jobs X hX hk hp a ha img hf
  have := hJ.make
  rw [hj] at this
  simp only [Res.ok.injEq] at this
  subst this
  obtain ⟨hI, -, -, -, -, -, -, hl⟩ := par_reach hJ hT h
  exact ⟨hl, can_move hI⟩

/-- A schedule for a 40x1 R8 surface and two threads: the second thread takes the second batch
while the first is in the middle of its own. -/
def sampleSched : List Choice :=
  [.caller, .worker 0, .worker 0, .caller, .worker 1, .worker 1, .worker 0, .worker 1] ++
  List.replicate 30 (.worker 0) ++ List.replicate 6 (.worker 1) ++
  [.worker 0, .worker 0, .worker 1, .caller, .worker 1, .caller]

/-- Hypotheses met: this interleaving of two threads gives the bytes of the single-threaded run. -/
example :
    let img : FImg := ⟨40, 1, fun x _ => ⟨if x < 33 then 0x3F800000 else 0, 0, 0, 0⟩⟩
    let a : ConvArgs := ⟨.R8, .UNorm, .Standard, {}, .Linear, .Normal, 2⟩
    1 < curThreads (.unorm 1 1) img a.threads ∧ Fits .R8 40 1 ∧
    (∃ jobs es s, makeJobs ((Conv.unorm 1 1).jobsX img) ((Conv.unorm 1 1).jobsY img) = .ok jobs ∧
      (surfacePool Toy.ext (.unorm 1 1) a img jobs).exec sampleSched
        (.init ((Conv.unorm 1 1).initSize a img)) = some (.ok (es, s)) ∧
      s.caller = .returned ∧ s.data = List.replicate 33 255 ++ List.replicate 7 0) ∧
    encodeImage Toy.ext (.unorm 1 1) a img = .ok (List.replicate 33 255 ++ List.replicate 7 0) := by
  refine ⟨by decide, ⟨by decide, by decide, by simp only [layout]; decide⟩, ?_, by decide +kernel⟩
  have key : ∀ (o : Option (Res (List Event × Par))) (d : List UInt8),
      (match o with
        | some (.ok (_, s)) => decide (s.caller = .returned) && decide (s.data = d)
        | _ => false) = true →
      ∃ es s, o = some (.ok (es, s)) ∧ s.caller = .returned ∧ s.data = d := by
    intro o d h
    split at h
    · next es s => exact ⟨es, s, rfl, by simpa using h⟩
    · cases h
  obtain ⟨es, s, h⟩ := key
    ((surfacePool Toy.ext (.unorm 1 1) ⟨.R8, .UNorm, .Standard, {}, .Linear, .Normal, 2⟩
      ⟨40, 1, fun x _ => ⟨if x < 33 then 0x3F800000 else 0, 0, 0, 0⟩⟩ [(0, 0), (1, 0)]).exec sampleSched
        (.init 40)) (List.replicate 33 255 ++ List.replicate 7 0) (by decide +kernel)
  exact ⟨[(0, 0), (1, 0)], es, s, by decide, h⟩

/-- Hypotheses met: the sample world's PVRTC library ignores the number of threads. -/
example : CodecSizes Toy.ext ∧ ThreadBlind Toy.ext := ⟨Toy.ext_sizes, fun _ _ _ _ _ _ _ _ => rfl⟩

end Cuttlefish
