import Verif.Model.Encode
/-
The multi-threaded run of the jobs of one surface, lib/src/Converter.cpp:548-581, as a
small-step system: the calling thread starts the workers one by one and joins them in order; every
worker repeatedly fetches and increments the shared counter and processes the job it got.  Any
thread that can move may move next; a store of one byte is one step.

The pixels, the job list and the per-thread data are not written while the workers run, so a
worker's `process(x, y)` is a fixed sequence of stores (`Conv.process`).  Not modelled: failure to
create a thread or to allocate (exceptions), and the memory model below sequential consistency
(the only shared variables are the atomic counter and the bytes of `data()`; C14 shows the latter
are never shared).
-/
namespace Cuttlefish

/-- What one worker is doing, lib/src/Converter.cpp:567-575. -/
inductive Worker where
  /-- about to execute `curJob++` -/
  | ready
  /-- inside `process` of a job, with these stores left -/
  | busy (job : Nat) (todo : List Write)
  /-- returned from the thread function -/
  | finished
  deriving DecidableEq, Repr

/-- Where the calling thread is, lib/src/Converter.cpp:562-581. -/
inductive Caller where
  /-- in the loop creating the threads -/
  | starting
  /-- about to join thread `i` -/
  | joining (i : Nat)
  /-- all threads joined: `data()` is handed out -/
  | returned
  deriving DecidableEq, Repr

/-- The shared state: `curJob`, `data()`, the threads created so far and the calling thread. -/
structure Par where
  counter : Nat
  data : List UInt8
  workers : List Worker
  caller : Caller
  deriving DecidableEq, Repr

/-- What does not change: the job list, the effect of `process`, the number of threads. -/
structure Pool where
  jobs : List (Nat × Nat)
  proc : Nat → Nat → Res (List Write)
  threads : Nat

/-- Observable steps (for stating properties; the program does not record them). -/
inductive Event where
  | start (w : Nat)
  | begin (w j : Nat)
  | store (w : Nat) (e : Write)
  | finish (w j : Nat)
  | exit (w : Nat)
  | join (w : Nat)
  deriving DecidableEq, Repr

/-- Who moves next. -/
inductive Choice where
  | caller
  | worker (w : Nat)
  deriving DecidableEq, Repr

/-- A step of the calling thread, lib/src/Converter.cpp:562-581; `none` if it has to wait (`join`)
or is done. -/
def Pool.stepCaller (P : Pool) (s : Par) : Option (Event × Par) :=
  match s.caller with
  | .starting =>
    if s.workers.length < P.threads then
      some (.start s.workers.length, ⟨s.counter, s.data, s.workers ++ [.ready],
        if s.workers.length + 1 < P.threads then .starting else .joining 0⟩)
    else none
  | .joining i =>
    match s.workers[i]? with
    | some .finished =>
      some (.join i, ⟨s.counter, s.data, s.workers,
        if i + 1 < P.threads then .joining (i + 1) else .returned⟩)
    | _ => none
  | .returned => none

/-- A step of worker `w`, lib/src/Converter.cpp:567-575: `unsigned int thisJob = curJob++` is one
atomic step on a 32-bit counter. -/
def Pool.stepWorker (P : Pool) (w : Nat) (s : Par) : Option (Res (Event × Par)) :=
  match s.workers[w]? with
  | some .ready =>
    match P.jobs[s.counter]? with
    | none => some (.ok (.exit w, ⟨u32 (s.counter + 1), s.data, s.workers.set w .finished, s.caller⟩))
    | some job =>
      match P.proc job.1 job.2 with
      | .ub => some .ub
      | .ok ws => some (.ok (.begin w s.counter, ⟨u32 (s.counter + 1), s.data,
          s.workers.set w (.busy s.counter ws), s.caller⟩))
  | some (.busy j ((o, b) :: ws)) =>
    if o < s.data.length then
      some (.ok (.store w (o, b), ⟨s.counter, s.data.set o b, s.workers.set w (.busy j ws), s.caller⟩))
    else some .ub
  | some (.busy j []) => some (.ok (.finish w j, ⟨s.counter, s.data, s.workers.set w .ready, s.caller⟩))
  | some .finished => none
  | none => none

/-- One step of the chosen thread; `none` if it cannot move. -/
def Pool.step (P : Pool) (s : Par) : Choice → Option (Res (Event × Par))
  | .caller => (P.stepCaller s).map .ok
  | .worker w => P.stepWorker w s

/-- Running a schedule: the events and the state reached, or undefined behaviour; `none` if the
schedule chooses a thread that cannot move. -/
def Pool.exec (P : Pool) : List Choice → Par → Option (Res (List Event × Par))
  | [], s => some (.ok ([], s))
  | c :: cs, s =>
    match P.step s c with
    | none => none
    | some .ub => some .ub
    | some (.ok (e, s')) =>
      match P.exec cs s' with
      | none => none
      | some .ub => some .ub
      | some (.ok (es, s'')) => some (.ok (e :: es, s''))

/-- The state before the first thread is created. -/
def Par.init (size : Nat) : Par := ⟨0, List.replicate size 0, [], .starting⟩

/-- `std::min(jobsX*jobsY, threadCount)`, lib/src/Converter.cpp:548. -/
def curThreads (k : Conv) (img : FImg) (threads : Nat) : Nat :=
  min (u32 (k.jobsX img * k.jobsY img)) threads

/-- The pool for one surface. -/
def surfacePool (X : Ext) (k : Conv) (a : ConvArgs) (img : FImg) (jobs : List (Nat × Nat)) : Pool :=
  ⟨jobs, k.process X a img, curThreads k img a.threads⟩

/-- What encoding one surface can lead to, lib/src/Converter.cpp:528-585: the single-threaded loop
if there is at most one thread to use, otherwise whatever some schedule leads to. -/
inductive Outcome (X : Ext) (k : Conv) (a : ConvArgs) (img : FImg) : Res (List UInt8) → Prop
  | single : curThreads k img a.threads ≤ 1 → Outcome X k a img (encodeImage X k a img)
  | noJobs : 1 < curThreads k img a.threads → makeJobs (k.jobsX img) (k.jobsY img) = .ub →
      Outcome X k a img .ub
  | multi (jobs : List (Nat × Nat)) (sched : List Choice) (es : List Event) (s : Par) :
      1 < curThreads k img a.threads → makeJobs (k.jobsX img) (k.jobsY img) = .ok jobs →
      (surfacePool X k a img jobs).exec sched (.init (k.initSize a img)) = some (.ok (es, s)) →
      s.caller = .returned → Outcome X k a img (.ok s.data)
  | multiUb (jobs : List (Nat × Nat)) (sched : List Choice) :
      1 < curThreads k img a.threads → makeJobs (k.jobsX img) (k.jobsY img) = .ok jobs →
      (surfacePool X k a img jobs).exec sched (.init (k.initSize a img)) = some .ub →
      Outcome X k a img .ub

/-! ### The whole conversion with any number of threads

The same loops as `convFaces`, `convDepths`, `convMips` and `Tex.convert`, but as relations: every
surface may be encoded by any run of its threads. -/

section
variable {Img : Type}

/-- The innermost loop (faces), lib/src/Converter.cpp:526-586. -/
inductive MayFaces (c : Features) (E : Conv → ConvArgs → Img → Res (List UInt8) → Prop) (a : ConvArgs) :
    List (Option Img) → Res (Bool × List (Option Img) × List (List UInt8)) → Prop
  | nil : MayFaces c E a [] (.ok (true, [], []))
  | noConv (g : Option Img) (gs : List (Option Img)) : createConverter c a.format a.type = none →
      MayFaces c E a (g :: gs) (.ok (false, g :: gs, []))
  | noImage (gs : List (Option Img)) (k : Conv) : createConverter c a.format a.type = some k →
      MayFaces c E a (none :: gs) .ub
  | encUb (i : Img) (gs : List (Option Img)) (k : Conv) : createConverter c a.format a.type = some k →
      E k a i .ub → MayFaces c E a (some i :: gs) .ub
  | restUb (i : Img) (gs : List (Option Img)) (k : Conv) (bytes : List UInt8) :
      createConverter c a.format a.type = some k → E k a i (.ok bytes) →
      MayFaces c E a gs .ub → MayFaces c E a (some i :: gs) .ub
  | cons (i : Img) (gs : List (Option Img)) (k : Conv) (bytes : List UInt8) (ok : Bool)
      (gs' : List (Option Img)) (bs : List (List UInt8)) :
      createConverter c a.format a.type = some k → E k a i (.ok bytes) →
      MayFaces c E a gs (.ok (ok, gs', bs)) →
      MayFaces c E a (some i :: gs) (.ok (ok, none :: gs', bytes :: bs))

/-- The middle loop (depth), lib/src/Converter.cpp:523-587. -/
inductive MayDepths (c : Features) (E : Conv → ConvArgs → Img → Res (List UInt8) → Prop) (a : ConvArgs) :
    List (List (Option Img)) → Res (Bool × List (List (Option Img)) × List (List (List UInt8))) → Prop
  | nil : MayDepths c E a [] (.ok (true, [], []))
  | facesUb (fs : List (Option Img)) (ds : List (List (Option Img))) : MayFaces c E a fs .ub →
      MayDepths c E a (fs :: ds) .ub
  | failed (fs fs' : List (Option Img)) (ds : List (List (Option Img))) (bs : List (List UInt8)) :
      MayFaces c E a fs (.ok (false, fs', bs)) → MayDepths c E a (fs :: ds) (.ok (false, fs' :: ds, []))
  | restUb (fs fs' : List (Option Img)) (ds : List (List (Option Img))) (bs : List (List UInt8)) :
      MayFaces c E a fs (.ok (true, fs', bs)) → MayDepths c E a ds .ub → MayDepths c E a (fs :: ds) .ub
  | cons (fs fs' : List (Option Img)) (ds ds' : List (List (Option Img))) (bs : List (List UInt8))
      (ok : Bool) (bss : List (List (List UInt8))) : MayFaces c E a fs (.ok (true, fs', bs)) →
      MayDepths c E a ds (.ok (ok, ds', bss)) → MayDepths c E a (fs :: ds) (.ok (ok, fs' :: ds', bs :: bss))

/-- The outer loop (levels), lib/src/Converter.cpp:519-590. -/
inductive MayMips (c : Features) (E : Conv → ConvArgs → Img → Res (List UInt8) → Prop) (a : ConvArgs) :
    Store (Option Img) → Res (Bool × Store (Option Img) × Store (List UInt8)) → Prop
  | nil : MayMips c E a [] (.ok (true, [], []))
  | depthsUb (ds : List (List (Option Img))) (ms : Store (Option Img)) : MayDepths c E a ds .ub →
      MayMips c E a (ds :: ms) .ub
  | failed (ds ds' : List (List (Option Img))) (ms : Store (Option Img)) (bs : List (List (List UInt8))) :
      MayDepths c E a ds (.ok (false, ds', bs)) → MayMips c E a (ds :: ms) (.ok (false, ds' :: ms, []))
  | restUb (ds ds' : List (List (Option Img))) (ms : Store (Option Img)) (bs : List (List (List UInt8))) :
      MayDepths c E a ds (.ok (true, ds', bs)) → MayMips c E a ms .ub → MayMips c E a (ds :: ms) .ub
  | cons (ds ds' : List (List (Option Img))) (ms ms' : Store (Option Img))
      (bs : List (List (List UInt8))) (ok : Bool) (bss : Store (List UInt8)) :
      MayDepths c E a ds (.ok (true, ds', bs)) → MayMips c E a ms (.ok (ok, ms', bss)) →
      MayMips c E a (ds :: ms) (.ok (ok, ds' :: ms', if ok then bs :: bss else []))

/-- `Texture::convert` with real threads, lib/src/Texture.cpp:1536-1561: the possible results. -/
def MayConvert (X : Ext) (view : Img → FImg) (c : Features) (hw : Nat) (t : Tex Img) (format : Format)
    (type : TType) (quality : Quality) (alphaType : Alpha) (colorMask : ColorMask)
    (threads : Nat) (r : Res (Bool × Tex Img)) : Prop :=
  if !t.imagesComplete || !isFormatValid c format type then r = .ok (false, t)
  else match t with
    | none => r = .ub
    | some i =>
      if i.colorSpace = .sRGB ∧ !hasNativeSRGB format type then r = .ok (false, t)
      else
        let i' := { i with format, type, alphaType, colorMask }
        let threads' := if threads = allCores then hw else threads
        let a : ConvArgs := ⟨format, type, alphaType, colorMask, i.colorSpace, quality, threads'⟩
        ∃ m, MayMips c (fun k a g => Outcome X k a (view g)) a i.images m ∧
          r = (do
            let (ok, images, textures) ← m
            if ok then pure (true, some { i' with images, textures })
            else pure (false, some { i' with images, format := .Unknown, textures := [] }))

end
end Cuttlefish
